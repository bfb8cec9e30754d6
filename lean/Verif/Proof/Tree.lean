import Verif.Spec.Tree

/-!
# Every search ends with the same result
-/

namespace RdfTypes

open Spec

namespace Index

variable {cmp : Nat → Res Ordering} {l : Index}

/-- The place that a search finds. -/
structure Lands (cmp : Nat → Res Ordering) (l : Index) (n : Nat) (b : Bool) : Prop where
  le : n ≤ l.length
  less : ∀ (m i : Nat), l[m]? = some i → m < n → cmp i = .ok .lt
  greater : ∀ (m i : Nat), l[m]? = some i → n < m → cmp i = .ok .gt
  here : ∀ i, l[n]? = some i → cmp i = .ok (if b then .eq else .gt)
  found : b = true → n < l.length

theorem survey_get {os : List Ordering} (h : survey cmp l = .ok os) (m i : Nat)
    (hi : l[m]? = some i) : ∃ o, os[m]? = some o ∧ cmp i = .ok o := by
  induction l generalizing os m with
  | nil => simp at hi
  | cons j l ih =>
    simp only [survey, bind, Except.bind, pure, Except.pure] at h
    cases hc : cmp j with
    | error e => simp [hc] at h
    | ok o =>
      simp only [hc] at h
      cases hs : survey cmp l with
      | error e => simp [hs] at h
      | ok os' =>
        simp only [hs, Except.ok.injEq] at h
        subst h
        cases m with
        | zero =>
          simp only [List.getElem?_cons_zero, Option.some.injEq] at hi
          subst hi
          exact ⟨o, rfl, hc⟩
        | succ m => exact ih hs m (by simpa using hi)

theorem survey_length {os : List Ordering} (h : survey cmp l = .ok os) : os.length = l.length := by
  induction l generalizing os with
  | nil => cases h; rfl
  | cons j l ih =>
    simp only [survey, bind, Except.bind, pure, Except.pure] at h
    cases hc : cmp j with
    | error e => simp [hc] at h
    | ok o =>
      simp only [hc] at h
      cases hs : survey cmp l with
      | error e => simp [hs] at h
      | ok os' =>
        simp only [hs, Except.ok.injEq] at h
        subst h
        simp [ih hs]

theorem aligned_lands {os : List Ordering} (h : aligned os = true) : ∃ (n : Nat) (b : Bool),
    n ≤ os.length ∧ (∀ (m : Nat) o, os[m]? = some o → m < n → o = .lt) ∧
    (∀ (m : Nat) o, os[m]? = some o → n < m → o = .gt) ∧
    (∀ o, os[n]? = some o → o = if b then .eq else .gt) ∧ (b = true → n < os.length) := by
  induction os with
  | nil => exact ⟨0, false, by simp, by simp, by simp, by simp, by simp⟩
  | cons o os ih =>
    have hall : os.all (· == .gt) = true → ∀ (m : Nat) o', os[m]? = some o' → o' = .gt := by
      intro h m o' ho
      simpa using List.all_eq_true.1 h o' (List.mem_of_getElem? ho)
    cases o with
    | lt =>
      obtain ⟨n, b, h1, h2, h3, h4, h5⟩ := ih h
      refine ⟨n + 1, b, by simpa using h1, ?_, ?_, ?_, ?_⟩
      · intro m o ho hm
        cases m with
        | zero => simpa using ho.symm
        | succ m => exact h2 m o (by simpa using ho) (by omega)
      · intro m o ho hm
        cases m with
        | zero => omega
        | succ m => exact h3 m o (by simpa using ho) (by omega)
      · intro o ho
        exact h4 o (by simpa using ho)
      · intro hb
        simpa using h5 hb
    | eq =>
      refine ⟨0, true, by simp, by simp, ?_, ?_, by simp⟩
      · intro m o ho hm
        cases m with
        | zero => omega
        | succ m => exact hall h m o (by simpa using ho)
      · intro o ho
        simpa using ho.symm
    | gt =>
      refine ⟨0, false, by simp, by simp, ?_, ?_, by simp⟩
      · intro m o ho hm
        cases m with
        | zero => omega
        | succ m => exact hall h m o (by simpa using ho)
      · intro o ho
        simpa using ho.symm

theorem check_lands (h : check cmp l = .ok ()) : ∃ n b, Lands cmp l n b := by
  simp only [check, bind, Except.bind] at h
  cases hs : survey cmp l with
  | error e => simp [hs] at h
  | ok os =>
    simp only [hs] at h
    cases ha : aligned os with
    | false => simp [ha] at h
    | true =>
      obtain ⟨n, b, h1, h2, h3, h4, h5⟩ := aligned_lands ha
      rw [survey_length hs] at h1 h5
      refine ⟨n, b, h1, ?_, ?_, ?_, h5⟩
      · intro m i hi hm
        obtain ⟨o, ho, hc⟩ := survey_get hs m i hi
        rw [hc, h2 m o ho hm]
      · intro m i hi hm
        obtain ⟨o, ho, hc⟩ := survey_get hs m i hi
        rw [hc, h3 m o ho hm]
      · intro i hi
        obtain ⟨o, ho, hc⟩ := survey_get hs n i hi
        rw [hc, h4 o ho]

theorem Lands.tail {i : Nat} {n : Nat} {b : Bool} (h : Lands cmp (i :: l) (n + 1) b) :
    Lands cmp l n b :=
  ⟨by simpa using h.le, fun m j hj hm => h.less (m + 1) j (by simpa using hj) (by omega),
    fun m j hj hm => h.greater (m + 1) j (by simpa using hj) (by omega),
    fun j hj => h.here j (by simpa using hj), fun hb => by simpa using h.found hb⟩

/-- Every search among the items that leaves the place in question ends there. -/
theorem Lands.probe {n : Nat} {b : Bool} (h : Lands cmp l n b) {lo hi : Nat}
    {r : Res (Nat × Bool)} (hp : Probe cmp l lo hi r) (h1 : lo ≤ n) (h2 : n ≤ hi)
    (h3 : b = true → n < hi) : r = .ok (n, b) := by
  induction hp with
  | absent =>
    obtain rfl := Nat.le_antisymm h1 h2
    cases b with
    | false => rfl
    | true => exact absurd (h3 rfl) (by simp)
  | @smaller lo hi m i r ha hb hi' hc hp ih =>
    refine ih (Nat.lt_of_not_le fun hm => ?_) h2 h3
    rcases Nat.lt_or_eq_of_le hm with hm | rfl
    · rw [h.greater m i hi' hm] at hc; cases hc
    · rw [h.here i hi'] at hc; cases b <;> cases hc
  | @greater lo hi m i r ha hb hi' hc hp ih =>
    have hm : n ≤ m := Nat.le_of_not_lt fun hm => by
      rw [h.less m i hi' hm] at hc; cases hc
    refine ih h1 hm fun hb' => ?_
    rcases Nat.lt_or_eq_of_le hm with hm | rfl
    · exact hm
    · rw [h.here i hi'] at hc; subst hb'; cases hc
  | @equal lo hi m i ha hb hi' hc =>
    rcases Nat.lt_trichotomy m n with hm | rfl | hm
    · rw [h.less m i hi' hm] at hc; cases hc
    · rw [h.here i hi'] at hc
      cases b <;> cases hc
      rfl
    · rw [h.greater m i hi' hm] at hc; cases hc
  | @panics lo hi m i e ha hb hi' hc =>
    rcases Nat.lt_trichotomy m n with hm | rfl | hm
    · rw [h.less m i hi' hm] at hc; cases hc
    · rw [h.here i hi'] at hc; cases hc
    · rw [h.greater m i hi' hm] at hc; cases hc

theorem Lands.step {i : Nat} {n : Nat} {b : Bool} (h : Lands cmp (i :: l) n b) :
    (∃ n', n = n' + 1 ∧ cmp i = .ok .lt ∧ Lands cmp l n' b) ∨
    (n = 0 ∧ cmp i = .ok (if b then .eq else .gt)) := by
  cases n with
  | zero => exact .inr ⟨rfl, h.here i rfl⟩
  | succ n => exact .inl ⟨n, rfl, h.less 0 i rfl (by omega), h.tail⟩

theorem Lands.nil {n : Nat} {b : Bool} (h : Lands cmp [] n b) : n = 0 ∧ b = false := by
  have := h.le
  have hf := h.found
  constructor
  · simpa using this
  · cases b with
    | false => rfl
    | true => simpa using hf rfl

theorem Lands.getFrom {n : Nat} {b : Bool} (h : Lands cmp l n b) :
    getFrom cmp l = .ok (if b then l[n]? else none) := by
  induction l generalizing n with
  | nil => obtain ⟨rfl, rfl⟩ := h.nil; rfl
  | cons i l ih =>
    rcases h.step with ⟨n, rfl, hc, ht⟩ | ⟨rfl, hc⟩
    · simp [Index.getFrom, hc, ih ht, bind, Except.bind]
    · cases b <;> simp at hc <;> simp [Index.getFrom, hc, bind, Except.bind]

theorem Lands.insertFrom {n : Nat} {b : Bool} (h : Lands cmp l n b) (rep : Bool) (item : Nat) :
    insertFrom rep cmp item l =
      .ok (if b then (if rep then l.set n item else l) else l.take n ++ item :: l.drop n) := by
  induction l generalizing n with
  | nil => obtain ⟨rfl, rfl⟩ := h.nil; rfl
  | cons i l ih =>
    rcases h.step with ⟨n, rfl, hc, ht⟩ | ⟨rfl, hc⟩
    · simp only [Index.insertFrom, hc, ih ht, bind, Except.bind, pure, Except.pure]
      cases b <;> cases rep <;> simp
    · cases b <;> simp at hc <;> cases rep <;> simp [Index.insertFrom, hc, bind, Except.bind, pure, Except.pure]

theorem Lands.removeFrom {n : Nat} {b : Bool} (h : Lands cmp l n b) :
    removeFrom cmp l = .ok (if b then (l.eraseIdx n, l[n]?) else (l, none)) := by
  induction l generalizing n with
  | nil => obtain ⟨rfl, rfl⟩ := h.nil; rfl
  | cons i l ih =>
    rcases h.step with ⟨n, rfl, hc, ht⟩ | ⟨rfl, hc⟩
    · simp only [Index.removeFrom, hc, ih ht, bind, Except.bind, pure, Except.pure]
      cases b <;> simp
    · cases b <;> simp at hc <;> simp [Index.removeFrom, hc, bind, Except.bind, pure, Except.pure]

theorem survey_mapM : survey cmp l = l.mapM cmp := by
  induction l with
  | nil => rfl
  | cons i l ih => rw [List.mapM_cons, ← ih]; rfl

theorem aligned_iff {os : List Ordering} :
    aligned os = true ↔ os.Pairwise fun a b => a ≠ .lt → b = .gt := by
  induction os with
  | nil => simp [aligned]
  | cons o os ih =>
    rw [List.pairwise_cons, ← ih]
    have hall : os.all (· == .gt) = true → aligned os = true := by
      intro h
      cases os with
      | nil => rfl
      | cons o os =>
        simp only [List.all_cons, Bool.and_eq_true, beq_iff_eq] at h
        obtain ⟨rfl, h⟩ := h
        exact h
    cases o with
    | lt => simp [aligned]
    | eq => simpa [aligned] using hall
    | gt => simpa [aligned] using hall

/-- The check asks for order. -/
theorem check_iff : check cmp l = .ok () ↔ InOrder cmp l := by
  simp only [check, InOrder, survey_mapM, bind, Except.bind]
  cases l.mapM cmp with
  | error e => simp
  | ok os =>
    simp only [Except.ok.injEq, exists_eq_left']
    rw [← aligned_iff]
    cases aligned os <;> simp [pure, Except.pure]

end Index

/-- There is a search: from the left. -/
theorem probe_exists (cmp : Nat → Res Ordering) (l : Index) (lo hi : Nat) (h : lo ≤ hi)
    (hi' : hi ≤ l.length) : ∃ o, Probe cmp l lo hi o := by
  induction hn : hi - lo generalizing lo with
  | zero =>
    obtain rfl : lo = hi := by omega
    exact ⟨_, .absent⟩
  | succ n ih =>
    have hlt : lo < l.length := by omega
    have hg : l[lo]? = some l[lo] := List.getElem?_eq_getElem hlt
    cases hc : cmp l[lo] with
    | error e => exact ⟨_, .panics (Nat.le_refl _) (by omega) hg hc⟩
    | ok o =>
      cases o with
      | lt =>
        obtain ⟨r, hr⟩ := ih (lo + 1) (by omega) (by omega)
        exact ⟨r, .smaller (Nat.le_refl _) (by omega) hg hc hr⟩
      | eq => exact ⟨_, .equal (Nat.le_refl _) (by omega) hg hc⟩
      | gt => exact ⟨_, .greater (Nat.le_refl _) (by omega) hg hc .absent⟩

end RdfTypes
