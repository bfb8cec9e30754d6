import Verif.Model.ResourceTable

/-! # Invariant of resource tables -/

set_option linter.unusedSectionVars false
set_option linter.unusedSimpArgs false

namespace RdfTypes

variable {R ρ : Type} [Ord R]

/-- `Rep x E`: the record `x` stands for the set of occurrences `E` (position,
statement key). The laws say that the record operations follow the set. -/
structure ResLaws (ops : ResOps R ρ) (Rep : ρ → (Pos → Nat → Prop) → Prop) : Prop where
  congr : ∀ {x E E'}, Rep x E → (∀ p k, E p k ↔ E' p k) → Rep x E'
  mk_rep : ∀ r p k, Rep (ops.create r p k) (fun p' k' => p' = p ∧ k' = k)
  mk_value : ∀ r p k, ops.value (ops.create r p k) = r
  add_rep : ∀ {x E p k}, Rep x E → ¬ E p k →
    ∃ x', ops.add p k x = .ok x' ∧ Rep x' (fun p' k' => E p' k' ∨ (p' = p ∧ k' = k)) ∧
      ops.value x' = ops.value x
  del_rep : ∀ {x E p k}, Rep x E → E p k →
    ∃ x', ops.del p k x = .ok x' ∧ Rep x' (fun p' k' => E p' k' ∧ ¬ (p' = p ∧ k' = k)) ∧
      ops.value x' = ops.value x
  isEmpty_rep : ∀ {x E}, Rep x E → (ops.isEmpty x = true ↔ ∀ p k, ¬ E p k)

/-- The value stored in a slot. -/
def ResOps.val (ops : ResOps R ρ) (res : Slab ρ) (i : Nat) : Option R :=
  (res.get i).map ops.value

/-- Invariant of a resource table, where `E i p k` means that slot `i` is used at
position `p` of the statement of key `k`. -/
structure ResInv (ops : ResOps R ρ) (Rep : ρ → (Pos → Nat → Prop) → Prop)
    (res : Slab ρ) (idx : Index) (E : Nat → Pos → Nat → Prop) : Prop where
  wf : res.WF
  sorted : Index.Sorted (ops.val res) idx
  rep : ∀ i x, res.get i = some x → Rep x (E i)
  used : ∀ i x, res.get i = some x → ∃ p k, E i p k
  unused : ∀ i, res.get i = none → ∀ p k, ¬ E i p k

namespace ResInv

variable {ops : ResOps R ρ} {Rep : ρ → (Pos → Nat → Prop) → Prop}
variable {res : Slab ρ} {idx : Index} {E E' : Nat → Pos → Nat → Prop}

theorem congr (L : ResLaws ops Rep) (h : ResInv ops Rep res idx E)
    (hE : ∀ i p k, E i p k ↔ E' i p k) : ResInv ops Rep res idx E' where
  wf := h.wf
  sorted := h.sorted
  rep i x hx := L.congr (h.rep i x hx) (hE i)
  used i x hx := by
    obtain ⟨p, k, hpk⟩ := h.used i x hx
    exact ⟨p, k, (hE i p k).1 hpk⟩
  unused i hi p k hpk := h.unused i hi p k ((hE i p k).2 hpk)

theorem val_isSome_of_used (h : ResInv ops Rep res idx E) {i : Nat} {p : Pos} {k : Nat}
    (hE : E i p k) : ∃ r, ops.val res i = some r := by
  unfold ResOps.val
  cases hg : res.get i with
  | none => exact absurd hE (h.unused i hg p k)
  | some x => exact ⟨ops.value x, rfl⟩

theorem used_of_val (h : ResInv ops Rep res idx E) {i : Nat} {r : R}
    (hv : ops.val res i = some r) : ∃ p k, E i p k := by
  unfold ResOps.val at hv
  cases hg : res.get i with
  | none => simp [hg] at hv
  | some x => exact h.used i x hg

theorem resourceCmp_compares (res : Slab ρ) (r : R) (l : Index) :
    Index.Compares (ops.val res) r l (ops.resourceCmp res r) := by
  intro i _ x hx
  unfold ResOps.val at hx
  cases hg : res.get i with
  | none => simp [hg] at hx
  | some y =>
    simp only [hg, Option.map_some, Option.some.injEq] at hx
    subst hx
    simp [ResOps.resourceCmp, Slab.index, hg, bind, Except.bind, pure, Except.pure]

theorem resourceIndexCmp_compares (res : Slab ρ) (r : R) (j : Nat) (l : Index)
    (hj : ops.val res j = some r) :
    Index.Compares (ops.val res) r l (ops.resourceIndexCmp res j) := by
  intro i _ x hx
  unfold ResOps.val at hx hj
  cases hg : res.get i with
  | none => simp [hg] at hx
  | some y =>
    cases hgj : res.get j with
    | none => simp [hgj] at hj
    | some z =>
      simp only [hg, hgj, Option.map_some, Option.some.injEq] at hx hj
      subst hx
      subst hj
      simp [ResOps.resourceIndexCmp, Slab.index, hg, hgj, bind, Except.bind, pure, Except.pure]

variable [Std.TransOrd R] [Std.LawfulEqOrd R]

/-- Looking up a resource never panics and finds a slot of that value exactly
when the index has one. -/
theorem indexOf_spec (h : ResInv ops Rep res idx E) (r : R) :
    ∃ o, ops.indexOfResource res idx r = .ok o ∧
      ∀ i, o = some i ↔ i ∈ idx ∧ ops.val res i = some r :=
  Index.get_spec h.sorted (resourceCmp_compares res r idx)

/-- How acquiring a resource changes the values and the index. -/
structure _root_.RdfTypes.Acquired (rep : Bool) (ops : ResOps R ρ) (res : Slab ρ) (idx : Index) (r : R)
    (found : Option Nat) (res' : Slab ρ) (idx' : Index) (i' : Nat) : Prop where
  val : ∀ j, ops.val res' j = if j = i' then some r else ops.val res j
  hit : ∀ i, found = some i → i' = i ∧ idx' = idx ∧ ops.val res i = some r
  fresh : found = none → ops.val res i' = none
  sub : ∀ i, i ∈ idx' → i ∈ idx ∨ i = i'
  keep : ∀ i, i ∈ idx → ops.val res i ≠ some r → i ∈ idx'
  cover : found = none → ∃ i, i ∈ idx' ∧ ops.val res' i = some r
  first : rep = false → ∀ i, i ∈ idx → i ∈ idx'
  last : rep = true → found = none → i' ∈ idx'

/-- How releasing a resource changes the values and the index. -/
structure _root_.RdfTypes.Released (ops : ResOps R ρ) (res : Slab ρ) (idx : Index) (r : R)
    (i : Nat) (res' : Slab ρ) (idx' : Index) (dropped : Bool) : Prop where
  val : ∀ j, ops.val res' j = if dropped = true ∧ j = i then none else ops.val res j
  gone : dropped = true → ∀ j, j ∈ idx' ↔ j ∈ idx ∧ ops.val res j ≠ some r
  kept : dropped = false → idx' = idx

/-- Acquiring a resource. -/
theorem acquire_spec (L : ResLaws ops Rep) (rep : Bool) (h : ResInv ops Rep res idx E)
    (pos : Pos) (k : Nat) (r : R) (found : Option Nat)
    (hfound : ∀ i, found = some i → ops.val res i = some r)
    (hfresh : ∀ i, ¬ E i pos k) :
    ∃ res' idx' i', ops.acquire rep res idx pos k r found = .ok (res', idx', i') ∧
      ResInv ops Rep res' idx' (fun j p n => E j p n ∨ (j = i' ∧ p = pos ∧ n = k)) ∧
      Acquired rep ops res idx r found res' idx' i' := by
  cases found with
  | some i =>
    have hi := hfound i rfl
    obtain ⟨x, hx, hxr⟩ : ∃ x, res.get i = some x ∧ ops.value x = r := by
      unfold ResOps.val at hi
      cases hg : res.get i with
      | none => simp [hg] at hi
      | some x => exact ⟨x, rfl, by simpa [hg] using hi⟩
    obtain ⟨x', hadd, hrep', hval'⟩ := L.add_rep (h.rep i x hx) (hfresh i)
    have hget : ∀ j, (res.put i x').get j = if j = i then some x' else res.get j :=
      Slab.get_put hx
    have hv : ∀ j, ops.val (res.put i x') j = if j = i then some r else ops.val res j := by
      intro j
      unfold ResOps.val
      rw [hget]
      by_cases hj : j = i
      · simp [hj, hval', hxr]
      · simp [hj]
    have hv' : ∀ j, ops.val (res.put i x') j = ops.val res j := by
      intro j
      rw [hv]
      by_cases hj : j = i
      · simp [hj, hi]
      · simp [hj]
    refine ⟨res.put i x', idx, i, ?_, ?_, hv, ?_, by simp, ?_, ?_, by simp, fun _ _ h => h, by simp⟩
    · simp [ResOps.acquire, Slab.modify_ok hx hadd, bind, Except.bind, pure, Except.pure]
    · constructor
      · exact Slab.wf_put h.wf hx
      · exact h.sorted.congr (fun j _ => hv' j)
      · intro j y hy
        rw [hget] at hy
        by_cases hj : j = i
        · subst hj
          simp only [if_true, Option.some.injEq] at hy
          subst hy
          exact L.congr hrep' (by intro p n; simp)
        · simp only [hj, if_false] at hy
          exact L.congr (h.rep j y hy) (by intro p n; simp [hj])
      · intro j y hy
        rw [hget] at hy
        by_cases hj : j = i
        · exact ⟨pos, k, Or.inr ⟨hj, rfl, rfl⟩⟩
        · simp only [hj, if_false] at hy
          obtain ⟨p, n, hpn⟩ := h.used j y hy
          exact ⟨p, n, Or.inl hpn⟩
      · intro j hj p n hpn
        rw [hget] at hj
        by_cases hji : j = i
        · simp [hji] at hj
        · simp only [hji, if_false, false_and, or_false] at hj hpn
          exact h.unused j hj p n hpn
    · intro j hj
      cases hj
      exact ⟨rfl, rfl, hi⟩
    · intro j hj
      exact Or.inl hj
    · intro j hj _
      exact hj
  | none =>
    have hvac := Slab.get_vacantKey h.wf
    have hget := Slab.get_insert h.wf (ops.create r pos k)
    have hv : ∀ j, ops.val (res.insert (ops.create r pos k)) j =
        if j = res.vacantKey then some r else ops.val res j := by
      intro j
      unfold ResOps.val
      rw [hget]
      by_cases hj : j = res.vacantKey
      · simp [hj, L.mk_value]
      · simp [hj]
    have hnotin : res.vacantKey ∉ idx := by
      intro hm
      obtain ⟨x, hx⟩ := h.sorted.defined _ hm
      simp [ResOps.val, hvac] at hx
    have hvo : ∀ j ∈ idx, ops.val (res.insert (ops.create r pos k)) j = ops.val res j := by
      intro j hj
      rw [hv]
      have : j ≠ res.vacantKey := fun e => hnotin (e ▸ hj)
      simp [this]
    have hs : Index.Sorted (ops.val (res.insert (ops.create r pos k))) idx := h.sorted.congr hvo
    have hnew : ops.val (res.insert (ops.create r pos k)) res.vacantKey = some r := by simp [hv]
    obtain ⟨idx', hins, hs', h1, h2, h3, -⟩ := Index.insert_spec rep res.vacantKey hs
      (resourceIndexCmp_compares (ops := ops) _ r res.vacantKey idx hnew) hnew
    refine ⟨_, idx', res.vacantKey, ?_, ?_, hv, by simp, ?_, h1, ?_, ?_, (Index.insert_mem hins).2,
      fun e _ => (Index.insert_mem hins).1 e⟩
    · simp [ResOps.acquire, hins, bind, Except.bind, pure, Except.pure]
    · constructor
      · exact Slab.wf_insert h.wf _
      · exact hs'
      · intro j y hy
        rw [hget] at hy
        by_cases hj : j = res.vacantKey
        · simp only [hj, if_true, Option.some.injEq] at hy
          subst hy
          refine L.congr (L.mk_rep r pos k) ?_
          intro p n
          constructor
          · intro e
            exact Or.inr ⟨hj, e⟩
          · rintro (e | e)
            · exact absurd e (hj ▸ h.unused _ hvac p n)
            · exact e.2
        · simp only [hj, if_false] at hy
          exact L.congr (h.rep j y hy) (by intro p n; simp [hj])
      · intro j y hy
        rw [hget] at hy
        by_cases hj : j = res.vacantKey
        · exact ⟨pos, k, Or.inr ⟨hj, rfl, rfl⟩⟩
        · simp only [hj, if_false] at hy
          obtain ⟨p, n, hpn⟩ := h.used j y hy
          exact ⟨p, n, Or.inl hpn⟩
      · intro j hj p n hpn
        rw [hget] at hj
        by_cases hji : j = res.vacantKey
        · simp [hji] at hj
        · simp only [hji, if_false, false_and, or_false] at hj hpn
          exact h.unused j hj p n hpn
    · intro _
      simp [ResOps.val, hvac]
    · intro j hj hne
      exact h2 j hj (by rw [hvo j hj]; exact hne)
    · intro _
      exact h3

/-- Releasing a resource: `cmp` compares with the value of the released slot. -/
theorem release_spec (L : ResLaws ops Rep) (h : ResInv ops Rep res idx E)
    (pos : Pos) (k i : Nat) (r : R) (cmp : Slab ρ → Nat → Res Ordering)
    (hcmp : ∀ res', (∀ j, ops.val res' j = ops.val res j) →
      Index.Compares (ops.val res') r idx (cmp res'))
    (hval : ops.val res i = some r) (hE : E i pos k) :
    ∃ res' idx' dropped, ops.release res idx pos k i cmp = .ok (res', idx', dropped) ∧
      ResInv ops Rep res' idx' (fun j p n => E j p n ∧ ¬ (j = i ∧ p = pos ∧ n = k)) ∧
      Released ops res idx r i res' idx' dropped := by
  obtain ⟨x, hx, hxr⟩ : ∃ x, res.get i = some x ∧ ops.value x = r := by
    unfold ResOps.val at hval
    cases hg : res.get i with
    | none => simp [hg] at hval
    | some x => exact ⟨x, rfl, by simpa [hg] using hval⟩
  obtain ⟨x', hdel, hrep', hval'⟩ := L.del_rep (h.rep i x hx) hE
  have hget : ∀ j, (res.put i x').get j = if j = i then some x' else res.get j :=
    Slab.get_put hx
  have hget_i : (res.put i x').get i = some x' := by simp [hget]
  have hv : ∀ j, ops.val (res.put i x') j = ops.val res j := by
    intro j
    unfold ResOps.val
    rw [hget]
    by_cases hj : j = i
    · subst hj
      simp [hx, hval']
    · simp [hj]
  have hs : Index.Sorted (ops.val (res.put i x')) idx := h.sorted.congr (fun j _ => hv j)
  by_cases hemp : ops.isEmpty x' = true
  · obtain ⟨idx', o, hrem, hs', -, hmem⟩ := Index.remove_spec hs (hcmp _ hv)
    have hgete := fun j => Slab.get_erase (s := res.put i x') i j
    have hve : ∀ j, ops.val ((res.put i x').erase i) j =
        if j = i then none else ops.val res j := by
      intro j
      unfold ResOps.val
      rw [hgete, hget]
      by_cases hj : j = i
      · simp [hj]
      · simp [hj]
    refine ⟨(res.put i x').erase i, idx', true, ?_, ?_, ?_, ?_, by simp⟩
    · simp [ResOps.release, Slab.modify_ok hx hdel, Slab.index, hget_i, hemp, hrem,
        Slab.remove_ok hget_i, bind, Except.bind, pure, Except.pure]
    · constructor
      · exact Slab.wf_erase (Slab.wf_put h.wf hx) hget_i
      · refine hs'.congr ?_
        intro j hj
        rw [hve, hv]
        have : j ≠ i := by
          rintro rfl
          exact ((hmem j).1 hj).2 (by rw [hv]; exact hval)
        simp [this]
      · intro j y hy
        rw [hgete] at hy
        by_cases hj : j = i
        · simp [hj] at hy
        · simp only [hj, if_false] at hy
          rw [hget] at hy
          simp only [hj, if_false] at hy
          exact L.congr (h.rep j y hy) (by intro p n; simp [hj])
      · intro j y hy
        rw [hgete] at hy
        by_cases hj : j = i
        · simp [hj] at hy
        · simp only [hj, if_false] at hy
          rw [hget] at hy
          simp only [hj, if_false] at hy
          obtain ⟨p, n, hpn⟩ := h.used j y hy
          exact ⟨p, n, hpn, fun e => hj e.1⟩
      · intro j hj p n hpn
        rw [hgete] at hj
        by_cases hji : j = i
        · subst hji
          refine (L.isEmpty_rep hrep').1 hemp p n ⟨hpn.1, ?_⟩
          intro e
          exact hpn.2 ⟨rfl, e⟩
        · simp only [hji, if_false] at hj
          rw [hget] at hj
          simp only [hji, if_false] at hj
          exact h.unused j hj p n hpn.1
    · intro j
      simp [hve]
    · intro _ j
      rw [hmem, hv]
  · refine ⟨res.put i x', idx, false, ?_, ?_, by simpa using hv, by simp, by simp⟩
    · simp [ResOps.release, Slab.modify_ok hx hdel, Slab.index, hget_i, hemp,
        bind, Except.bind, pure, Except.pure]
    · constructor
      · exact Slab.wf_put h.wf hx
      · exact hs
      · intro j y hy
        rw [hget] at hy
        by_cases hj : j = i
        · subst hj
          simp only [if_true, Option.some.injEq] at hy
          subst hy
          exact L.congr hrep' (by intro p n; simp)
        · simp only [hj, if_false] at hy
          exact L.congr (h.rep j y hy) (by intro p n; simp [hj])
      · intro j y hy
        rw [hget] at hy
        by_cases hj : j = i
        · subst hj
          have : ¬ ∀ p n, ¬ (E j p n ∧ ¬ (p = pos ∧ n = k)) := by
            intro hall
            exact hemp ((L.isEmpty_rep hrep').2 hall)
          apply Classical.byContradiction
          intro hno
          apply this
          intro p n hpn
          exact hno ⟨p, n, hpn.1, fun e => hpn.2 e.2⟩
        · simp only [hj, if_false] at hy
          obtain ⟨p, n, hpn⟩ := h.used j y hy
          exact ⟨p, n, hpn, fun e => hj e.1⟩
      · intro j hj p n hpn
        rw [hget] at hj
        by_cases hji : j = i
        · simp [hji] at hj
        · simp only [hji, if_false] at hj
          exact h.unused j hj p n hpn.1

end ResInv

end RdfTypes
