import Verif.Proof.Isomorphism

/-!
# Exactly which renamings the search accepts
-/

set_option linter.unusedSectionVars false

namespace RdfTypes.Isomorphism

open Spec (positions)

variable {R I L : Type} [Ord R] [DecidableEq R] [DecidableEq I] [DecidableEq L]

/-! ## Lists -/

section lists

theorem paired_iff {A K : Type} (k k' : A → K) :
    ∀ (l l' : List A), Spec.Paired (fun a b => k a = k' b) l l' ↔ (l.map k).Perm (l'.map k') := by
  intro l l'
  constructor
  · rintro ⟨z, h1, h2, h3⟩
    refine (h1.map k).symm.trans (List.Perm.trans (List.Perm.of_eq ?_) (h2.map k'))
    rw [List.map_map, List.map_map]
    exact List.map_congr_left fun p hp => h3 p hp
  · induction l generalizing l' with
    | nil =>
      intro h
      have : l' = [] := by simpa using h.symm.eq_nil
      subst this
      exact ⟨[], by simp, by simp, by simp⟩
    | cons a l ih =>
      intro h
      have : k a ∈ l'.map k' := h.mem_iff.1 (by simp)
      obtain ⟨b, hb, e⟩ := List.mem_map.1 this
      obtain ⟨s, t, rfl⟩ := List.append_of_mem hb
      have hp : (s ++ b :: t).Perm (b :: (s ++ t)) := List.perm_middle
      have h2 := h.trans (hp.map k')
      rw [List.map_cons, List.map_cons, e] at h2
      obtain ⟨z, h3, h4, h5⟩ := ih _ h2.cons_inv
      refine ⟨(a, b) :: z, h3.cons a, (h4.cons b).trans hp.symm, ?_⟩
      intro p hp
      rcases List.mem_cons.1 hp with rfl | hp
      · exact e.symm
      · exact h5 p hp

theorem length_eq_sum {A : Type} [DecidableEq A] :
    ∀ (keys l : List A), keys.Nodup → (∀ x ∈ l, x ∈ keys) → l.length = (keys.map (l.count ·)).sum
  | [], l, _, h => by
    have : l = [] := List.eq_nil_iff_forall_not_mem.2 fun x hx => by simpa using h x hx
    simp [this]
  | k :: keys, l, hn, h => by
    rw [List.nodup_cons] at hn
    have ih := length_eq_sum keys (l.filter (fun x => decide (x ≠ k))) hn.2 (by
      intro x hx
      rw [List.mem_filter] at hx
      rcases List.mem_cons.1 (h x hx.1) with e | h'
      · simp [e] at hx
      · exact h')
    have h1 : keys.map (fun x => (l.filter (fun x => decide (x ≠ k))).count x) =
        keys.map (fun x => l.count x) := by
      refine List.map_congr_left fun x hx => List.count_filter ?_
      simp only [decide_eq_true_eq]
      rintro rfl
      exact hn.1 hx
    rw [h1] at ih
    rw [List.map_cons, List.sum_cons, ← ih]
    have : ∀ l : List A, l.length = l.count k + (l.filter (fun x => decide (x ≠ k))).length := by
      intro l
      induction l with
      | nil => rfl
      | cons x l ih =>
        by_cases e : x = k
        · simp [e] at ih ⊢
          omega
        · rw [List.count_cons_of_ne e, List.filter_cons_of_pos (by simpa using e)]
          simp only [List.length_cons]
          omega
    exact this l

end lists

/-! ## The trace of a successful search -/

section trace

variable [Std.TransOrd R] [Std.LawfulEqOrd R] {i : ReverseInterpretation R I L} {K : Type}
  {kind : R → Option K} {a b : OrdMap R (BlankSignature R)}

theorem try_trace {m m' : Bijection R} {x : R} {next : Bijection R → Res (Option (Bijection R))}
    {sig : BlankSignature R} (hx : a.get x = some sig) :
    ∀ (l : OrdSet R), (∀ y ∈ l, ∃ sig', b.get y = some sig') →
      Bijection.tryCandidates i a b m x next l = .ok (some m') →
      ∃ y ∈ l, ∃ sig', b.get y = some sig' ∧ m.backward.get y = none ∧
        (m.insert x y).signatureMatchesWith i sig sig' = true ∧ next (m.insert x y) = .ok (some m')
  | [], _, h => by simp [Bijection.tryCandidates] at h
  | y :: l, hl, h => by
    obtain ⟨sig', hy⟩ := hl y (by simp)
    have ih := try_trace (m := m) (m' := m') (next := next) hx l (fun y' h' => hl y' (by simp [h']))
    have fin : Bijection.tryCandidates i a b m x next l = .ok (some m') →
        ∃ y' ∈ y :: l, ∃ sig', b.get y' = some sig' ∧ m.backward.get y' = none ∧
          (m.insert x y').signatureMatchesWith i sig sig' = true ∧
          next (m.insert x y') = .ok (some m') := by
      intro h'
      obtain ⟨y', h1, h2⟩ := ih h'
      exact ⟨y', by simp [h1], h2⟩
    rw [try_cons m x next y l hx hy] at h
    split at h
    · next hc =>
      cases e : next (m.insert x y) with
      | error p =>
        rw [e] at h
        cases h
      | ok o =>
        rw [e] at h
        cases o with
        | none => exact fin h
        | some m'' =>
          have : m'' = m' := by simpa [Except.bind] using h
          subst this
          exact ⟨y, by simp, sig', hy, hc.1, hc.2, e⟩
    · exact fin h

theorem find_trace : ∀ (cs : List (R × OrdSet R)) (m m' : Bijection R), Ready kind a b cs →
    OrdMap.Sorted cs → Good kind m →
    (∀ z w, m.forward.get z = some w → ∀ x l, (x, l) ∈ cs → compare z x = .lt) →
    Bijection.findFromCandidates i a b cs m = .ok (some m') →
    (∀ z w, m.forward.get z = some w → m'.forward.get z = some w) ∧
    (∀ z w, m'.forward.get z = some w → m.forward.get z = some w ∨ ∃ l, (z, l) ∈ cs) ∧
    ∀ x l, (x, l) ∈ cs → ∃ y sig sig' mx, m'.forward.get x = some y ∧ a.get x = some sig ∧
      b.get y = some sig' ∧ Good kind mx ∧
      (∀ z w, mx.forward.get z = some w ↔ m'.forward.get z = some w ∧ compare z x ≠ .gt) ∧
      mx.signatureMatchesWith i sig sig' = true
  | [], m, m', _, _, _, _, h => by
    have : m = m' := by simpa [Bijection.findFromCandidates] using h
    subst this
    exact ⟨fun _ _ h => h, fun _ _ h => Or.inl h, fun x l h => by simp at h⟩
  | (x, l) :: cs, m, m', hr, hs, hm, hlt, h => by
    obtain ⟨⟨sig, hx⟩, hkx, hl⟩ := hr x l (by simp)
    rw [OrdMap.sorted_cons] at hs
    have hfx : m.forward.get x = none := by
      cases e : m.forward.get x with
      | none => rfl
      | some w =>
        have := hlt x w e x l (by simp)
        simp [Std.ReflCmp.compare_self] at this
    rw [Bijection.findFromCandidates] at h
    obtain ⟨y, hy, sig', hy', hyb, hsm, hn⟩ := try_trace hx l (fun y hy => (hl y hy).1) h
    have hg : Good kind (m.insert x y) := hm.insert hkx (hl y hy).2 hfx hyb
    obtain ⟨h1, h2, h3⟩ := find_trace cs (m.insert x y) m' (fun x' l' h => hr x' l' (by simp [h])) hs.2
      hg (by
        intro z w hz x' l' h'
        rw [get_forward_insert hm] at hz
        split at hz
        · next e =>
          rw [e]
          exact hs.1 _ h'
        · exact hlt z w hz x' l' (by simp [h'])) hn
    have hfwd : ∀ z w, m.forward.get z = some w → (m.insert x y).forward.get z = some w := by
      intro z w hz
      rw [get_forward_insert hm, if_neg]
      · exact hz
      · rintro rfl
        rw [hfx] at hz
        cases hz
    refine ⟨fun z w hz => h1 z w (hfwd z w hz), fun z w hz => ?_, fun x' l' h' => ?_⟩
    · rcases h2 z w hz with h' | ⟨l', h'⟩
      · rw [get_forward_insert hm] at h'
        split at h'
        · next e => exact Or.inr ⟨l, by simp [e]⟩
        · exact Or.inl h'
      · exact Or.inr ⟨l', by simp [h']⟩
    · rcases List.mem_cons.1 h' with e | h'
      · cases e
        refine ⟨y, sig, sig', m.insert x y, h1 _ _ ?_, hx, hy', hg, fun z w => ⟨fun hz => ⟨h1 z w hz, ?_⟩, ?_⟩,
          hsm⟩
        · rw [get_forward_insert hm, if_pos rfl]
        · rw [get_forward_insert hm] at hz
          split at hz
          · next e =>
            simp [e, Std.ReflCmp.compare_self]
          · simp [hlt z w hz x l (by simp)]
        · rintro ⟨hz, hc⟩
          rcases h2 z w hz with h' | ⟨l'', h'⟩
          · exact h'
          · have := hs.1 _ h'
            exact absurd (Std.OrientedCmp.gt_of_lt this) hc
      · exact h3 x' l' h'

/-- If some function on the blank nodes passes each check of the search, the search
succeeds. -/
theorem find_complete' (τ : R → R) (D : R → Prop)
    (hinj : ∀ x x', D x → D x' → τ x = τ x' → x = x')
    (hfit : ∀ m x sig sig', D x → Good kind m →
      (∀ z w, m.forward.get z = some w ↔ (D z ∧ w = τ z) ∧ compare z x ≠ .gt) →
      a.get x = some sig → b.get (τ x) = some sig' → m.signatureMatchesWith i sig sig' = true) :
    ∀ (cs : List (R × OrdSet R)) (m : Bijection R), Ready kind a b cs →
    OrdMap.Sorted cs → Good kind m →
    (∀ z w, m.forward.get z = some w → (D z ∧ w = τ z) ∧ ∀ x l, (x, l) ∈ cs → compare z x = .lt) →
    (∀ z, D z → m.forward.get z = some (τ z) ∨ ∃ l, (z, l) ∈ cs) →
    (∀ x l, (x, l) ∈ cs → D x ∧ τ x ∈ l) →
    ∃ m', Bijection.findFromCandidates i a b cs m = .ok (some m')
  | [], m, _, _, _, _, _, _ => ⟨m, rfl⟩
  | (x, l) :: cs, m, hr, hs, hm, hτ, hall, hc => by
    obtain ⟨⟨sig, hx⟩, hkx, hl⟩ := hr x l (by simp)
    rw [OrdMap.sorted_cons] at hs
    have hn : (cs.map Prod.fst).Nodup := OrdMap.nodup_keys hs.2
    have hfx : m.forward.get x = none := by
      cases e : m.forward.get x with
      | none => rfl
      | some w =>
        have := (hτ x w e).2 x l (by simp)
        simp [Std.ReflCmp.compare_self] at this
    obtain ⟨hD, hmem⟩ := hc x l (by simp)
    obtain ⟨⟨sig', hy⟩, hky⟩ := hl _ hmem
    have hb : m.backward.get (τ x) = none := by
      cases e : m.backward.get (τ x) with
      | none => rfl
      | some z =>
        have h1 := (hm.inverse _ _).2 e
        obtain ⟨⟨h2, h3⟩, -⟩ := hτ _ _ h1
        rw [← hinj x z hD h2 h3, hfx] at h1
        cases h1
    have step : ∀ y ∈ l, m.backward.get y = none → Good kind (m.insert x y) ∧
        ∀ x' l', (x', l') ∈ cs → (m.insert x y).forward.get x' = none := by
      intro y hy' hyb
      refine ⟨hm.insert hkx (hl y hy').2 hfx hyb, fun x' l' h => ?_⟩
      rw [get_forward_insert hm]
      have hlt := hs.1 _ h
      rw [if_neg]
      · cases e : m.forward.get x' with
        | none => rfl
        | some w =>
          have := (hτ x' w e).2 x' l' (by simp [h])
          simp [Std.ReflCmp.compare_self] at this
      · rintro rfl
        simp [Std.ReflCmp.compare_self] at hlt
    have hr' : Ready kind a b cs := fun x' l' h => hr x' l' (by simp [h])
    obtain ⟨hg, -⟩ := step _ hmem hb
    have hget := get_forward_insert hm x (τ x)
    have hτ' : ∀ z w, (m.insert x (τ x)).forward.get z = some w →
        (D z ∧ w = τ z) ∧ ∀ x' l', (x', l') ∈ cs → compare z x' = .lt := by
      intro z w h
      rw [hget] at h
      split at h
      · next e =>
        cases h
        exact ⟨⟨e ▸ hD, by rw [e]⟩, fun x' l' h' => e ▸ hs.1 _ h'⟩
      · exact ⟨(hτ z w h).1, fun x' l' h' => (hτ z w h).2 x' l' (by simp [h'])⟩
    have hall' : ∀ z, D z → (m.insert x (τ x)).forward.get z = some (τ z) ∨ ∃ l, (z, l) ∈ cs := by
      intro z hz
      rw [hget]
      by_cases e : z = x
      · subst e
        simp
      · rw [if_neg e]
        rcases hall z hz with h | ⟨l', h⟩
        · exact Or.inl h
        · rcases List.mem_cons.1 h with h | h
          · cases h
            exact absurd rfl e
          · exact Or.inr ⟨l', h⟩
    refine try_complete hx hy hb ?_ ?_ l hmem ?_
    · refine hfit _ x sig sig' hD hg (fun z w => ⟨fun h => ⟨(hτ' z w h).1, ?_⟩, ?_⟩) hx hy
      · rw [hget] at h
        split at h
        · next e => simp [e, Std.ReflCmp.compare_self]
        · simp [(hτ z w h).2 x l (by simp)]
      · rintro ⟨⟨h1, rfl⟩, h2⟩
        rcases hall' z h1 with h | ⟨l', h⟩
        · exact h
        · exact absurd (Std.OrientedCmp.gt_of_lt (hs.1 _ h)) h2
    · exact find_complete' τ D hinj hfit cs _ hr' hs.2 hg hτ' hall'
        (fun x' l' h => hc x' l' (by simp [h]))
    · intro y hy'
      refine ⟨(hl y hy').1, fun hyb => ?_⟩
      obtain ⟨hg, hf'⟩ := step y hy' hyb
      obtain ⟨o, e, -⟩ := find_spec (i := i) cs (m.insert x y) hr' hn hg hf'
      exact ⟨o, e⟩

end trace

/-! ## The whole function -/

section whole

variable [Std.TransOrd R] [Std.LawfulEqOrd R] {i : ReverseInterpretation R I L} {K : Type}
  {kind : R → Option K}

/-- A partial bijection that is a function up to a blank node. -/
def UpTo (m : Bijection R) (D : R → Prop) (τ : R → R) (x : R) : Prop :=
  ∀ z w, m.forward.get z = some w ↔ (D z ∧ w = τ z) ∧ compare z x ≠ .gt

theorem keys_eq {m m' : Bijection R} (hm : Good kind m) (hm' : Good kind m')
    (h : ∀ z w, m.forward.get z = some w ↔ m'.forward.get z = some w) :
    leftKey m = leftKey m' ∧ rightKey m = rightKey m' := by
  constructor
  · funext r
    exact Option.ext (h r)
  · funext r
    have : m.backward.get r = m'.backward.get r := by
      refine Option.ext fun z => ?_
      rw [← hm.inverse, ← hm'.inverse]
      exact h z r
    simp [rightKey, this]

/-- What is checked for each blank node by a search that succeeds. -/
theorem findBijectionWith_trace (hk : Kinds i kind) {a b : List (Quad R)} {m : Bijection R}
    (h : findBijectionWith i a b = .ok (some m)) :
    a.length = b.length ∧ ∀ x y, m.forward.get x = some y → ∃ mx, Good kind mx ∧
      (∀ z w, mx.forward.get z = some w ↔ m.forward.get z = some w ∧ compare z x ≠ .gt) ∧
      ((sigOf i a x).map (·.map (leftKey mx))).Perm ((sigOf i b y).map (·.map (rightKey mx))) := by
  have ha := collectSignatures_sorted i a
  have hb := collectSignatures_sorted i b
  rcases findBijectionWith_eq (i := i) a b with ⟨hc, e⟩ | ⟨-, e⟩
  rotate_left
  · rw [e] at h
    cases h
  rw [e] at h
  rcases allCandidates_spec i _ _ ha hb hc.2.2.2.2 with ⟨c, e1, hf, hdom⟩ | ⟨e1, -⟩
  rotate_left
  · rw [e1] at h
    cases h
  rw [e1] at h
  replace h : Bijection.findFromCandidates i (collectSignatures i a) (collectSignatures i b) c {} =
    .ok (some m) := h
  obtain ⟨-, h2, h3⟩ := find_trace c {} m (ready_of_found hk.anonymous hf) hf.sorted
    (Good.empty (kind := kind)) (fun z w h => by simp [OrdMap.get] at h) h
  refine ⟨hc.1, fun x y hxy => ?_⟩
  rcases h2 x y hxy with h' | ⟨l, hl⟩
  · simp [OrdMap.get] at h'
  obtain ⟨y', sig, sig', mx, h4, h5, h6, h7, h8, h9⟩ := h3 x l hl
  rw [hxy] at h4
  cases h4
  refine ⟨mx, h7, h8, ?_⟩
  have := (h7.signatureMatchesWith hk sig sig').1 h9
  exact ((signature i h5).symm.map _).trans (this.trans ((signature i h6).map _))

theorem length_sigOf (ds : List (Quad R)) (x : R) :
    (sigOf i ds x).length = (ds.flatMap (blanksOf i)).count x := by
  unfold sigOf
  induction ds with
  | nil => rfl
  | cons q ds ih =>
    rw [List.flatMap_cons, List.flatMap_cons, List.length_append, ih, List.count_append,
      List.length_map]
    congr 1
    rw [List.count, List.countP_eq_length_filter]
    rfl

theorem mem_blanks (ds : List (Quad R)) (x : R) : x ∈ ds.flatMap (blanksOf i) ↔ Occurs i ds x := by
  simp only [List.mem_flatMap, mem_blanksOf, Occurs]
  constructor
  · rintro ⟨q, h1, h2, h3⟩
    exact ⟨h3, q, h1, h2⟩
  · rintro ⟨h1, q, h2, h3⟩
    exact ⟨q, h2, h3, h1⟩

/-- A function that passes all the checks is enough. -/
theorem findBijectionWith_complete' (hk : Kinds i kind) {τ : R → R} {a b : List (Quad R)}
    (hlen : a.length = b.length)
    (hinj : ∀ x x', Occurs i a x → Occurs i a x' → τ x = τ x' → x = x')
    (hocc : ∀ y, Occurs i b y ↔ ∃ x, Occurs i a x ∧ τ x = y)
    (hsur : ∀ x, Occurs i a x →
      ((sigOf i a x).map (·.map kind)).Perm ((sigOf i b (τ x)).map (·.map kind)))
    (hfit : ∀ m x, Occurs i a x → Good kind m → UpTo m (Occurs i a) τ x →
      ((sigOf i a x).map (·.map (leftKey m))).Perm ((sigOf i b (τ x)).map (·.map (rightKey m)))) :
    ∃ m, findBijectionWith i a b = .ok (some m) := by
  have ha := collectSignatures_sorted i a
  have hb := collectSignatures_sorted i b
  have hsl : ∀ x, Occurs i a x → (sigOf i a x).length = (sigOf i b (τ x)).length := fun x hx => by
    simpa using (hsur x hx).length_eq
  have hsizes : ∀ n, n ∈ (splitBySize (collectSignatures i a)).map Prod.fst ↔
      n ∈ (splitBySize (collectSignatures i b)).map Prod.fst := by
    intro n
    rw [mem_sizes_iff, mem_sizes_iff]
    constructor
    · rintro ⟨x, hx, hn⟩
      exact ⟨τ x, (hocc _).2 ⟨x, hx, rfl⟩, by rw [← hsl x hx, hn]⟩
    · rintro ⟨y, hy, hn⟩
      obtain ⟨x, hx, rfl⟩ := (hocc _).1 hy
      exact ⟨x, hx, by rw [hsl x hx, hn]⟩
  have hkeys : ∀ x, x ∈ (collectSignatures i a).map Prod.fst ↔ Occurs i a x := fun x => by
    rw [OrdMap.mem_keys ha, get_signature]
    rfl
  have hkeys' : ∀ x, x ∈ (collectSignatures i b).map Prod.fst ↔ Occurs i b x := fun x => by
    rw [OrdMap.mem_keys hb, get_signature]
    rfl
  have hnod : (((collectSignatures i a).map Prod.fst).map τ).Nodup := by
    rw [List.nodup_iff_pairwise_ne, List.pairwise_map]
    have := OrdMap.nodup_keys ha
    rw [List.nodup_iff_pairwise_ne] at this
    exact this.imp_of_mem fun {x x'} hx hx' hne e =>
      hne (hinj x x' ((hkeys x).1 hx) ((hkeys x').1 hx') e)
  have hmem : ∀ y, y ∈ ((collectSignatures i a).map Prod.fst).map τ ↔ Occurs i b y := by
    intro y
    rw [hocc, List.mem_map]
    exact exists_congr fun x => and_congr (hkeys x) Iff.rfl
  have hcomp : Comparable i a b := by
    refine ⟨hlen, ?_, ?_, ?_, ?_⟩
    · rw [blankCount_sum, blankCount_sum,
        length_eq_sum _ (a.flatMap (blanksOf i)) (OrdMap.nodup_keys ha)
          (fun x hx => (hkeys x).2 ((mem_blanks a x).1 hx)),
        length_eq_sum _ (b.flatMap (blanksOf i)) hnod
          (fun x hx => (hmem x).2 ((mem_blanks b x).1 hx)),
        List.map_map (l := (collectSignatures i a).map Prod.fst)]
      congr 1
      refine List.map_congr_left fun x hx => ?_
      rw [Function.comp_apply, ← length_sigOf, ← length_sigOf]
      exact hsl x ((hkeys x).1 hx)
    · have h1 := nodup_length_eq hnod (OrdMap.nodup_keys hb) fun y => (hmem y).trans (hkeys' y).symm
      simpa using h1
    · have := nodup_length_eq (OrdMap.nodup_keys (groups (collectSignatures i a)).sorted)
        (OrdMap.nodup_keys (groups (collectSignatures i b)).sorted) hsizes
      simpa using this
    · rw [List.all_eq_true]
      rintro ⟨n, g⟩ h
      have := (hsizes n).1 (List.mem_map.2 ⟨_, h, rfl⟩)
      rw [OrdMap.mem_keys (groups _).sorted] at this
      obtain ⟨g', hg'⟩ := this
      simp [OrdMap.contains, hg']
  have hcand : ∀ x, Occurs i a x →
      IsCandidate i (collectSignatures i a) (collectSignatures i b) x (τ x) := by
    intro x hx
    obtain ⟨sig, e1⟩ := Option.ne_none_iff_exists'.1 ((get_ne_none a x).2 hx)
    obtain ⟨sig', e2⟩ := Option.ne_none_iff_exists'.1 ((get_ne_none b (τ x)).2
      ((hocc _).2 ⟨x, hx, rfl⟩))
    refine ⟨sig, sig', e1, e2, ?_, (hk.matches_ _ _).2 ?_⟩
    · rw [(signature i e1).length_eq, (signature i e2).length_eq, hsl x hx]
    · exact ((signature i e1).map _).trans ((hsur x hx).trans ((signature i e2).symm.map _))
  rcases findBijectionWith_eq (i := i) a b with ⟨-, e⟩ | ⟨h, -⟩
  rotate_left
  · exact absurd hcomp h
  rw [e]
  rcases allCandidates_spec i _ _ ha hb hcomp.2.2.2.2 with ⟨c, e1, hf, hdom⟩ | ⟨-, x, hx, hno⟩
  rotate_left
  · exact absurd (hcand x ((get_ne_none a x).1 hx)) (hno _)
  rw [e1]
  refine find_complete' (i := i) τ (Occurs i a) hinj ?_ c {} (ready_of_found hk.anonymous hf) hf.sorted
    (Good.empty (kind := kind)) (fun z w h => by simp [OrdMap.get] at h) ?_ ?_
  · intro m x sig sig' hx hg hup e2 e3
    rw [hg.signatureMatchesWith hk]
    exact ((signature i e2).map _).trans ((hfit m x hx hg hup).trans ((signature i e3).symm.map _))
  · intro z hz
    obtain ⟨l, hl⟩ := Option.ne_none_iff_exists'.1 ((hdom z).2 ((get_ne_none a z).2 hz))
    exact Or.inr ⟨l, OrdMap.mem_of_get hl⟩
  · intro x l hxl
    obtain ⟨h1, -, h3⟩ := hf.get x l (OrdMap.get_of_mem hf.sorted hxl)
    have ho := (get_ne_none a x).1 h1
    exact ⟨ho, (h3 _).2 (hcand x ho)⟩

end whole

/-! ## Lexical terms -/

section terms

variable {B I L : Type} [Ord B] [Ord I] [Ord L] [DecidableEq B] [DecidableEq I] [DecidableEq L]

theorem eachPosition_iff {R K : Type} {r : R → R → Prop} {k k' : R → K}
    (h : ∀ x y, r x y ↔ k x = k' y) (q q' : Quad R) :
    Spec.EachPosition r q q' ↔ q.map k = q'.map k' := by
  rw [← quad_map_eq]
  unfold Spec.EachPosition
  rw [h, h, h]
  refine and_congr Iff.rfl (and_congr Iff.rfl (and_congr Iff.rfl ?_))
  cases q.g <;> cases q'.g <;> simp [h]

theorem paired_quads {R K : Type} {r : R → R → Prop} {k k' : R → K}
    (h : ∀ x y, r x y ↔ k x = k' y) (l l' : List (Quad R)) :
    Spec.Paired (Spec.EachPosition r) l l' ↔ (l.map (·.map k)).Perm (l'.map (·.map k')) := by
  rw [← paired_iff]
  have : Spec.EachPosition r = fun q q' => q.map k = q'.map k' := by
    funext q q'
    exact propext (eachPosition_iff h q q')
  rw [this]

theorem around_eq {ds : List (Quad (LocalTerm B I L))} {x : LocalTerm B I L}
    (hx : Spec.erase x = none) : sigOf (lexical B I L) ds x = Spec.around ds x := by
  unfold sigOf Spec.around
  congr 1
  funext q
  have : (blanksOf (lexical B I L) q).filter (· = x) = (positions q).filter (· = x) := by
    unfold blanksOf
    rw [List.filter_filter]
    refine List.filter_congr fun r _ => ?_
    by_cases e : r = x
    · rw [e, (kinds_lexical.anonymous x).2 hx]
      simp
    · simp [e]
  rw [this]

theorem compare_anonymous (b b' : B) :
    compare (.anonymous b : LocalTerm B I L) (.anonymous b') = compare b b' := rfl

variable [Std.TransOrd B] [Std.LawfulEqOrd B] [Std.TransOrd I] [Std.LawfulEqOrd I] [Std.TransOrd L]
  [Std.LawfulEqOrd L]

/-- What a partial bijection compares, for lexical terms. -/
theorem agreeOn_iff {ds : List (Quad (LocalTerm B I L))} {f : B → B} {x : B}
    {m : Bijection (LocalTerm B I L)} (hm : Good Spec.erase m)
    (hup : ∀ z w, m.forward.get z = some w ↔
      (Spec.BlankIn ds z ∧ w = Spec.relabel f z) ∧ compare z (.anonymous x) ≠ .gt)
    (r r' : LocalTerm B I L) :
    Spec.AgreeOn f (fun b => Spec.BlankIn ds (.anonymous b) ∧ compare b x ≠ .gt) r r' ↔
      leftKey m r = rightKey m r' := by
  unfold leftKey rightKey
  constructor
  · intro h
    cases e : m.forward.get r with
    | some w =>
      obtain ⟨⟨h1, rfl⟩, h2⟩ := (hup _ _).1 e
      obtain ⟨⟨b, rfl⟩, -⟩ := id h1
      have := (h b ⟨h1, h2⟩).1 rfl
      subst this
      have e3 : m.backward.get (.anonymous (f b)) = some (.anonymous b) := (hm.inverse _ _).1 e
      rw [e3]
      rfl
    | none =>
      cases e' : m.backward.get r' with
      | none => rfl
      | some z =>
        have e2 := (hm.inverse _ _).2 e'
        obtain ⟨⟨h1, h3⟩, h2⟩ := (hup _ _).1 e2
        obtain ⟨⟨b, rfl⟩, -⟩ := id h1
        rw [(h b ⟨h1, h2⟩).2 h3, e2] at e
        cases e
  · rintro h b ⟨h1, h2⟩
    have e := (hup (.anonymous b) (.anonymous (f b))).2 ⟨⟨h1, rfl⟩, h2⟩
    constructor
    · rintro rfl
      rw [e] at h
      cases e' : m.backward.get r' with
      | none => simp [e'] at h
      | some z =>
        rw [e'] at h
        exact (Option.some.inj h).symm
    · rintro rfl
      rw [(hm.inverse _ _).1 e] at h
      have h' := (hm.inverse _ _).1 h
      rw [(hm.inverse _ _).1 e] at h'
      exact (Option.some.inj h').symm

/-- The search succeeds exactly for the datasets with an accepted renaming, and it then
returns one. -/
theorem findBijection_trace {a b : List (Quad (LocalTerm B I L))}
    {m : Bijection (LocalTerm B I L)} (h : findBijection a b = .ok (some m)) :
    ∃ f : B → B, Spec.Accepted f a b ∧
      ∀ x y, Spec.BlankIn a (.anonymous x) → ((.anonymous x, .anonymous y) ∈ m.forward ↔ f x = y) := by
  obtain ⟨o, e, ho⟩ := findBijectionWith_spec kinds_lexical a b
  unfold findBijection at h
  rw [h] at e
  cases e
  obtain ⟨h1, h2, h3, h4⟩ := ho m rfl
  obtain ⟨h5, h6⟩ := findBijectionWith_trace kinds_lexical h
  have hex : ∀ x : B, ∃ y : B, Spec.BlankIn a (.anonymous x) →
      m.forward.get (.anonymous x) = some (.anonymous y) := by
    intro x
    by_cases hx : Spec.BlankIn a (.anonymous x)
    · obtain ⟨y, hy⟩ := (h2 _).1 ((occurs_lexical a _).2 hx)
      have hb := (h1.blank _ _ hy).2
      rcases y with y | t
      · exact ⟨y, fun _ => hy⟩
      · simp [Spec.erase] at hb
    · exact ⟨x, fun h' => absurd h' hx⟩
  have ⟨f, hf⟩ := Classical.axiomOfChoice hex
  have hget : ∀ z w, m.forward.get z = some w ↔ Spec.BlankIn a z ∧ w = Spec.relabel f z := by
    intro z w
    constructor
    · intro hz
      have hz' := (occurs_lexical a z).1 ((h2 z).2 ⟨w, hz⟩)
      obtain ⟨⟨b, rfl⟩, -⟩ := id hz'
      rw [hf b hz'] at hz
      exact ⟨hz', (Option.some.inj hz).symm⟩
    · rintro ⟨hz, rfl⟩
      obtain ⟨⟨b, rfl⟩, -⟩ := id hz
      exact hf b hz
  refine ⟨f, ⟨h5, fun b b' hb hb' e => ?_, fun c => ?_, fun x hx => ?_, fun x hx => ?_⟩,
    fun x y hx => ?_⟩
  · have q1 := (h1.inverse _ _).1 (hf b hb)
    have q2 := (h1.inverse _ _).1 (hf b' hb')
    rw [e, q2] at q1
    exact LocalTerm.anonymous.inj (Option.some.inj q1).symm
  · rw [← occurs_lexical, h3]
    constructor
    · rintro ⟨x, hx⟩
      obtain ⟨q1, q2⟩ := (hget _ _).1 ((h1.inverse _ _).2 hx)
      obtain ⟨⟨b, rfl⟩, -⟩ := id q1
      exact ⟨b, q1, (LocalTerm.anonymous.inj q2).symm⟩
    · rintro ⟨b, hb, rfl⟩
      exact ⟨_, (h1.inverse _ _).1 (hf b hb)⟩
  · rw [paired_quads (k := Spec.erase) (k' := Spec.erase) (fun _ _ => Iff.rfl), ← around_eq rfl,
      ← around_eq rfl]
    exact h4 _ _ (hf x hx)
  · obtain ⟨mx, g1, g2, g3⟩ := h6 _ _ (hf x hx)
    rw [paired_quads (agreeOn_iff g1 (fun z w => by rw [g2, hget])), ← around_eq rfl, ← around_eq rfl]
    exact g3
  · constructor
    · intro hxy
      have := OrdMap.get_of_mem h1.sorted hxy
      rw [hf x hx] at this
      exact LocalTerm.anonymous.inj (Option.some.inj this)
    · rintro rfl
      exact OrdMap.mem_of_get (hf x hx)

theorem findBijection_accepted {a b : List (Quad (LocalTerm B I L))} {f : B → B}
    (h : Spec.Accepted f a b) : ∃ m, findBijection a b = .ok (some m) := by
  have hocc : ∀ x, Occurs (lexical B I L) a x → ∃ b', x = .anonymous b' ∧
      Spec.BlankIn a (.anonymous b') := by
    intro x hx
    rw [occurs_lexical] at hx
    obtain ⟨⟨b', rfl⟩, -⟩ := id hx
    exact ⟨b', rfl, hx⟩
  refine findBijectionWith_complete' kinds_lexical (τ := Spec.relabel f) h.length ?_ ?_ ?_ ?_
  · intro x x' hx hx' e
    obtain ⟨y, rfl, hy⟩ := hocc x hx
    obtain ⟨y', rfl, hy'⟩ := hocc x' hx'
    rw [h.injective y y' hy hy' (LocalTerm.anonymous.inj e)]
  · intro y
    constructor
    · intro hy
      rw [occurs_lexical] at hy
      obtain ⟨⟨c, rfl⟩, -⟩ := id hy
      obtain ⟨b', hb, rfl⟩ := (h.range c).1 hy
      exact ⟨.anonymous b', (occurs_lexical _ _).2 hb, rfl⟩
    · rintro ⟨x, hx, rfl⟩
      obtain ⟨b', rfl, hb⟩ := hocc x hx
      exact (occurs_lexical _ _).2 ((h.range _).2 ⟨b', hb, rfl⟩)
  · intro x hx
    obtain ⟨b', rfl, hb⟩ := hocc x hx
    have := h.shapes b' hb
    rw [paired_quads (k := Spec.erase) (k' := Spec.erase) (fun _ _ => Iff.rfl), ← around_eq rfl,
      ← around_eq rfl] at this
    exact this
  · intro m x hx hg hup
    obtain ⟨b', rfl, hb⟩ := hocc x hx
    have := h.names b' hb
    rw [paired_quads (agreeOn_iff hg (fun z w => by rw [hup, occurs_lexical])), ← around_eq rfl,
      ← around_eq rfl] at this
    exact this

/-! ## A case in which acceptance means isomorphism -/

omit [Std.LawfulEqOrd B] [DecidableEq B] in
theorem exists_greatest : ∀ (l : List B), l ≠ [] → ∃ x ∈ l, ∀ y ∈ l, compare y x ≠ .gt
  | [], h => absurd rfl h
  | x :: l, _ => by
    by_cases hl : l = []
    · subst hl
      exact ⟨x, by simp, fun y hy => by
        simp only [List.mem_singleton] at hy
        simp [hy, Std.ReflCmp.compare_self]⟩
    · obtain ⟨z, hz, h⟩ := exists_greatest l hl
      by_cases hx : compare x z = .gt
      · refine ⟨x, by simp, fun y hy => ?_⟩
        rcases List.mem_cons.1 hy with rfl | hy
        · simp [Std.ReflCmp.compare_self]
        · have h1 := h y hy
          have h2 : compare z x = .lt := Std.OrientedCmp.lt_of_gt hx
          have : compare y x = .lt := by
            have h3 : (compare y z).isLE := by
              cases e : compare y z <;> simp_all
            exact Std.TransCmp.lt_of_isLE_of_lt h3 h2
          simp [this]
      · refine ⟨z, by simp [hz], fun y hy => ?_⟩
        rcases List.mem_cons.1 hy with rfl | hy
        · exact hx
        · exact h y hy

theorem mem_around {ds : List (Quad (LocalTerm B I L))} {x : LocalTerm B I L}
    {q : Quad (LocalTerm B I L)} : q ∈ Spec.around ds x ↔ q ∈ ds ∧ x ∈ positions q := by
  simp only [Spec.around, List.mem_flatMap, List.mem_map, List.mem_filter, decide_eq_true_eq]
  constructor
  · rintro ⟨q', h1, y, ⟨h2, rfl⟩, rfl⟩
    exact ⟨h1, h2⟩
  · rintro ⟨h1, h2⟩
    exact ⟨q, h1, x, ⟨h2, rfl⟩, rfl⟩

theorem Paired.partner {A : Type} {r : A → A → Prop} {l l' : List A} (h : Spec.Paired r l l')
    {x : A} (hx : x ∈ l) : ∃ y ∈ l', r x y := by
  obtain ⟨z, h1, h2, h3⟩ := h
  obtain ⟨p, hp, rfl⟩ := List.mem_map.1 (h1.mem_iff.2 hx)
  exact ⟨p.2, h2.mem_iff.1 (List.mem_map.2 ⟨p, hp, rfl⟩), h3 p hp⟩

/-- Quads related at each position by a functional relation. -/
theorem eq_map_of_each {R : Type} {f : R → R} {r : R → R → Prop} {q q' : Quad R}
    (h : Spec.EachPosition r q q')
    (hr : ∀ x ∈ positions q, ∀ y ∈ positions q', r x y → y = f x) : q' = q.map f := by
  rcases q with ⟨s, p, o, g⟩
  rcases q' with ⟨s', p', o', g'⟩
  obtain ⟨h1, h2, h3, h4⟩ := h
  have e1 := hr s (by simp [positions]) s' (by simp [positions]) h1
  have e2 := hr p (by simp [positions]) p' (by simp [positions]) h2
  have e3 := hr o (by simp [positions]) o' (by simp [positions]) h3
  subst e1 e2 e3
  cases g with
  | none =>
    cases g' with
    | none => rfl
    | some y => exact h4.elim
  | some x =>
    cases g' with
    | none => exact h4.elim
    | some y =>
      have := hr x (by simp [positions]) y (by simp [positions]) h4
      subst this
      rfl

theorem each_and {R : Type} {r r' : R → R → Prop} {q q' : Quad R}
    (h : Spec.EachPosition r q q') (h' : Spec.EachPosition r' q q') :
    Spec.EachPosition (fun x y => r x y ∧ r' x y) q q' := by
  obtain ⟨h1, h2, h3, h4⟩ := h
  obtain ⟨k1, k2, k3, k4⟩ := h'
  refine ⟨⟨h1, k1⟩, ⟨h2, k2⟩, ⟨h3, k3⟩, ?_⟩
  cases e : q.g <;> cases e' : q'.g <;> simp_all

/-- A term of the first quad is related to one of the second. -/
theorem each_partner {R : Type} {r : R → R → Prop} {q q' : Quad R}
    (h : Spec.EachPosition r q q') {x : R} (hx : x ∈ positions q) : ∃ y ∈ positions q', r x y := by
  rcases q with ⟨s, p, o, g⟩
  rcases q' with ⟨s', p', o', g'⟩
  obtain ⟨h1, h2, h3, h4⟩ := h
  simp only [positions, List.mem_cons] at hx
  rcases hx with rfl | rfl | rfl | hx
  · exact ⟨s', by simp [positions], h1⟩
  · exact ⟨p', by simp [positions], h2⟩
  · exact ⟨o', by simp [positions], h3⟩
  · cases g with
    | none => simp at hx
    | some z =>
      simp only [Option.toList_some, List.mem_singleton] at hx
      subst hx
      cases g' with
      | none => exact h4.elim
      | some y => exact ⟨y, by simp [positions], h4⟩

/-- The image of each quad with blank nodes is in the second dataset. -/
theorem alike_image {a b : List (Quad (LocalTerm B I L))} {f : B → B} (h : Spec.Accepted f a b)
    (hb : Spec.AlikeWhenShared b) {q : Quad (LocalTerm B I L)} (hq : q ∈ a) (hg : ¬ Spec.Ground q) :
    q.map (Spec.relabel f) ∈ b := by
  -- the last blank node of the quad that the search handles
  have hne : (positions q).filterMap (fun | .anonymous b => some b | .named _ => none) ≠ [] := by
    intro e
    rw [List.filterMap_eq_nil_iff] at e
    refine hg fun x hx => ?_
    simpa using e _ hx
  obtain ⟨x, hx, hmax⟩ := exists_greatest _ hne
  have hmem : ∀ y, y ∈ (positions q).filterMap
      (fun | LocalTerm.anonymous b => some b | .named _ => none) ↔
        (LocalTerm.anonymous y : LocalTerm B I L) ∈ positions q := by
    intro y
    rw [List.mem_filterMap]
    constructor
    · rintro ⟨r, hr, e⟩
      rcases r with b' | t
      · simp only [Option.some.injEq] at e
        exact e ▸ hr
      · cases e
    · intro hy
      exact ⟨_, hy, rfl⟩
  rw [hmem] at hx
  have hin : ∀ y, (LocalTerm.anonymous y : LocalTerm B I L) ∈ positions q →
      Spec.BlankIn a (.anonymous y) := fun y hy => ⟨⟨y, rfl⟩, q, hq, hy⟩
  have har : q ∈ Spec.around a (.anonymous x) := mem_around.2 ⟨hq, hx⟩
  obtain ⟨q', hq', hag⟩ := Paired.partner (h.names x (hin x hx)) har
  obtain ⟨q'', hq'', her⟩ := Paired.partner (h.shapes x (hin x hx)) har
  rw [mem_around] at hq' hq''
  have herq := (eachPosition_iff (fun _ _ => Iff.rfl) q q'').1 her
  have hsame : q'.map Spec.erase = q''.map Spec.erase → q.map (Spec.relabel f) ∈ b := by
    intro e
    have her' : Spec.EachPosition (fun r r' => Spec.erase r = Spec.erase r') q q' :=
      (eachPosition_iff (fun _ _ => Iff.rfl) q q').2 (herq.trans e.symm)
    rw [← eq_map_of_each (f := Spec.relabel f) (each_and hag her')]
    · exact hq'.1
    · rintro r hr r' hr' ⟨h1, h2⟩
      rcases r with z | t
      · refine (h1 z ⟨hin z hr, ?_⟩).1 rfl
        exact hmax z ((hmem z).2 hr)
      · rcases r' with z' | t' <;> simp [Spec.erase] at h2
        rw [h2]
        rfl
  by_cases h1 : ∃ c d, c ≠ d ∧ (LocalTerm.anonymous c : LocalTerm B I L) ∈ positions q' ∧
      (LocalTerm.anonymous d : LocalTerm B I L) ∈ positions q'
  · obtain ⟨c, d, h1, h2, h3⟩ := h1
    exact hsame (hb q' hq'.1 q'' hq''.1 c d h1 h2 h3 ⟨_, hq'.2, hq''.2⟩)
  by_cases h2 : ∃ c d, c ≠ d ∧ (LocalTerm.anonymous c : LocalTerm B I L) ∈ positions q'' ∧
      (LocalTerm.anonymous d : LocalTerm B I L) ∈ positions q''
  · obtain ⟨c, d, h1, h2, h3⟩ := h2
    exact hsame (hb q'' hq''.1 q' hq'.1 c d h1 h2 h3 ⟨_, hq''.2, hq'.2⟩).symm
  -- only one blank node is involved
  have one : ∀ z, (LocalTerm.anonymous z : LocalTerm B I L) ∈ positions q → z = x := by
    intro z hz
    obtain ⟨y, hy, hr⟩ := each_partner hag hz
    have := (hr z ⟨hin z hz, hmax z ((hmem z).2 hz)⟩).1 rfl
    subst this
    refine h.injective z x (hin z hz) (hin x hx) ?_
    by_cases e : f z = f x
    · exact e
    · exact absurd ⟨_, _, e, hy, hq'.2⟩ h1
  rw [← eq_map_of_each (f := Spec.relabel f) her]
  · exact hq''.1
  · intro r hr r' hr' e
    rcases r with z | t <;> rcases r' with z' | t' <;> simp [Spec.erase] at e
    · rw [one z hr]
      by_cases e : z' = f x
      · rw [e]
        rfl
      · exact absurd ⟨_, _, e, hr', hq''.2⟩ h2
    · rw [e]
      rfl

theorem perm_of_nodup_subset {A : Type} : ∀ (l l' : List A), l.Nodup → (∀ x ∈ l, x ∈ l') →
    ∃ rest, l'.Perm (l ++ rest)
  | [], l', _, _ => ⟨l', List.Perm.refl _⟩
  | x :: l, l', hn, hs => by
    rw [List.nodup_cons] at hn
    obtain ⟨s, t, rfl⟩ := List.append_of_mem (hs x (by simp))
    obtain ⟨rest, h⟩ := perm_of_nodup_subset l (s ++ t) hn.2 (by
      intro y hy
      have := hs y (by simp [hy])
      simp only [List.mem_append, List.mem_cons] at this ⊢
      rcases this with h | rfl | h
      · exact Or.inl h
      · exact absurd hy hn.1
      · exact Or.inr h)
    exact ⟨rest, List.perm_middle.trans (h.cons x)⟩

theorem flatMap_filter_eq {A C : Type} (p : A → Bool) (g : A → List C) :
    ∀ (l : List A), (∀ x ∈ l, p x = false → g x = []) → (l.filter p).flatMap g = l.flatMap g
  | [], _ => rfl
  | x :: l, h => by
    have ih := flatMap_filter_eq p g l (fun y hy => h y (by simp [hy]))
    cases e : p x with
    | true => rw [List.filter_cons_of_pos e, List.flatMap_cons, List.flatMap_cons, ih]
    | false =>
      rw [List.filter_cons_of_neg (by simp [e]), List.flatMap_cons, ih, h x (by simp) e]
      rfl

/-- When quads that share a blank node are alike, an accepted renaming gives the quads
with blank nodes of the second dataset. -/
theorem alike {a b : List (Quad (LocalTerm B I L))} {f : B → B} (ha : a.Nodup)
    (h : Spec.Accepted f a b) (hb : Spec.AlikeWhenShared b) {q : Quad (LocalTerm B I L)}
    (hg : ¬ Spec.Ground q) : q ∈ b ↔ ∃ q₀ ∈ a, q = q₀.map (Spec.relabel f) := by
  have hng : ∀ q : Quad (LocalTerm B I L), (blanksOf (lexical B I L) q).isEmpty = false ↔ ¬ Spec.Ground q := by
    intro q
    rw [← Bool.not_eq_true, List.isEmpty_iff]
    refine not_congr ?_
    rw [List.eq_nil_iff_forall_not_mem]
    constructor
    · intro h' x hx
      exact h' _ (mem_blanksOf.2 ⟨hx, (kinds_lexical.anonymous _).2 rfl⟩)
    · intro h' r hr
      obtain ⟨h1, h2⟩ := mem_blanksOf.1 hr
      rw [kinds_lexical.anonymous] at h2
      rcases r with x | t
      · exact h' x h1
      · cases h2
  constructor
  rotate_left
  · rintro ⟨q₀, h1, rfl⟩
    refine alike_image h hb h1 fun hg' => hg ?_
    intro x hx
    rw [positions_map] at hx
    obtain ⟨r, hr, e⟩ := List.mem_map.1 hx
    rcases r with z | t
    · exact hg' z hr
    · cases e
  intro hq
  let a' := a.filter (fun q => !(blanksOf (lexical B I L) q).isEmpty)
  have ha' : ∀ q ∈ a', q ∈ a ∧ ¬ Spec.Ground q := by
    intro q hq
    obtain ⟨h1, h2⟩ := List.mem_filter.1 hq
    exact ⟨h1, (hng q).1 (by simpa using h2)⟩
  have hnod : (a'.map (·.map (Spec.relabel f))).Nodup := by
    rw [List.nodup_iff_pairwise_ne, List.pairwise_map]
    have : a'.Nodup := ha.sublist List.filter_sublist
    rw [List.nodup_iff_pairwise_ne] at this
    exact this.imp_of_mem fun hq hq' hne e =>
      hne (relabel_inj h.injective (ha' _ hq).1 (ha' _ hq').1 e)
  obtain ⟨rest, hp⟩ := perm_of_nodup_subset _ b hnod (by
    intro q hq
    obtain ⟨q₀, h1, rfl⟩ := List.mem_map.1 hq
    exact alike_image h hb (ha' _ h1).1 (ha' _ h1).2)
  rcases List.mem_append.1 (hp.mem_iff.1 hq) with h1 | h1
  · obtain ⟨q₀, h2, rfl⟩ := List.mem_map.1 h1
    exact ⟨q₀, (ha' _ h2).1, rfl⟩
  exfalso
  obtain ⟨y, hy⟩ : ∃ y, (LocalTerm.anonymous y : LocalTerm B I L) ∈ positions q := by
    simpa [Spec.Ground] using hg
  obtain ⟨x, hx, rfl⟩ := (h.range y).1 ⟨⟨y, rfl⟩, q, hq, hy⟩
  have hkind : ∀ r : LocalTerm B I L, Spec.erase (Spec.relabel f r) = Spec.erase r := by
    rintro (b | t) <;> rfl
  have hinj : ∀ r r' : LocalTerm B I L, Occurs (lexical B I L) a r → Occurs (lexical B I L) a r' →
      Spec.relabel f r = Spec.relabel f r' → r = r' := by
    intro r r' hr hr' e
    rw [occurs_lexical] at hr hr'
    obtain ⟨⟨z, rfl⟩, -⟩ := id hr
    obtain ⟨⟨z', rfl⟩, -⟩ := id hr'
    rw [h.injective z z' hr hr' (LocalTerm.anonymous.inj e)]
  have e1 := sigOf_map kinds_lexical (τ := Spec.relabel f) hkind hinj ((occurs_lexical a _).2 hx) a'
    (fun q hq => (ha' q hq).1)
  have e2 : sigOf (lexical B I L) a' (.anonymous x) = sigOf (lexical B I L) a (.anonymous x) := by
    refine flatMap_filter_eq _ _ _ fun q _ hq => ?_
    have : blanksOf (lexical B I L) q = [] := by simpa using hq
    simp [this]
  have e3 := (perm_sigOf (i := lexical B I L) hp (.anonymous (f x))).length_eq
  have e4 : (sigOf (lexical B I L) a (.anonymous x)).length =
      (sigOf (lexical B I L) b (.anonymous (f x))).length := by
    rw [around_eq rfl, around_eq rfl]
    obtain ⟨z, z1, z2, -⟩ := h.shapes x hx
    rw [← z1.length_eq, ← z2.length_eq, List.length_map, List.length_map]
  have e5 : sigOf (lexical B I L) (a'.map (·.map (Spec.relabel f)) ++ rest) (.anonymous (f x)) =
      sigOf (lexical B I L) (a'.map (·.map (Spec.relabel f))) (.anonymous (f x)) ++
        sigOf (lexical B I L) rest (.anonymous (f x)) := List.flatMap_append
  replace e1 : sigOf (lexical B I L) (a'.map (·.map (Spec.relabel f))) (.anonymous (f x)) =
    (sigOf (lexical B I L) a' (.anonymous x)).map (·.map (Spec.relabel f)) := e1
  rw [e5, List.length_append, e1, List.length_map, e2, e4] at e3
  have e6 : sigOf (lexical B I L) rest (.anonymous (f x)) = [] :=
    List.length_eq_zero_iff.1 (by omega)
  have : q ∈ sigOf (lexical B I L) rest (.anonymous (f x)) := by
    rw [around_eq rfl]
    exact mem_around.2 ⟨h1, hy⟩
  rw [e6] at this
  cases this

end terms

end RdfTypes.Isomorphism
