import Verif.Proof.Nameless
import Verif.Proof.Frames
import Verif.Spec.First

/-!
# The mapping found is the first one
-/

set_option linter.unusedSectionVars false

namespace RdfTypes.Isomorphism

open Spec Nameless

variable {R I L : Type} [Ord R] [DecidableEq R] [DecidableEq I] [DecidableEq L]
  [Std.TransOrd R] [Std.LawfulEqOrd R] {i : ReverseInterpretation R I L}

section search

variable {K : Type} {kind : R → Option K} {a b : OrdMap R (BlankSignature R)}

/-- The candidate taken is not after one that leads to a result. -/
theorem try_first {m : Bijection R} {x : R} {next : Bijection R → Res (Option (Bijection R))}
    {sig : BlankSignature R} (hx : a.get x = some sig) {y : R} {sig' : BlankSignature R}
    (hy : b.get y = some sig') (hb : m.backward.get y = none)
    (hs : (m.insert x y).signatureMatchesWith i sig sig' = true)
    (hn : ∃ m', next (m.insert x y) = .ok (some m')) {m' : Bijection R} :
    ∀ (l : OrdSet R), OrdSet.Sorted l → y ∈ l → (∀ y ∈ l, ∃ sig', b.get y = some sig') →
      Bijection.tryCandidates i a b m x next l = .ok (some m') →
      ∃ z ∈ l, m.backward.get z = none ∧ next (m.insert x z) = .ok (some m') ∧
        (z = y ∨ compare z y = .lt)
  | [], _, h, _, _ => by cases h
  | z :: l, ho, h, hl, ht => by
    obtain ⟨ho1, ho2⟩ := List.pairwise_cons.1 ho
    obtain ⟨sz, hz⟩ := hl z (by simp)
    rw [try_cons m x next z l hx hz] at ht
    rcases List.mem_cons.1 h with rfl | h
    · rw [hy] at hz
      cases hz
      rw [if_pos ⟨hb, hs⟩] at ht
      obtain ⟨m'', e⟩ := hn
      rw [e] at ht
      cases ht
      exact ⟨y, by simp, hb, e, Or.inl rfl⟩
    · have ih : Bijection.tryCandidates i a b m x next l = .ok (some m') →
          ∃ z' ∈ z :: l, m.backward.get z' = none ∧ next (m.insert x z') = .ok (some m') ∧
            (z' = y ∨ compare z' y = .lt) := by
        intro ht
        obtain ⟨z', h1, h2⟩ := try_first hx hy hb hs hn l ho2 h (fun y' hy' => hl y' (by simp [hy'])) ht
        exact ⟨z', by simp [h1], h2⟩
      split at ht
      · next hc =>
        cases e : next (m.insert x z) with
        | error p =>
          rw [e] at ht
          cases ht
        | ok o =>
          rw [e] at ht
          cases o with
          | none => exact ih ht
          | some m'' =>
            cases ht
            exact ⟨z, by simp, hc.1, e, Or.inr (ho1 y h)⟩
      · exact ih ht

/-- What the search returns is not after a function that passes each check. -/
theorem find_first (τ : R → R) (D : R → Prop)
    (hinj : ∀ x x', D x → D x' → τ x = τ x' → x = x')
    (hfit : ∀ m x sig sig', D x → Good kind m →
      (∀ z w, m.forward.get z = some w ↔ (D z ∧ w = τ z) ∧ compare z x ≠ .gt) →
      a.get x = some sig → b.get (τ x) = some sig' → m.signatureMatchesWith i sig sig' = true) :
    ∀ (cs : List (R × OrdSet R)) (m m' : Bijection R), Ready kind a b cs →
    OrdMap.Sorted cs → (∀ x l, (x, l) ∈ cs → OrdSet.Sorted l) → Good kind m →
    (∀ z w, m.forward.get z = some w → (D z ∧ w = τ z) ∧ ∀ x l, (x, l) ∈ cs → compare z x = .lt) →
    (∀ z, D z → m.forward.get z = some (τ z) ∨ ∃ l, (z, l) ∈ cs) →
    (∀ x l, (x, l) ∈ cs → D x ∧ τ x ∈ l) →
    Bijection.findFromCandidates i a b cs m = .ok (some m') →
    (∀ z, D z → m'.forward.get z = some (τ z)) ∨
      ∃ x y, D x ∧ m'.forward.get x = some y ∧ compare y (τ x) = .lt ∧
        ∀ z, D z → compare z x = .lt → m'.forward.get z = some (τ z)
  | [], m, m', _, _, _, _, _, hall, _, h => by
    have : m = m' := by simpa [Bijection.findFromCandidates] using h
    subst this
    refine Or.inl fun z hz => ?_
    rcases hall z hz with h | ⟨l, h⟩
    · exact h
    · simp at h
  | (x, l) :: cs, m, m', hr, hs, ho, hm, hτ, hall, hc, h => by
    obtain ⟨⟨sig, hx⟩, hkx, hl⟩ := hr x l (by simp)
    rw [OrdMap.sorted_cons] at hs
    have hfx : m.forward.get x = none := by
      cases e : m.forward.get x with
      | none => rfl
      | some w =>
        have := (hτ x w e).2 x l (by simp)
        simp [Std.ReflCmp.compare_self] at this
    obtain ⟨hD, hmem⟩ := hc x l (by simp)
    obtain ⟨⟨sig', hy⟩, hky⟩ := hl _ hmem
    have hb : m.backward.get (τ x) = none := by
      cases e : m.backward.get (τ x) with
      | none => rfl
      | some z =>
        have h1 := (hm.inverse _ _).2 e
        obtain ⟨⟨h2, h3⟩, -⟩ := hτ _ _ h1
        rw [← hinj x z hD h2 h3, hfx] at h1
        cases h1
    have hr' : Ready kind a b cs := fun x' l' h => hr x' l' (by simp [h])
    have hg : Good kind (m.insert x (τ x)) := hm.insert hkx hky hfx hb
    have hget := get_forward_insert hm x (τ x)
    have hτ' : ∀ z w, (m.insert x (τ x)).forward.get z = some w →
        (D z ∧ w = τ z) ∧ ∀ x' l', (x', l') ∈ cs → compare z x' = .lt := by
      intro z w h
      rw [hget] at h
      split at h
      · next e =>
        cases h
        exact ⟨⟨e ▸ hD, by rw [e]⟩, fun x' l' h' => e ▸ hs.1 _ h'⟩
      · exact ⟨(hτ z w h).1, fun x' l' h' => (hτ z w h).2 x' l' (by simp [h'])⟩
    have hall' : ∀ z, D z → (m.insert x (τ x)).forward.get z = some (τ z) ∨ ∃ l, (z, l) ∈ cs := by
      intro z hz
      rw [hget]
      by_cases e : z = x
      · subst e
        simp
      · rw [if_neg e]
        rcases hall z hz with h | ⟨l', h⟩
        · exact Or.inl h
        · rcases List.mem_cons.1 h with h | h
          · cases h
            exact absurd rfl e
          · exact Or.inr ⟨l', h⟩
    have hc' : ∀ x' l', (x', l') ∈ cs → D x' ∧ τ x' ∈ l' := fun x' l' h => hc x' l' (by simp [h])
    have ho' : ∀ x' l', (x', l') ∈ cs → OrdSet.Sorted l' := fun x' l' h => ho x' l' (by simp [h])
    have hsm : (m.insert x (τ x)).signatureMatchesWith i sig sig' = true := by
      refine hfit _ x sig sig' hD hg (fun z w => ⟨fun h => ⟨(hτ' z w h).1, ?_⟩, ?_⟩) hx hy
      · rw [hget] at h
        split at h
        · next e => simp [e, Std.ReflCmp.compare_self]
        · simp [(hτ z w h).2 x l (by simp)]
      · rintro ⟨⟨h1, rfl⟩, h2⟩
        rcases hall' z h1 with h | ⟨l', h⟩
        · exact h
        · exact absurd (Std.OrientedCmp.gt_of_lt (hs.1 _ h)) h2
    rw [Bijection.findFromCandidates] at h
    obtain ⟨y, hyl, hyb, hn, hlt⟩ := try_first hx hy hb hsm
      (find_complete' τ D hinj hfit cs _ hr' hs.2 hg hτ' hall' hc') l (ho x l (by simp)) hmem
      (fun y hy => (hl y hy).1) h
    rcases hlt with rfl | hlt
    · exact find_first τ D hinj hfit cs _ m' hr' hs.2 ho' hg hτ' hall' hc' hn
    · have hgy : Good kind (m.insert x y) := hm.insert hkx (hl y hyl).2 hfx hyb
      have hgety := get_forward_insert hm x y
      obtain ⟨h1, -, -⟩ := find_trace cs (m.insert x y) m' hr' hs.2 hgy (by
        intro z w hz x' l' h'
        rw [hgety] at hz
        split at hz
        · next e =>
          rw [e]
          exact hs.1 _ h'
        · exact (hτ z w hz).2 x' l' (by simp [h'])) hn
      refine Or.inr ⟨x, y, hD, h1 _ _ (by rw [hgety, if_pos rfl]), hlt, fun z hz hzx => h1 _ _ ?_⟩
      have hne : z ≠ x := by
        rintro rfl
        simp [Std.ReflCmp.compare_self] at hzx
      rw [hgety, if_neg hne]
      rcases hall z hz with h | ⟨l', h⟩
      · exact h
      · rcases List.mem_cons.1 h with h | h
        · cases h
          exact absurd rfl hne
        · have := Std.TransCmp.lt_trans hzx (hs.1 _ h)
          simp [Std.ReflCmp.compare_self] at this

end search

section whole

variable {K : Type} {kind : R → Option K}

theorem findBijectionWith_first (hk : Kinds i kind) {τ : R → R} {a b : List (Quad R)}
    {m : Bijection R} (h : findBijectionWith i a b = .ok (some m))
    (hinj : ∀ x x', Occurs i a x → Occurs i a x' → τ x = τ x' → x = x')
    (hocc : ∀ x, Occurs i a x → Occurs i b (τ x))
    (hsur : ∀ x, Occurs i a x →
      ((sigOf i a x).map (·.map kind)).Perm ((sigOf i b (τ x)).map (·.map kind)))
    (hfit : ∀ m x, Occurs i a x → Good kind m → UpTo m (Occurs i a) τ x →
      ((sigOf i a x).map (·.map (leftKey m))).Perm ((sigOf i b (τ x)).map (·.map (rightKey m)))) :
    (∀ z, Occurs i a z → m.forward.get z = some (τ z)) ∨
      ∃ x y, Occurs i a x ∧ m.forward.get x = some y ∧ compare y (τ x) = .lt ∧
        ∀ z, Occurs i a z → compare z x = .lt → m.forward.get z = some (τ z) := by
  have ha := collectSignatures_sorted i a
  have hb := collectSignatures_sorted i b
  have hcand : ∀ x, Occurs i a x →
      IsCandidate i (collectSignatures i a) (collectSignatures i b) x (τ x) := by
    intro x hx
    obtain ⟨sig, e1⟩ := Option.ne_none_iff_exists'.1 ((get_ne_none a x).2 hx)
    obtain ⟨sig', e2⟩ := Option.ne_none_iff_exists'.1 ((get_ne_none b (τ x)).2 (hocc x hx))
    refine ⟨sig, sig', e1, e2, ?_, (hk.matches_ _ _).2 ?_⟩
    · rw [(signature i e1).length_eq, (signature i e2).length_eq]
      simpa using (hsur x hx).length_eq
    · exact ((signature i e1).map _).trans ((hsur x hx).trans ((signature i e2).symm.map _))
  rcases findBijectionWith_eq (i := i) a b with ⟨hc, e⟩ | ⟨-, e⟩
  rotate_left
  · rw [e] at h
    cases h
  rw [e] at h
  rcases allCandidates_spec i _ _ ha hb hc.2.2.2.2 with ⟨c, e1, hf, hdom⟩ | ⟨e1, -⟩
  rotate_left
  · rw [e1] at h
    cases h
  rw [e1] at h
  replace h : Bijection.findFromCandidates i (collectSignatures i a) (collectSignatures i b) c {} =
    .ok (some m) := h
  refine find_first (i := i) τ (Occurs i a) hinj ?_ c {} m (ready_of_found hk.anonymous hf) hf.sorted
    (fun x l hl => hf.ordered x l (OrdMap.get_of_mem hf.sorted hl))
    (Good.empty (kind := kind)) (fun z w h => by simp [OrdMap.get] at h) ?_ ?_ h
  · intro m x sig sig' hx hg hup e2 e3
    rw [hg.signatureMatchesWith hk]
    exact ((signature i e2).map _).trans ((hfit m x hx hg hup).trans ((signature i e3).symm.map _))
  · intro z hz
    obtain ⟨l, hl⟩ := Option.ne_none_iff_exists'.1 ((hdom z).2 ((get_ne_none a z).2 hz))
    exact Or.inr ⟨l, OrdMap.mem_of_get hl⟩
  · intro x l hxl
    obtain ⟨h1, -, h3⟩ := hf.get x l (OrdMap.get_of_mem hf.sorted hxl)
    have ho := (get_ne_none a x).1 h1
    exact ⟨ho, (h3 _).2 (hcand x ho)⟩

end whole

/-! ## Resources -/

theorem first_resources (hn : NamesAgree i) {ds ds' : List (Quad R)} {m : Bijection R} {f : R → R}
    (h : findBijectionWith i ds ds' = .ok (some m)) (hf : ConsistentWith i f ds ds') :
    (∀ z, NamelessIn i ds z → m.forward.get z = some (f z)) ∨
      ∃ x y, NamelessIn i ds x ∧ m.forward.get x = some y ∧ compare y (f x) = .lt ∧
        ∀ z, NamelessIn i ds z → compare z x = .lt → m.forward.get z = some (f z) := by
  have hrange' := range_of_places hf.places
  have hrange : ∀ r, NamelessIn i ds r → nameless i (f r) = true :=
    fun r hr => ((hrange' _).2 ⟨r, hr, rfl⟩).1
  obtain ⟨bs, b1, -⟩ := exists_sorted i ds
  have := findBijectionWith_first (kinds hn) (τ := f) h ?_ ?_ ?_ ?_
  · simpa only [occurs_iff] using this
  · intro x x' hx hx' e
    exact hf.injective x x' (occurs_iff.1 hx) (occurs_iff.1 hx') e
  · intro x hx
    rw [occurs_iff] at hx ⊢
    exact (hrange' _).2 ⟨x, hx, rfl⟩
  · intro x hx
    rw [occurs_iff] at hx
    rw [quadsAround_eq hx.1, quadsAround_eq (hrange x hx), ← shapes_iff hn]
    exact hf.shapes x hx
  · intro m x hx hg hup
    rw [occurs_iff] at hx
    refine (keys_iff (S := bs.filter fun d => decide (compare d x ≠ .gt)) hg hf.injective hrange ?_ ?_
      hx).2 (hf.places.flatMap_right _)
    · exact fun d hd => (b1 d).1 (List.mem_filter.1 hd).1
    · intro z w
      rw [hup, occurs_iff, List.mem_filter, b1, decide_eq_true_iff]
      constructor
      · rintro ⟨⟨h7, h8⟩, h9⟩
        exact ⟨⟨h7, h9⟩, h8⟩
      · rintro ⟨⟨h7, h9⟩, h8⟩
        exact ⟨⟨h7, h8⟩, h9⟩

/-! ## Lexical terms -/

section terms

variable {B I L : Type} [Ord B] [Ord I] [Ord L] [DecidableEq B] [DecidableEq I] [DecidableEq L]
  [Std.TransOrd B] [Std.LawfulEqOrd B] [Std.TransOrd I] [Std.LawfulEqOrd I] [Std.TransOrd L]
  [Std.LawfulEqOrd L]

theorem first_terms {ds ds' : List (Quad (LocalTerm B I L))} {m : Bijection (LocalTerm B I L)}
    {f : B → B} (hm : findBijection ds ds' = .ok (some m)) (h : Accepted f ds ds') :
    (∀ z, BlankIn ds (.anonymous z) → m.forward.get (.anonymous z) = some (.anonymous (f z))) ∨
      ∃ x y, BlankIn ds (.anonymous x) ∧ m.forward.get (.anonymous x) = some y ∧
        compare y (.anonymous (f x)) = .lt ∧
        ∀ z, BlankIn ds (.anonymous z) → compare z x = .lt →
          m.forward.get (.anonymous z) = some (.anonymous (f z)) := by
  have hocc : ∀ x, Occurs (lexical B I L) ds x → ∃ b', x = .anonymous b' ∧
      BlankIn ds (.anonymous b') := by
    intro x hx
    rw [occurs_lexical] at hx
    obtain ⟨⟨b', rfl⟩, -⟩ := id hx
    exact ⟨b', rfl, hx⟩
  have := findBijectionWith_first kinds_lexical (τ := relabel f) hm ?_ ?_ ?_ ?_
  · rcases this with h1 | ⟨x, y, h1, h2, h3, h4⟩
    · exact Or.inl fun z hz => h1 _ ((occurs_lexical _ _).2 hz)
    · obtain ⟨b', rfl, hb⟩ := hocc x h1
      exact Or.inr ⟨b', y, hb, h2, h3, fun z hz hlt => h4 _ ((occurs_lexical _ _).2 hz) hlt⟩
  · intro x x' hx hx' e
    obtain ⟨y, rfl, hy⟩ := hocc x hx
    obtain ⟨y', rfl, hy'⟩ := hocc x' hx'
    rw [h.injective y y' hy hy' (LocalTerm.anonymous.inj e)]
  · intro x hx
    obtain ⟨b', rfl, hb⟩ := hocc x hx
    exact (occurs_lexical _ _).2 ((h.range _).2 ⟨b', hb, rfl⟩)
  · intro x hx
    obtain ⟨b', rfl, hb⟩ := hocc x hx
    have := h.shapes b' hb
    rw [paired_quads (k := Spec.erase) (k' := Spec.erase) (fun _ _ => Iff.rfl), ← around_eq rfl,
      ← around_eq rfl] at this
    exact this
  · intro m x hx hg hup
    obtain ⟨b', rfl, hb⟩ := hocc x hx
    have := h.names b' hb
    rw [paired_quads (agreeOn_iff hg (fun z w => by rw [hup, occurs_lexical])), ← around_eq rfl,
      ← around_eq rfl] at this
    exact this

end terms

/-! ## The order of the quads -/

section order

theorem sigOf_perm {ds ds' : List (Quad R)} (h : ds.Perm ds') (x : R) :
    (sigOf i ds x).Perm (sigOf i ds' x) := h.flatMap_right _

theorem collectSignatures_perm {ds ds' : List (Quad R)} (h : ds.Perm ds') :
    collectSignatures i ds = collectSignatures i ds' := by
  refine OrdMap.sorted_ext (collectSignatures_sorted i ds) (collectSignatures_sorted i ds') fun x => ?_
  rw [collectSignatures_get, collectSignatures_get, sortUnstable_perm (sigOf_perm h x)]
  have := (sigOf_perm (i := i) h x).length_eq
  by_cases e : sigOf i ds x = []
  · rw [e] at this
    rw [if_pos e, if_pos (List.eq_nil_of_length_eq_zero this.symm)]
  · rw [if_neg e, if_neg]
    intro e'
    rw [e'] at this
    exact e (List.eq_nil_of_length_eq_zero this)

theorem findBijectionWith_perm {ds₁ ds₂ ds₁' ds₂' : List (Quad R)} (h : ds₁.Perm ds₂)
    (h' : ds₁'.Perm ds₂') : findBijectionWith i ds₁ ds₁' = findBijectionWith i ds₂ ds₂' := by
  have hc : ∀ {ds ds' : List (Quad R)}, ds.Perm ds' →
      ds.foldl (fun c q => c + blankCount i q) 0 = ds'.foldl (fun c q => c + blankCount i q) 0 := by
    intro ds ds' h
    refine h.foldl_eq' (fun x _ y _ z => ?_) 0
    omega
  unfold findBijectionWith
  simp only [collectSignatures_perm h, collectSignatures_perm h', h.length_eq, h'.length_eq, hc h, hc h']

end order

end RdfTypes.Isomorphism
