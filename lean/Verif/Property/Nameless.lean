import Verif.Proof.Nameless

/-!
# C75: isomorphism of datasets of resources

The functions that take an interpretation. When resources that share a term with a third one
share a term, they behave as on lexical terms (C40, C74). Otherwise the test is not transitive
and misses datasets that are equal up to the choice among resources that share a term.
-/

set_option linter.unusedSectionVars false

namespace RdfTypes.Property

open Spec Isomorphism

variable {R I L : Type} [DecidableEq R] [DecidableEq I] [DecidableEq L]

private theorem length_quadsAround (ds : List (Quad R)) (r : R) :
    (quadsAround ds r).length = (ds.flatMap positions).count r := by
  unfold quadsAround
  induction ds with
  | nil => rfl
  | cons q ds ih =>
    rw [List.flatMap_cons, List.flatMap_cons, List.length_append, ih, List.count_append,
      List.length_map]
    congr 1
    rw [List.count_eq_length_filter]
    rfl

section any

variable [Ord R] [Std.TransOrd R] [Std.LawfulEqOrd R] (i : ReverseInterpretation R I L)

/-- With any interpretation the function does not panic, and the maps it returns are inverse
bijections between the nameless resources of both datasets, which occur equally often. -/
theorem C75_bijection (ds ds' : List (Quad R)) :
    ∃ o, findBijectionWith i ds ds' = .ok o ∧ areIsomorphicWith i ds ds' = .ok o.isSome ∧
      ∀ m, o = some m → InverseMaps m.forward m.backward (NamelessIn i ds) (NamelessIn i ds') ∧
        ∀ x y, (x, y) ∈ m.forward →
          (ds.flatMap positions).count x = (ds'.flatMap positions).count y := by
  have hk : ∀ r, i.isAnonymous r = true ↔
      (fun r => if i.isAnonymous r then none else some ()) r = none := by
    intro r
    by_cases h : i.isAnonymous r = true <;> simp [h]
  obtain ⟨o, e, ho⟩ := findBijectionWith_maps hk ds ds'
  refine ⟨o, e, by simp [areIsomorphicWith, e, bind, Except.bind, pure, Except.pure], fun m hm => ?_⟩
  obtain ⟨h1, h2, h3, h4⟩ := ho m hm
  refine ⟨⟨?_, ?_, ?_, ?_, ?_⟩, ?_⟩
  · intro x y
    constructor
    · exact fun h => OrdMap.mem_of_get ((h1.inverse x y).1 (OrdMap.get_of_mem h1.sorted h))
    · exact fun h => OrdMap.mem_of_get ((h1.inverse x y).2 (OrdMap.get_of_mem h1.sorted' h))
  · intro x y y' h h'
    have := OrdMap.get_of_mem h1.sorted h
    rw [OrdMap.get_of_mem h1.sorted h'] at this
    exact (Option.some.inj this).symm
  · intro x y y' h h'
    have := OrdMap.get_of_mem h1.sorted' h
    rw [OrdMap.get_of_mem h1.sorted' h'] at this
    exact (Option.some.inj this).symm
  · intro x
    rw [← Nameless.occurs_iff, h2]
    exact exists_congr fun y => ⟨OrdMap.mem_of_get, OrdMap.get_of_mem h1.sorted⟩
  · intro x
    rw [← Nameless.occurs_iff, h3]
    exact exists_congr fun y => ⟨OrdMap.mem_of_get, OrdMap.get_of_mem h1.sorted'⟩
  · intro x y hxy
    have hx := OrdMap.get_of_mem h1.sorted hxy
    have hxn := Nameless.occurs_iff.1 ((h2 x).2 ⟨y, hx⟩)
    have hyn := Nameless.occurs_iff.1 ((h3 y).2 ⟨x, (h1.inverse x y).1 hx⟩)
    obtain ⟨sig, sig', e1, e2, e3, -⟩ := h4 x y hx
    rw [← length_quadsAround, ← length_quadsAround, ← Nameless.quadsAround_eq hxn.1,
      ← Nameless.quadsAround_eq hyn.1, ← (signature i e1).length_eq, ← (signature i e2).length_eq, e3]

end any

/-- Resources of the examples: even ones are nameless, `1` and `3` have two IRIs each, of
which one is common; `5` and `7` have one of them each. -/
private def crossed : ReverseInterpretation Nat Nat Nat where
  irisOf n := if n = 1 then [1, 2] else if n = 3 then [2, 3] else if n = 5 then [1] else
    if n = 7 then [2] else if n % 2 = 0 then [] else [n]
  literalsOf _ := []

/-- A mapping under an interpretation whose names do not agree. -/
example : findBijectionWith crossed [⟨0, 9, 1, none⟩, ⟨0, 9, 2, some 3⟩]
      [⟨4, 9, 2, some 3⟩, ⟨4, 9, 5, none⟩] =
    .ok (some ⟨[(0, 4), (2, 2)], [(2, 2), (4, 0)]⟩) := by decide

section agree

variable [Ord R] [Std.TransOrd R] [Std.LawfulEqOrd R] {i : ReverseInterpretation R I L}

/-- When names agree, datasets are taken for isomorphic exactly when some renaming keeps the
places of the nameless resources and, separately, the quads around each of them. The returned
mapping is such a renaming. -/
theorem C75_exact (hn : NamesAgree i) (ds ds' : List (Quad R)) :
    (areIsomorphicWith i ds ds' = .ok true ↔ ∃ f, ConsistentWith i f ds ds') ∧
    ∀ m, findBijectionWith i ds ds' = .ok (some m) → ∃ f, ConsistentWith i f ds ds' ∧
      ∀ x y, NamelessIn i ds x → ((x, y) ∈ m.forward ↔ f x = y) := by
  refine ⟨?_, fun m h => Nameless.consistent_of_found hn h⟩
  obtain ⟨o, e, e', -⟩ := C75_bijection i ds ds'
  rw [e', Except.ok.injEq]
  constructor
  · intro h
    obtain ⟨m, rfl⟩ := Option.isSome_iff_exists.1 h
    obtain ⟨f, hf, -⟩ := Nameless.consistent_of_found hn e
    exact ⟨f, hf⟩
  · rintro ⟨f, hf⟩
    obtain ⟨m, hm⟩ := Nameless.found_of_consistent hn hf
    rw [hm] at e
    cases e
    rfl

private theorem same {x y : Res Bool} (hx : ∃ r, x = .ok r) (hy : ∃ r, y = .ok r)
    (h : x = .ok true ↔ y = .ok true) : x = y := by
  obtain ⟨r, rfl⟩ := hx
  obtain ⟨r', rfl⟩ := hy
  cases r <;> cases r' <;> simp at h ⊢

private theorem result (i : ReverseInterpretation R I L) (ds ds' : List (Quad R)) :
    ∃ r, areIsomorphicWith i ds ds' = .ok r := by
  obtain ⟨o, -, h, -⟩ := C75_bijection i ds ds'
  exact ⟨_, h⟩

/-- When names agree, the test is reflexive, symmetric and transitive. -/
theorem C75_equivalence (hn : NamesAgree i) :
    (∀ ds : List (Quad R), areIsomorphicWith i ds ds = .ok true) ∧
    (∀ ds ds' : List (Quad R), areIsomorphicWith i ds ds' = areIsomorphicWith i ds' ds) ∧
    ∀ ds ds' ds'' : List (Quad R), areIsomorphicWith i ds ds' = .ok true →
      areIsomorphicWith i ds' ds'' = .ok true → areIsomorphicWith i ds ds'' = .ok true := by
  refine ⟨fun ds => (C75_exact hn ds ds).1.2 ⟨id, Nameless.consistent_refl hn ds⟩, fun ds ds' => ?_,
    fun ds ds' ds'' h h' => ?_⟩
  · refine same (result _ _ _) (result _ _ _) ?_
    rw [(C75_exact hn ds ds').1, (C75_exact hn ds' ds).1]
    constructor
    · exact fun ⟨f, h⟩ => Nameless.consistent_symm hn h
    · exact fun ⟨f, h⟩ => Nameless.consistent_symm hn h
  · obtain ⟨f, h⟩ := (C75_exact hn ds ds').1.1 h
    obtain ⟨f', h'⟩ := (C75_exact hn ds' ds'').1.1 h'
    exact (C75_exact hn ds ds'').1.2 ⟨_, Nameless.consistent_trans hn h h'⟩

/-- When names agree, neither the order of the quads nor the choice of nameless resources nor
the choice among resources that share a term matter, in either dataset. -/
theorem C75_replaced (hn : NamesAgree i) {f : R → R} {ds ds' : List (Quad R)}
    (hf : ∀ r r', NamelessIn i ds r → NamelessIn i ds r' → f r = f r' → r = r')
    (ha : ∀ q ∈ ds, ∀ r ∈ positions q, Alike i r (f r))
    (h : (ds.map (·.map f)).Perm ds') (other : List (Quad R)) :
    areIsomorphicWith i ds ds' = .ok true ∧
    areIsomorphicWith i ds other = areIsomorphicWith i ds' other ∧
    areIsomorphicWith i other ds = areIsomorphicWith i other ds' := by
  have hc : areIsomorphicWith i ds ds' = .ok true :=
    (C75_exact hn ds ds').1.2 ⟨f, Nameless.consistent_replaced hn hf ha h⟩
  obtain ⟨-, hs, ht⟩ := C75_equivalence hn
  have key : areIsomorphicWith i ds other = areIsomorphicWith i ds' other := by
    refine same (result _ _ _) (result _ _ _) ⟨fun h1 => ?_, fun h1 => ?_⟩
    · exact ht ds' ds other (hs ds ds' ▸ hc) h1
    · exact ht ds ds' other hc h1
  exact ⟨hc, key, by rw [hs other ds, hs other ds', key]⟩

end agree

/-- When names agree, the order on resources does not matter. -/
theorem C75_order {i : ReverseInterpretation R I L} (hn : NamesAgree i) (o o' : Ord R)
    [@Std.TransOrd R o] [@Std.LawfulEqOrd R o] [@Std.TransOrd R o'] [@Std.LawfulEqOrd R o']
    (ds ds' : List (Quad R)) :
    @areIsomorphicWith R I L o _ _ _ i ds ds' = @areIsomorphicWith R I L o' _ _ _ i ds ds' := by
  refine same ?_ ?_ ?_
  · exact @result R I L _ _ _ o _ _ i ds ds'
  · exact @result R I L _ _ _ o' _ _ i ds ds'
  · rw [(@C75_exact R I L _ _ _ o _ _ i hn ds ds').1, (@C75_exact R I L _ _ _ o' _ _ i hn ds ds').1]

/-- Names agree when every resource has at most one term, and when every term names at most one
resource. -/
theorem C75_names_agree (i : ReverseInterpretation R I L)
    (h : (∀ r, ∀ t ∈ i.termsOf r, ∀ t' ∈ i.termsOf r, t = t') ∨
      ∀ r r' t, t ∈ i.termsOf r → t ∈ i.termsOf r' → r = r') : NamesAgree i := by
  have iri : ∀ r x, .iri x ∈ i.termsOf r ↔ x ∈ i.irisOf r := by
    intro r x
    simp [ReverseInterpretation.termsOf]
  have lit : ∀ r x, .literal x ∈ i.termsOf r ↔ x ∈ i.literalsOf r := by
    intro r x
    simp [ReverseInterpretation.termsOf]
  have sh : ∀ r r', SharesTerm i r r' ↔ ∃ t, t ∈ i.termsOf r ∧ t ∈ i.termsOf r' := by
    intro r r'
    constructor
    · rintro (⟨x, h1, h2⟩ | ⟨x, h1, h2⟩)
      · exact ⟨_, (iri r x).2 h1, (iri r' x).2 h2⟩
      · exact ⟨_, (lit r x).2 h1, (lit r' x).2 h2⟩
    · rintro ⟨t, h1, h2⟩
      cases t with
      | iri x => exact Or.inl ⟨x, (iri r x).1 h1, (iri r' x).1 h2⟩
      | literal x => exact Or.inr ⟨x, (lit r x).1 h1, (lit r' x).1 h2⟩
  intro a b c hab hbc
  rw [sh] at hab hbc ⊢
  obtain ⟨t, h1, h2⟩ := hab
  obtain ⟨t', h3, h4⟩ := hbc
  rcases h with h | h
  · rw [h b t' h3 t h2] at h4
    exact ⟨t, h1, h4⟩
  · rw [← h a b t h1 h2] at h3
    exact ⟨t', h3, h4⟩

/-- Resources with several IRIs of their own. -/
private def several : ReverseInterpretation Nat Nat Nat where
  irisOf n := if n % 2 = 0 then [] else [n, n + 1]
  literalsOf _ := []

private theorem several_agree : NamesAgree several := by
  refine C75_names_agree _ (Or.inr ?_)
  intro r r' t h h'
  simp only [ReverseInterpretation.termsOf, several, List.map_nil, List.append_nil] at h h'
  split at h <;> split at h'
  · simp at h
  · simp at h
  · simp at h'
  · simp only [List.map_cons, List.map_nil, List.mem_cons, List.not_mem_nil, or_false] at h h'
    rcases h with rfl | rfl <;> rcases h' with h' | h' <;> simp at h' <;> omega

example : ∃ f, ConsistentWith several f [⟨0, 1, 2, none⟩, ⟨2, 1, 3, some 0⟩]
      [⟨0, 1, 3, some 4⟩, ⟨4, 1, 0, none⟩] :=
  (C75_exact several_agree _ _).1.1 (by decide)

example (other : List (Quad Nat)) :
    areIsomorphicWith several [⟨0, 1, 2, none⟩, ⟨2, 1, 3, some 0⟩] other =
      areIsomorphicWith several [⟨0, 1, 3, some 2⟩, ⟨2, 1, 0, none⟩] other := by
  refine (C75_replaced several_agree (f := fun n => if n = 0 then 2 else if n = 2 then 0 else n)
    ?_ ?_ (by decide) other).2.1
  · rintro r r' ⟨-, q, hq, hx⟩ ⟨-, q', hq', hy⟩
    simp only [List.mem_cons, List.not_mem_nil, or_false] at hq hq'
    rcases hq with rfl | rfl <;> rcases hq' with rfl | rfl <;>
      simp [positions] at hx hy <;>
      (rcases hx with rfl | rfl | rfl | rfl <;> rcases hy with rfl | rfl | rfl | rfl <;> decide)
  · intro q hq r hr
    simp only [List.mem_cons, List.not_mem_nil, or_false] at hq
    rcases hq with rfl | rfl <;> simp [positions] at hr
    · rcases hr with rfl | rfl | rfl
      · exact Or.inr (by decide)
      · exact Nameless.alike_self _
      · exact Or.inr (by decide)
    · rcases hr with rfl | rfl | rfl | rfl
      · exact Or.inr (by decide)
      · exact Nameless.alike_self _
      · exact Nameless.alike_self _
      · exact Or.inr (by decide)

/-- When names do not agree, the test is not transitive, and it depends on which resource stands
for a term. -/
theorem C75_false :
    (∃ ds ds' ds'' : List (Quad Nat), areIsomorphicWith crossed ds ds' = .ok true ∧
      areIsomorphicWith crossed ds' ds'' = .ok true ∧
      areIsomorphicWith crossed ds ds'' = .ok false) ∧
    ∃ (f : Nat → Nat) (ds ds' : List (Quad Nat)), (∀ r, Alike crossed r (f r)) ∧
      (∀ r, nameless crossed r = true → f r = r) ∧ ds' = ds.map (·.map f) ∧
      areIsomorphicWith crossed ds ds' = .ok false := by
  refine ⟨⟨[⟨0, 9, 5, none⟩], [⟨0, 9, 1, none⟩], [⟨0, 9, 7, none⟩], by decide, by decide, by decide⟩,
    fun n => if n = 1 then 7 else n, [⟨0, 9, 1, none⟩, ⟨0, 9, 5, none⟩],
    [⟨0, 9, 7, none⟩, ⟨0, 9, 5, none⟩], ?_, ?_, rfl, by decide⟩
  · intro r
    by_cases h : r = 1
    · subst h
      exact Or.inl (Or.inl ⟨2, by decide, by decide⟩)
    · simp only [if_neg h]
      exact Nameless.alike_self _
  · intro r hr
    by_cases h : r = 1
    · subst h
      exact absurd hr (by decide)
    · exact if_neg h

/-- A dataset is isomorphic to itself with resource 4 for 0; -/
example : areIsomorphicWith several [⟨0, 1, 2, none⟩, ⟨2, 1, 3, some 0⟩]
      [⟨4, 1, 0, none⟩, ⟨0, 1, 3, some 4⟩] = .ok true ∧
    areIsomorphicWith several [⟨4, 1, 0, none⟩, ⟨0, 1, 3, some 4⟩]
      [⟨0, 1, 2, none⟩, ⟨2, 1, 3, some 0⟩] = .ok true := by
  have h : areIsomorphicWith several [⟨0, 1, 2, none⟩, ⟨2, 1, 3, some 0⟩]
      [⟨4, 1, 0, none⟩, ⟨0, 1, 3, some 4⟩] = .ok true := by decide
  exact ⟨h, ((C75_equivalence several_agree).2.1 _ _).symm.trans h⟩

end RdfTypes.Property
