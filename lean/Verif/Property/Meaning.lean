import Verif.Property.Nameless
import Verif.Property.Untangled
import Verif.Proof.Meaning

/-!
# C81: isomorphism of datasets of resources is decided when these are not entangled

What C39 and C79 say of lexical terms, for the functions that take an interpretation.
-/

set_option linter.unusedSectionVars false

namespace RdfTypes.Property

open Spec Isomorphism Meaning

variable {R I L : Type} [DecidableEq R] [DecidableEq I] [DecidableEq L]
  [Ord R] [Std.TransOrd R] [Std.LawfulEqOrd R] {i : ReverseInterpretation R I L}

/-- When names agree, datasets are recognised as isomorphic if they are, whichever resources stand
for the terms. -/
theorem C81_recognised (hn : NamesAgree i) {ds ds' : List (Quad R)} (hd : SaysOnce i ds)
    (hd' : SaysOnce i ds') (h : IsomorphicWith i ds ds') :
    (∃ m, findBijectionWith i ds ds' = .ok (some m)) ∧ areIsomorphicWith i ds ds' = .ok true := by
  obtain ⟨f, hf⟩ := h
  have hc := consistent_of_related hn hd hd' hf
  exact ⟨Nameless.found_of_consistent hn hc, (C75_exact hn ds ds').1.2 ⟨f, hc⟩⟩

/-- When names agree and one of two datasets is untangled, the returned mapping carries the quads
of the first that have nameless resources to those of the second; with the same other quads too
it carries all of them. -/
theorem C81_exact (hn : NamesAgree i) {ds ds' : List (Quad R)} (hd : SaysOnce i ds)
    (hd' : SaysOnce i ds') (hu : UntangledWith i ds ∨ UntangledWith i ds') {m : Bijection R}
    (h : findBijectionWith i ds ds' = .ok (some m)) :
    ∃ f : R → R, (∀ x y, NamelessIn i ds x → ((x, y) ∈ m.forward ↔ f x = y)) ∧
      (∀ q ∈ ds, ¬ AllNamed i q → ∃ q' ∈ ds', EachPosition (CarriedTo i f) q q') ∧
      (∀ q' ∈ ds', ¬ AllNamed i q' → ∃ q ∈ ds, EachPosition (CarriedTo i f) q q') ∧
      ((∀ q ∈ ds, AllNamed i q → ∃ q' ∈ ds', EachPosition (SharesTerm i) q q') →
        (∀ q' ∈ ds', AllNamed i q' → ∃ q ∈ ds, EachPosition (SharesTerm i) q q') →
        RelatedWith i f ds ds') := by
  classical
  obtain ⟨f, hf, hm⟩ := (C75_exact hn ds ds').2 m h
  have hc := (consistent_iff hn).1 hf
  have e : ∀ q, ¬ Ground q → (q ∈ meant i ds' ↔ ∃ q₀ ∈ meant i ds, q = q₀.map (relabel f)) :=
    fun q hq => hu.elim
      (fun hu => Untangled.exact_left hc ((saysOnce_iff hn ds).1 hd) ((saysOnce_iff hn ds').1 hd') hu hq)
      fun hu => Untangled.exact hc ((saysOnce_iff hn ds).1 hd) ((saysOnce_iff hn ds').1 hd') hu hq
  have h1 : ∀ q ∈ ds, ¬ AllNamed i q → ∃ q' ∈ ds', EachPosition (CarriedTo i f) q q' := by
    intro q hq hg
    have hg' : ¬ Ground ((q.map (meaning i)).map (relabel f)) := by
      rw [Untangled.ground_relabel, ground_iff]
      exact hg
    obtain ⟨q', h1, h2⟩ := List.mem_map.1 ((e _ hg').2 ⟨_, List.mem_map.2 ⟨q, hq, rfl⟩, rfl⟩)
    exact ⟨q', h1, (carried_iff hn f q q').2 h2⟩
  have h2 : ∀ q' ∈ ds', ¬ AllNamed i q' → ∃ q ∈ ds, EachPosition (CarriedTo i f) q q' := by
    intro q' hq hg
    obtain ⟨q₀, h1, h2⟩ := (e (q'.map (meaning i)) (fun h => hg ((ground_iff q').1 h))).1
      (List.mem_map.2 ⟨q', hq, rfl⟩)
    obtain ⟨q, h3, rfl⟩ := List.mem_map.1 h1
    exact ⟨q, h3, (carried_iff hn f q q').2 h2⟩
  have carry : ∀ q q', EachPosition (SharesTerm i) q q' → EachPosition (CarriedTo i f) q q' := by
    rintro ⟨s, p, o, g⟩ ⟨s', p', o', g'⟩ ⟨h1, h2, h3, h4⟩
    refine ⟨.inr h1, .inr h2, .inr h3, ?_⟩
    cases g <;> cases g'
    · trivial
    · exact h4
    · exact h4
    · exact Or.inr h4
  refine ⟨f, hm, h1, h2, fun h3 h4 => ⟨hf.injective, ?_, ?_⟩⟩
  · intro q hq
    by_cases hg : AllNamed i q
    · obtain ⟨q', h5, h6⟩ := h3 q hq hg
      exact ⟨q', h5, carry _ _ h6⟩
    · exact h1 q hq hg
  · intro q' hq
    by_cases hg : AllNamed i q'
    · obtain ⟨q, h5, h6⟩ := h4 q' hq hg
      exact ⟨q, h5, carry _ _ h6⟩
    · exact h2 q' hq hg

/-- When names agree, datasets with the same quads without nameless resources, one of them
untangled, are taken for isomorphic exactly when they are. -/
theorem C81_decides (hn : NamesAgree i) {ds ds' : List (Quad R)} (hd : SaysOnce i ds)
    (hd' : SaysOnce i ds') (hu : UntangledWith i ds ∨ UntangledWith i ds')
    (hg : ∀ q ∈ ds, AllNamed i q → ∃ q' ∈ ds', EachPosition (SharesTerm i) q q')
    (hg' : ∀ q' ∈ ds', AllNamed i q' → ∃ q ∈ ds, EachPosition (SharesTerm i) q q') :
    areIsomorphicWith i ds ds' = .ok true ↔ IsomorphicWith i ds ds' := by
  constructor
  · intro h
    obtain ⟨f, hf⟩ := (C75_exact hn ds ds').1.1 h
    obtain ⟨m, hm⟩ := Nameless.found_of_consistent hn hf
    obtain ⟨f, -, -, -, h1⟩ := C81_exact hn hd hd' hu hm
    exact ⟨f, h1 hg hg'⟩
  · exact fun h => (C81_recognised hn hd hd' h).2

/-! ## Cases -/

/-- Resources of the examples: multiples of three are nameless, the others have an IRI, the same
for `1` and `2`, for `4` and `5` and so on. -/
private def triples : ReverseInterpretation Nat Nat Nat where
  irisOf n := if n % 3 = 0 then [] else [n / 3]
  literalsOf _ := []

private theorem shares_iff (r r' : Nat) :
    SharesTerm triples r r' ↔ r % 3 ≠ 0 ∧ r' % 3 ≠ 0 ∧ r / 3 = r' / 3 := by
  unfold SharesTerm triples
  by_cases h : r % 3 = 0 <;> by_cases h' : r' % 3 = 0 <;> simp [h, h']

private theorem triples_agree : NamesAgree triples := by
  intro a b c h1 h2
  rw [shares_iff] at *
  omega

private theorem nameless_iff (r : Nat) : nameless triples r = true ↔ r % 3 = 0 := by
  unfold nameless triples
  by_cases h : r % 3 = 0 <;> simp [h]

/-- A path of nameless resources with different predicates, `4` and `7`; -/
private def path : List (Quad Nat) := [⟨0, 4, 3, none⟩, ⟨3, 7, 6, none⟩, ⟨6, 4, 1, none⟩]

/-- it is untangled, as nameless resources form a tree, -/
private theorem path_untangled : UntangledWith triples path := by
  classical
  refine Untangled.of_treeLike ⟨id, ?_, ?_⟩
  all_goals rw [frames_meant]
  · intro φ hφ hs
    have : φ = ⟨some 0, none, some 3, none⟩ ∨ φ = ⟨some 3, none, some 6, none⟩ := by
      obtain ⟨x, y, hne, hx, hy⟩ := hs
      simp [namelessFrames, path, Quad.map, nameless, triples, positions] at hφ
      rcases hφ with rfl | rfl | rfl <;> simp [positions] at hx hy ⊢ <;> omega
    rcases this with rfl | rfl
    · exact ⟨3, by simp [positions], fun c hc hne => by simp [positions] at hc ⊢; omega⟩
    · exact ⟨6, by simp [positions], fun c hc hne => by simp [positions] at hc ⊢; omega⟩
  · intro φ hφ ψ hψ hs ht c hc hc'
    have key : ∀ φ ∈ namelessFrames triples path, Several φ → Deepest id c φ →
        (φ = ⟨some 0, none, some 3, none⟩ ∧ c = 3) ∨
          (φ = ⟨some 3, none, some 6, none⟩ ∧ c = 6) := by
      intro φ hφ ⟨x, y, hne, hx, hy⟩ ⟨h1, h2⟩
      have h3 := h2 x hx
      have h4 := h2 y hy
      simp only [id] at h3 h4
      simp [namelessFrames, path, Quad.map, nameless, triples, positions] at hφ
      rcases hφ with rfl | rfl | rfl <;> simp [positions] at hx hy h1 ⊢ <;> omega
    rcases key φ hφ hs hc with ⟨rfl, rfl⟩ | ⟨rfl, rfl⟩ <;>
      rcases key ψ hψ ht hc' with ⟨rfl, h⟩ | ⟨rfl, h⟩ <;> first | rfl | omega

private theorem path_once : SaysOnce triples path := by
  unfold SaysOnce path
  simp [EachPosition, CarriedTo, shares_iff]

/-- and it is recognised with other resources for the same terms: `5` for `4`, `2` for `1`. -/
example : areIsomorphicWith triples path [⟨9, 8, 12, none⟩, ⟨12, 5, 2, none⟩, ⟨15, 5, 9, none⟩] =
    .ok true := by
  refine (C81_recognised triples_agree path_once ?_ ⟨fun r => if r = 0 then 15 else if r = 3 then 9
    else 12, ?_, ?_, ?_⟩).2
  · unfold SaysOnce
    simp [EachPosition, CarriedTo, shares_iff]
  · rintro r r' ⟨h1, q, hq, hr⟩ ⟨h2, q', hq', hr'⟩
    rw [nameless_iff] at h1 h2
    simp only [path, List.mem_cons, List.not_mem_nil, or_false] at hq hq'
    rcases hq with rfl | rfl | rfl <;> rcases hq' with rfl | rfl | rfl <;>
      simp [positions] at hr hr' <;> rcases hr with rfl | rfl | rfl <;>
      rcases hr' with rfl | rfl | rfl <;> simp at h1 h2 ⊢
  · simp [path, EachPosition, CarriedTo, shares_iff, nameless_iff]
  · simp [path, EachPosition, CarriedTo, shares_iff, nameless_iff]

/-- Nothing else is taken for it: here the predicates are exchanged. -/
example : ¬ IsomorphicWith triples path [⟨0, 7, 3, none⟩, ⟨3, 4, 6, none⟩, ⟨6, 4, 1, none⟩] := by
  rw [← C81_decides triples_agree path_once ?_ (.inl path_untangled)]
  · decide
  · intro q hq hg
    exfalso
    simp only [path, List.mem_cons, List.not_mem_nil, or_false] at hq
    rcases hq with rfl | rfl | rfl <;> simp [AllNamed, positions, nameless, triples] at hg
  · intro q hq hg
    exfalso
    simp only [List.mem_cons, List.not_mem_nil, or_false] at hq
    rcases hq with rfl | rfl | rfl <;> simp [AllNamed, positions, nameless, triples] at hg
  · unfold SaysOnce
    simp [EachPosition, CarriedTo, shares_iff]

/-- The mapping found for `path` carries each of its quads. -/
example : ∃ m, findBijectionWith triples path path = .ok (some m) ∧
    ∃ f, ∀ q ∈ path, ¬ AllNamed triples q → ∃ q' ∈ path, EachPosition (CarriedTo triples f) q q' := by
  refine ⟨⟨[(0, 0), (3, 3), (6, 6)], [(0, 0), (3, 3), (6, 6)]⟩, by decide, ?_⟩
  obtain ⟨f, -, h, -⟩ := C81_exact triples_agree path_once path_once (.inl path_untangled)
    (m := ⟨[(0, 0), (3, 3), (6, 6)], [(0, 0), (3, 3), (6, 6)]⟩) (by decide)
  exact ⟨f, h⟩

end RdfTypes.Property
