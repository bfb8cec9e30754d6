import Verif.Proof.IsomorphismExact

/-!
# C39 to C41, C62: isomorphism of datasets

Isomorphic datasets are recognised, and what is returned is a bijection between the
blank nodes. It need not map the quads of one dataset onto those of the other: quads
without blank nodes are not compared, and quads with several of them are compared
before all of these are mapped.
-/

set_option linter.unusedSectionVars false

namespace RdfTypes.Property

open Spec

variable {B I L : Type} [Ord B] [Ord I] [Ord L] [DecidableEq B] [DecidableEq I] [DecidableEq L]
  [Std.TransOrd B] [Std.LawfulEqOrd B] [Std.TransOrd I] [Std.LawfulEqOrd I] [Std.TransOrd L]
  [Std.LawfulEqOrd L]

/-- The blank nodes, IRIs and quads of the examples. -/
private abbrev b (n : Nat) : LocalTerm Nat Nat Nat := .anonymous n
private abbrev u (n : Nat) : LocalTerm Nat Nat Nat := .named (.iri n)
private abbrev Q := List (Quad (LocalTerm Nat Nat Nat))

/-- Isomorphic datasets are recognised. -/
theorem C39_recognised {ds ds' : List (Quad (LocalTerm B I L))} (hd : ds.Nodup) (hd' : ds'.Nodup)
    (h : Isomorphic ds ds') :
    (∃ m, findBijection ds ds' = .ok (some m)) ∧ areIsomorphic ds ds' = .ok true := by
  obtain ⟨m, hm⟩ := Isomorphism.findBijection_complete hd hd' h
  refine ⟨⟨m, hm⟩, ?_⟩
  unfold findBijection at hm
  simp [areIsomorphic, Isomorphism.areIsomorphicWith, hm, bind, Except.bind, pure, Except.pure]

/-- A cycle of three blank nodes and the same one with other names. -/
example : (∃ m, findBijection
      ([⟨b 0, u 1, b 1, none⟩, ⟨b 1, u 1, b 2, none⟩, ⟨b 2, u 1, b 0, some (b 0)⟩] : Q)
      [⟨b 5, u 1, b 4, none⟩, ⟨b 4, u 1, b 3, none⟩, ⟨b 3, u 1, b 5, some (b 5)⟩]
      = .ok (some m)) := by
  refine (C39_recognised (by decide) (by decide) ⟨fun n => 5 - n, ?_, ?_⟩).1
  · rintro x y ⟨-, q, hq, hx⟩ ⟨-, q', hq', hy⟩ h
    simp only [List.mem_cons, List.not_mem_nil, or_false] at hq hq'
    replace h : 5 - x = 5 - y := h
    rcases hq with rfl | rfl | rfl <;> rcases hq' with rfl | rfl | rfl <;>
      simp [positions] at hx hy <;> omega
  · intro q
    simp [Quad.map, relabel]

/-- Lists with repetitions: if the second has each quad as often as the first, renamed one to
one, the two are recognised. -/
theorem C39_repeated {ds ds' : List (Quad (LocalTerm B I L))} {f : B → B}
    (hf : ∀ x y, BlankIn ds (.anonymous x) → BlankIn ds (.anonymous y) → f x = f y → x = y)
    (h : ∀ q, ds'.count q = (ds.map (·.map (relabel f))).count q) :
    (∃ m, findBijection ds ds' = .ok (some m)) ∧ areIsomorphic ds ds' = .ok true := by
  obtain ⟨m, hm⟩ := Isomorphism.findBijection_perm hf (List.perm_iff_count.2 h)
  refine ⟨⟨m, hm⟩, ?_⟩
  unfold findBijection at hm
  simp [areIsomorphic, Isomorphism.areIsomorphicWith, hm, bind, Except.bind, pure, Except.pure]

/-- A quad listed twice, and in the other order; listed once, it is not the same dataset. -/
example : areIsomorphic ([⟨b 0, u 1, u 2, none⟩, ⟨b 1, u 1, u 2, none⟩, ⟨b 0, u 1, u 2, none⟩] : Q)
      [⟨b 1, u 1, u 2, none⟩, ⟨b 1, u 1, u 2, none⟩, ⟨b 0, u 1, u 2, none⟩] = .ok true ∧
    areIsomorphic ([⟨b 0, u 1, u 2, none⟩, ⟨b 0, u 1, u 2, none⟩] : Q) [⟨b 0, u 1, u 2, none⟩] =
      .ok false := by
  refine ⟨(C39_repeated (f := fun n => 1 - n) ?_ ?_).2, by rfl⟩
  · rintro x y ⟨-, q, hq, hx⟩ ⟨-, q', hq', hy⟩ h
    simp only [List.mem_cons, List.not_mem_nil, or_false] at hq hq'
    replace h : 1 - x = 1 - y := h
    rcases hq with rfl | rfl | rfl <;> rcases hq' with rfl | rfl | rfl <;>
      simp [positions] at hx hy <;> omega
  · intro q
    exact List.Perm.count_eq (by decide) q

/-- The function never panics, and the maps it returns are inverse bijections between
the blank nodes of both datasets, which occur equally often. -/
theorem C40_bijection (ds ds' : List (Quad (LocalTerm B I L))) :
    ∃ o, findBijection ds ds' = .ok o ∧ areIsomorphic ds ds' = .ok o.isSome ∧
      ∀ m, o = some m → InverseMaps m.forward m.backward (BlankIn ds) (BlankIn ds') ∧
        ∀ x y, (x, y) ∈ m.forward → occurrences ds x = occurrences ds' y := by
  obtain ⟨o, e, ho⟩ := Isomorphism.findBijection_spec ds ds'
  refine ⟨o, e, ?_, fun m hm => ?_⟩
  · unfold findBijection at e
    simp [areIsomorphic, Isomorphism.areIsomorphicWith, e, bind, Except.bind, pure, Except.pure]
  · obtain ⟨h1, h2⟩ := ho m hm
    refine ⟨h1, fun x y hxy => ?_⟩
    rw [← Isomorphism.length_surroundings, ← Isomorphism.length_surroundings]
    exact (h2 x y hxy).length_eq

/-- A mapping that needs a second attempt. -/
example : findBijection
    ([⟨b 0, u 1, b 1, none⟩, ⟨b 1, u 1, b 0, none⟩, ⟨b 0, u 2, b 2, none⟩, ⟨b 1, u 2, b 3, none⟩,
      ⟨b 2, u 3, u 1, none⟩, ⟨b 3, u 3, u 2, none⟩] : Q)
    [⟨b 0, u 1, b 1, none⟩, ⟨b 1, u 1, b 0, none⟩, ⟨b 0, u 2, b 3, none⟩, ⟨b 1, u 2, b 2, none⟩,
      ⟨b 2, u 3, u 1, none⟩, ⟨b 3, u 3, u 2, none⟩]
    = .ok (some ⟨[(b 0, b 1), (b 1, b 0), (b 2, b 2), (b 3, b 3)],
        [(b 0, b 1), (b 1, b 0), (b 2, b 2), (b 3, b 3)]⟩) := by decide

/-- No bijection, and no panic. -/
example : findBijection ([⟨b 0, u 1, b 1, none⟩] : Q) [⟨b 0, u 2, b 1, none⟩] = .ok none := by decide

/-- Blank nodes mapped to each other have the same quads around them, up to the names of
blank nodes. Missing: that these names are mapped to each other, and the quads without
blank nodes. -/
theorem C41_surroundings_partial {ds ds' : List (Quad (LocalTerm B I L))}
    {m : Isomorphism.Bijection (LocalTerm B I L)} (h : findBijection ds ds' = .ok (some m)) :
    ∀ x y, (x, y) ∈ m.forward → (surroundings ds x).Perm (surroundings ds' y) := by
  obtain ⟨o, e, ho⟩ := Isomorphism.findBijection_spec ds ds'
  rw [h] at e
  cases e
  exact (ho m rfl).2

example : (surroundings ([⟨b 0, u 1, b 1, none⟩, ⟨b 1, u 2, u 3, none⟩] : Q) (b 1)).Perm
    (surroundings ([⟨b 4, u 2, u 3, none⟩, ⟨b 5, u 1, b 4, none⟩] : Q) (b 4)) :=
  C41_surroundings_partial (m := ⟨[(b 0, b 5), (b 1, b 4)], [(b 4, b 1), (b 5, b 0)]⟩) (by decide)
    _ _ (by decide)

/-- Quads with blank nodes that are renamed into each other, and equal quads without. -/
theorem related_of_ground {ds ds' : List (Quad (LocalTerm B I L))} {f : B → B}
    (f2 : ∀ b b', BlankIn ds (.anonymous b) → BlankIn ds (.anonymous b') → f b = f b' → b = b')
    (f3 : ∀ q, ¬ Ground q → (q ∈ ds' ↔ ∃ q₀ ∈ ds, q = q₀.map (relabel f)))
    (hg : ∀ q, Ground q → (q ∈ ds ↔ q ∈ ds')) : RelatedBy f ds ds' := by
  refine ⟨f2, fun q => ?_⟩
  have hmap : ∀ q₀ : Quad (LocalTerm B I L), Ground q₀ → q₀.map (relabel f) = q₀ := by
    rintro ⟨s, p, o, g⟩ h
    have key : ∀ r ∈ positions ⟨s, p, o, g⟩, relabel f r = r := by
      rintro (z | t) hr
      · exact absurd hr (h z)
      · rfl
    have k1 := key s (by simp [positions])
    have k2 := key p (by simp [positions])
    have k3 := key o (by simp [positions])
    cases g with
    | none => simp [Quad.map, k1, k2, k3]
    | some g => simp [Quad.map, k1, k2, k3, key g (by simp [positions])]
  by_cases hq : Ground q
  · constructor
    · intro hq'
      exact ⟨q, (hg q hq).2 hq', (hmap q hq).symm⟩
    · rintro ⟨q₀, h1, rfl⟩
      have : Ground q₀ := by
        intro z hz
        refine hq (f z) ?_
        rw [Isomorphism.positions_map]
        exact List.mem_map.2 ⟨_, hz, rfl⟩
      rw [hmap _ this]
      exact (hg _ this).1 h1
  · exact f3 q hq

/-- When every quad has at most one blank node, the returned mapping applied to the
first dataset gives the second, except for the quads without blank nodes. Missing: quads
with several blank nodes, quads without. -/
theorem C41_one_blank_partial {ds ds' : List (Quad (LocalTerm B I L))}
    {m : Isomorphism.Bijection (LocalTerm B I L)} (h : findBijection ds ds' = .ok (some m))
    (hd : OneBlankEach ds) (hd' : OneBlankEach ds') :
    ∃ f : B → B,
      (∀ x y, BlankIn ds (.anonymous x) → ((.anonymous x, .anonymous y) ∈ m.forward ↔ f x = y)) ∧
      (∀ q, ¬ Ground q → (q ∈ ds' ↔ ∃ q₀ ∈ ds, q = q₀.map (relabel f))) ∧
      ((∀ q, Ground q → (q ∈ ds ↔ q ∈ ds')) → RelatedBy f ds ds') := by
  obtain ⟨o, e, ho⟩ := Isomorphism.findBijection_spec ds ds'
  rw [h] at e
  cases e
  obtain ⟨h1, h2⟩ := ho m rfl
  obtain ⟨f, f1, f2, f3⟩ := Isomorphism.one_blank hd hd' h1 h2
  exact ⟨f, f1, f3, fun hg => related_of_ground f2 f3 hg⟩

/-- Two blank nodes, each of them twice in a quad. -/
example : ∃ m, findBijection ([⟨b 0, u 1, b 0, none⟩, ⟨b 1, u 2, u 3, none⟩, ⟨b 1, u 1, b 1, none⟩] : Q)
      [⟨b 3, u 1, b 3, none⟩, ⟨b 3, u 2, u 3, none⟩, ⟨b 4, u 1, b 4, none⟩] = .ok (some m) ∧
    m.forward = [(b 0, b 4), (b 1, b 3)] ∧
    OneBlankEach ([⟨b 0, u 1, b 0, none⟩, ⟨b 1, u 2, u 3, none⟩, ⟨b 1, u 1, b 1, none⟩] : Q) := by
  refine ⟨⟨[(b 0, b 4), (b 1, b 3)], [(b 3, b 1), (b 4, b 0)]⟩, by decide, rfl, ?_⟩
  intro q hq x y hx hy
  simp only [List.mem_cons, List.not_mem_nil, or_false] at hq
  rcases hq with rfl | rfl | rfl <;> simp [positions] at hx hy <;> omega

/-- When quads with a blank node in common are equal up to the names of blank nodes,
except those with one blank node only, the returned mapping applied to the first dataset
gives the second, except for the quads without blank nodes. Missing: unlike quads that
share a blank node, quads without blank nodes. -/
theorem C41_alike_partial {ds ds' : List (Quad (LocalTerm B I L))}
    {m : Isomorphism.Bijection (LocalTerm B I L)} (h : findBijection ds ds' = .ok (some m))
    (hd : ds.Nodup) (hd' : AlikeWhenShared ds') :
    ∃ f : B → B,
      (∀ x y, BlankIn ds (.anonymous x) → ((.anonymous x, .anonymous y) ∈ m.forward ↔ f x = y)) ∧
      (∀ q, ¬ Ground q → (q ∈ ds' ↔ ∃ q₀ ∈ ds, q = q₀.map (relabel f))) ∧
      ((∀ q, Ground q → (q ∈ ds ↔ q ∈ ds')) → RelatedBy f ds ds') := by
  obtain ⟨f, h1, h2⟩ := Isomorphism.findBijection_trace h
  have h3 : ∀ q, ¬ Ground q → (q ∈ ds' ↔ ∃ q₀ ∈ ds, q = q₀.map (relabel f)) :=
    fun q hq => Isomorphism.alike hd h1 hd' hq
  exact ⟨f, h2, h3, fun hg => related_of_ground h1.injective h3 hg⟩

/-- Two paths between blank nodes with different predicates, a blank node with different
ones. -/
example : AlikeWhenShared ([⟨b 0, u 1, b 1, none⟩, ⟨b 1, u 1, b 2, none⟩, ⟨b 3, u 2, b 4, none⟩,
      ⟨b 4, u 2, b 3, none⟩, ⟨b 5, u 1, u 2, none⟩, ⟨b 5, u 2, b 5, none⟩] : Q) ∧
    findBijection ([⟨b 0, u 1, b 1, none⟩, ⟨b 1, u 1, b 2, none⟩] : Q)
      [⟨b 0, u 1, b 2, none⟩, ⟨b 2, u 1, b 1, none⟩] =
      .ok (some ⟨[(b 0, b 0), (b 1, b 2), (b 2, b 1)], [(b 0, b 0), (b 1, b 2), (b 2, b 1)]⟩) := by
  refine ⟨?_, by decide⟩
  intro q hq q' hq' x y hne hx hy hd
  obtain ⟨d, hd, hd'⟩ := hd
  simp only [List.mem_cons, List.not_mem_nil, or_false] at hq hq'
  rcases hq with rfl | rfl | rfl | rfl | rfl | rfl <;>
    rcases hq' with rfl | rfl | rfl | rfl | rfl | rfl <;>
    simp [positions] at hx hy hd hd' <;> first | rfl | omega

/-- The code violates the claim, whether the quads without blank nodes differ or there
are none of them. -/
theorem C41_false :
    (∃ ds ds' : Q, ds.Nodup ∧ ds'.Nodup ∧ (∀ q ∈ ds ++ ds', Ground q) ∧
      areIsomorphic ds ds' = .ok true ∧ ¬ Isomorphic ds ds') ∧
    ∃ ds ds' : Q, ds.Nodup ∧ ds'.Nodup ∧ (∀ q ∈ ds ++ ds', ¬ Ground q) ∧
      areIsomorphic ds ds' = .ok true ∧ ¬ Isomorphic ds ds' := by
  constructor
  · refine ⟨[⟨u 1, u 1, u 1, none⟩], [⟨u 2, u 2, u 2, none⟩], by decide, by decide, ?_, by decide, ?_⟩
    · intro q hq
      simp only [List.cons_append, List.nil_append, List.mem_cons, List.not_mem_nil, or_false] at hq
      rcases hq with rfl | rfl <;> intro x hx <;> simp [positions] at hx
    · rintro ⟨f, -, h⟩
      have := (h ⟨u 2, u 2, u 2, none⟩).1 (by simp)
      simp [Quad.map, relabel] at this
  · refine ⟨[⟨b 0, u 1, b 0, none⟩, ⟨b 0, u 1, b 1, none⟩, ⟨b 1, u 2, b 0, none⟩],
      [⟨b 0, u 1, b 0, none⟩, ⟨b 0, u 2, b 1, none⟩, ⟨b 1, u 1, b 0, none⟩], by decide, by decide, ?_,
      by decide, ?_⟩
    · intro q hq
      simp only [List.cons_append, List.nil_append, List.mem_cons, List.not_mem_nil, or_false] at hq
      rcases hq with rfl | rfl | rfl | rfl | rfl | rfl <;> intro h
      · exact h 0 (by simp [positions])
      · exact h 0 (by simp [positions])
      · exact h 0 (by simp [positions])
      · exact h 0 (by simp [positions])
      · exact h 0 (by simp [positions])
      · exact h 0 (by simp [positions])
    · rintro ⟨f, hf, h⟩
      have h1 := (h ⟨b (f 0), u 1, b (f 0), none⟩).2 ⟨⟨b 0, u 1, b 0, none⟩, by simp, rfl⟩
      have h2 := (h ⟨b (f 0), u 1, b (f 1), none⟩).2 ⟨⟨b 0, u 1, b 1, none⟩, by simp, rfl⟩
      have h3 := hf 0 1 ⟨⟨0, rfl⟩, ⟨b 0, u 1, b 0, none⟩, by simp, by simp [positions]⟩
        ⟨⟨1, rfl⟩, ⟨b 0, u 1, b 1, none⟩, by simp, by simp [positions]⟩
      simp at h1 h2
      omega

/-- Datasets are taken for isomorphic exactly when some renaming passes the comparisons
listed in `Accepted`, and the returned mapping is such a renaming. -/
theorem C62_exact (ds ds' : List (Quad (LocalTerm B I L))) :
    (areIsomorphic ds ds' = .ok true ↔ ∃ f, Accepted f ds ds') ∧
    ∀ m, findBijection ds ds' = .ok (some m) → ∃ f, Accepted f ds ds' ∧
      ∀ x y, BlankIn ds (.anonymous x) → ((.anonymous x, .anonymous y) ∈ m.forward ↔ f x = y) := by
  refine ⟨?_, fun m h => Isomorphism.findBijection_trace h⟩
  obtain ⟨o, e, -⟩ := Isomorphism.findBijection_spec ds ds'
  have e' : areIsomorphic ds ds' = .ok o.isSome := by
    unfold findBijection at e
    simp [areIsomorphic, Isomorphism.areIsomorphicWith, e, bind, Except.bind, pure, Except.pure]
  rw [e', Except.ok.injEq]
  constructor
  · intro h
    obtain ⟨m, rfl⟩ := Option.isSome_iff_exists.1 h
    obtain ⟨f, hf, -⟩ := Isomorphism.findBijection_trace e
    exact ⟨f, hf⟩
  · rintro ⟨f, hf⟩
    obtain ⟨m, hm⟩ := Isomorphism.findBijection_accepted hf
    rw [hm] at e
    cases e
    rfl

/-- A renaming that is accepted though it does not map the quads onto each other: the
predicates between the blank nodes differ. -/
example : ∃ f : Nat → Nat, Accepted f
      ([⟨b 0, u 1, b 0, none⟩, ⟨b 0, u 1, b 1, none⟩, ⟨b 1, u 2, b 0, none⟩] : Q)
      [⟨b 0, u 1, b 0, none⟩, ⟨b 0, u 2, b 1, none⟩, ⟨b 1, u 1, b 0, none⟩] :=
  (C62_exact _ _).1.1 (by decide)

/-- No renaming is accepted: the blank node of the first dataset is the subject of two
quads. -/
example : ¬ ∃ f : Nat → Nat, Accepted f
      ([⟨b 0, u 1, u 1, none⟩, ⟨b 0, u 1, u 2, none⟩] : Q)
      [⟨b 0, u 1, u 1, none⟩, ⟨b 1, u 1, u 2, none⟩] := by
  rw [← (C62_exact _ _).1]
  decide

end RdfTypes.Property
