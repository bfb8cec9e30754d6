import Verif.Property.Frames
import Verif.Proof.Untangled

/-!
# C79: isomorphism is decided when blank nodes are not entangled
-/

set_option linter.unusedSectionVars false

namespace RdfTypes.Property

open Spec

variable {B I L : Type} [Ord B] [Ord I] [Ord L] [DecidableEq B] [DecidableEq I] [DecidableEq L]
  [Std.TransOrd B] [Std.LawfulEqOrd B] [Std.TransOrd I] [Std.LawfulEqOrd I] [Std.TransOrd L]
  [Std.LawfulEqOrd L]

private abbrev b (n : Nat) : LocalTerm Nat Nat Nat := .anonymous n
private abbrev u (n : Nat) : LocalTerm Nat Nat Nat := .named (.iri n)
private abbrev Q := List (Quad (LocalTerm Nat Nat Nat))

/-- When one of two datasets is untangled, the returned mapping applied to the first gives the
second, except for the quads without blank nodes; with the same ones of these too it gives all of
it. -/
theorem C79_exact {ds ds' : List (Quad (LocalTerm B I L))} (hd : ds.Nodup) (hd' : ds'.Nodup)
    (hu : Untangled ds ∨ Untangled ds') {m : Isomorphism.Bijection (LocalTerm B I L)}
    (h : findBijection ds ds' = .ok (some m)) :
    ∃ f : B → B,
      (∀ x y, BlankIn ds (.anonymous x) → ((.anonymous x, .anonymous y) ∈ m.forward ↔ f x = y)) ∧
      (∀ q, ¬ Ground q → (q ∈ ds' ↔ ∃ q₀ ∈ ds, q = q₀.map (relabel f))) ∧
      ((∀ q, Ground q → (q ∈ ds ↔ q ∈ ds')) → RelatedBy f ds ds') := by
  obtain ⟨f, hf, hm⟩ := (C74_exact ds ds').2 m h
  have he : ∀ q, ¬ Ground q → (q ∈ ds' ↔ ∃ q₀ ∈ ds, q = q₀.map (relabel f)) := fun q hq =>
    hu.elim (fun hu => Untangled.exact_left hf hd hd' hu hq)
      fun hu => Untangled.exact hf hd hd' hu hq
  exact ⟨f, hm, he, fun hg => related_of_ground hf.injective he hg⟩

/-- Datasets with the same quads without blank nodes, one of them untangled, are taken for
isomorphic exactly when they are. -/
theorem C79_decides {ds ds' : List (Quad (LocalTerm B I L))} (hd : ds.Nodup) (hd' : ds'.Nodup)
    (hu : Untangled ds ∨ Untangled ds') (hg : ∀ q, Ground q → (q ∈ ds ↔ q ∈ ds')) :
    areIsomorphic ds ds' = .ok true ↔ Isomorphic ds ds' := by
  constructor
  · intro h
    obtain ⟨f, hf⟩ := (C74_exact ds ds').1.1 h
    refine ⟨f, related_of_ground hf.injective (fun q hq => ?_) hg⟩
    exact hu.elim (fun hu => Untangled.exact_left hf hd hd' hu hq)
      fun hu => Untangled.exact hf hd hd' hu hq
  · exact fun h => (C39_recognised hd hd' h).2

/-- A dataset is untangled when its blank nodes form trees, when its quads that share a blank
node are alike and when no quad has two blank nodes. -/
theorem C79_kinds (ds : List (Quad (LocalTerm B I L))) :
    (TreeLike ds → Untangled ds) ∧ (AlikeWhenShared ds → Untangled ds) ∧
      (OneBlankEach ds → Untangled ds) :=
  ⟨Untangled.of_treeLike, Untangled.of_alike, Untangled.of_oneBlank⟩

/-- Entangled datasets, without a quad that has no blank node, are taken for isomorphic though
they are not. -/
theorem C79_needed : ∃ ds ds' : Q, ds.Nodup ∧ ds'.Nodup ∧ (∀ q ∈ ds ++ ds', ¬ Ground q) ∧
    ¬ Untangled ds ∧ ¬ Untangled ds' ∧ areIsomorphic ds ds' = .ok true ∧ ¬ Isomorphic ds ds' := by
  obtain ⟨ds, ds', hd, hd', hg, h, hn⟩ := C41_false.2
  have key : ¬ (Untangled ds ∨ Untangled ds') := by
    intro hu
    refine hn ((C79_decides hd hd' hu fun q hq => ⟨fun hm => ?_, fun hm => ?_⟩).1 h)
    · exact absurd hq (hg q (List.mem_append.2 (.inl hm)))
    · exact absurd hq (hg q (List.mem_append.2 (.inr hm)))
  exact ⟨ds, ds', hd, hd', hg, fun hu => key (.inl hu), fun hu => key (.inr hu), h, hn⟩

/-! ## Cases -/

/-- A list of two items, the second of them a blank node with a property and in a graph: its quads
that share blank nodes are not alike. -/
private def list : Q :=
  [⟨u 0, u 1, b 0, none⟩, ⟨b 0, u 2, u 7, none⟩, ⟨b 0, u 3, b 1, none⟩, ⟨b 1, u 2, b 2, none⟩,
    ⟨b 1, u 3, u 4, none⟩, ⟨b 2, u 5, u 6, some (u 8)⟩]

/-- The same list with other names and in another order. -/
private def list' : Q :=
  [⟨b 9, u 5, u 6, some (u 8)⟩, ⟨b 3, u 2, b 9, none⟩, ⟨b 3, u 3, u 4, none⟩,
    ⟨u 0, u 1, b 6, none⟩, ⟨b 6, u 3, b 3, none⟩, ⟨b 6, u 2, u 7, none⟩]

private theorem list_treeLike : TreeLike list := by
  refine ⟨id, ?_, ?_⟩
  · intro φ hφ hs
    have : φ = ⟨some 0, none, some 1, none⟩ ∨ φ = ⟨some 1, none, some 2, none⟩ := by
      obtain ⟨x, y, hne, hx, hy⟩ := hs
      simp [frames, list, Quad.map, skeleton, positions] at hφ
      rcases hφ with rfl | rfl | rfl | rfl | rfl | rfl <;> simp [positions] at hx hy ⊢ <;> omega
    rcases this with rfl | rfl
    · exact ⟨1, by simp [positions], fun c hc hne => by simp [positions] at hc ⊢; omega⟩
    · exact ⟨2, by simp [positions], fun c hc hne => by simp [positions] at hc ⊢; omega⟩
  · intro φ hφ ψ hψ hs ht c hc hc'
    have key : ∀ φ ∈ frames list, Several φ → Deepest id c φ →
        (φ = ⟨some 0, none, some 1, none⟩ ∧ c = 1) ∨
          (φ = ⟨some 1, none, some 2, none⟩ ∧ c = 2) := by
      intro φ hφ ⟨x, y, hne, hx, hy⟩ ⟨h1, h2⟩
      have h3 := h2 x hx
      have h4 := h2 y hy
      simp only [id] at h3 h4
      simp [frames, list, Quad.map, skeleton, positions] at hφ
      rcases hφ with rfl | rfl | rfl | rfl | rfl | rfl <;>
        simp [positions] at hx hy h1 ⊢ <;> omega
    rcases key φ hφ hs hc with ⟨rfl, rfl⟩ | ⟨rfl, rfl⟩ <;>
      rcases key ψ hψ ht hc' with ⟨rfl, h⟩ | ⟨rfl, h⟩ <;> first | rfl | omega

/-- It is untangled, and what is found is exact. -/
example : Untangled list ∧ ¬ AlikeWhenShared list ∧ list.Nodup ∧ list'.Nodup ∧
    findBijection list list' =
      .ok (some ⟨[(b 0, b 6), (b 1, b 3), (b 2, b 9)], [(b 3, b 1), (b 6, b 0), (b 9, b 2)]⟩) := by
  refine ⟨(C79_kinds list).1 list_treeLike, ?_, by decide, by decide, by decide⟩
  intro h
  have := h ⟨b 0, u 3, b 1, none⟩ (by simp [list]) ⟨b 1, u 2, b 2, none⟩ (by simp [list]) 0 1
    (by decide) (by simp [positions]) (by simp [positions]) ⟨1, by simp [positions], by simp [positions]⟩
  simp [Quad.map, erase] at this

/-- Nothing else is taken for it: here the items of the list are in the other order. -/
example : ¬ Isomorphic list
    [⟨u 0, u 1, b 0, none⟩, ⟨b 0, u 2, b 2, none⟩, ⟨b 0, u 3, b 1, none⟩, ⟨b 1, u 2, u 7, none⟩,
      ⟨b 1, u 3, u 4, none⟩, ⟨b 2, u 5, u 6, some (u 8)⟩] := by
  rw [← C79_decides (by decide) (by decide) (.inl ((C79_kinds list).1 list_treeLike))]
  · decide
  · intro q hq
    constructor <;> intro hm <;> exfalso <;>
      simp only [list, List.mem_cons, List.not_mem_nil, or_false] at hm <;>
      rcases hm with rfl | rfl | rfl | rfl | rfl | rfl <;>
      first
        | (refine hq 0 ?_; simp [positions]; done)
        | (refine hq 1 ?_; simp [positions]; done)
        | (refine hq 2 ?_; simp [positions]; done)

/-- The mapping found carries the first list to the second. -/
example : ∃ f, (∀ q, ¬ Ground q → (q ∈ list' ↔ ∃ q₀ ∈ list, q = q₀.map (relabel f))) ∧ f 0 = 6 := by
  obtain ⟨f, h1, h2, -⟩ := C79_exact (ds := list) (ds' := list') (by decide) (by decide)
    (.inl ((C79_kinds list).1 list_treeLike))
    (m := ⟨[(b 0, b 6), (b 1, b 3), (b 2, b 9)], [(b 3, b 1), (b 6, b 0), (b 9, b 2)]⟩) (by decide)
  exact ⟨f, h2, (h1 0 6 ⟨⟨0, rfl⟩, ⟨b 0, u 3, b 1, none⟩, by simp [list], by simp [positions]⟩).1 (by simp)⟩

end RdfTypes.Property
