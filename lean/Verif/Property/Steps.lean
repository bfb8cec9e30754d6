import Verif.Property.Book
import Verif.Property.Sets
import Verif.Property.Resources
import Verif.Spec.Steps
import Verif.Proof.Steps

/-!
# C93: the iterators of the containers, call by call

Elsewhere iterations are run to the end. Here `next` is called any number of times, also after the
end, and after a panic that is caught.
-/

set_option linter.unusedSectionVars false

namespace RdfTypes.Property

open Container Spec

variable {R : Type} [Ord R] [Std.TransOrd R] [Std.LawfulEqOrd R] [DecidableEq R]

/-- The borrowing and the consuming iterator go over the same list, the statements held in
ascending order. -/
theorem C93_statements (rep : Bool) :
    (∀ (d : BTreeDataset R) A, DatasetHistory rep d A → ∃ xs, Lists xs A ∧
      GoesOver (countOps R).nextQuad d.steps xs ∧ GoesOver (countOps R).nextOwnedQuad d.steps xs) ∧
    (∀ (d : BTreeGraph R) A, GraphHistory rep d A → ∃ xs, Lists xs A ∧
      GoesOver (countOps R).nextTriple d.steps xs ∧
      GoesOver (countOps R).nextOwnedTriple d.steps xs) ∧
    (∀ (d : IndexedBTreeDataset R) A, IndexedDatasetHistory rep d A → ∃ xs, Lists xs A ∧
      GoesOver (indexOps R).nextQuad d.steps xs ∧ GoesOver (indexOps R).nextOwnedQuad d.steps xs) ∧
    ∀ (d : IndexedBTreeGraph R) A, IndexedGraphHistory rep d A → ∃ xs, Lists xs A ∧
      GoesOver (indexOps R).nextTriple d.steps xs ∧
      GoesOver (indexOps R).nextOwnedTriple d.steps xs := by
  obtain ⟨i1, i2, i3, i4⟩ := C06_iteration (R := R) rep
  obtain ⟨o1, o2, o3, o4⟩ := C12_into_iter (R := R) rep
  refine ⟨fun d A h => ?_, fun d A h => ?_, fun d A h => ?_, fun d A h => ?_⟩
  · obtain ⟨xs, e, hl⟩ := i1 d A h
    obtain ⟨ys, e', eo⟩ := o1 d A h
    cases e.symm.trans e'
    exact ⟨xs, hl, steps_quads e, steps_owned_quads eo⟩
  · obtain ⟨xs, e, hl⟩ := i2 d A h
    obtain ⟨ys, e', eo⟩ := o2 d A h
    cases e.symm.trans e'
    exact ⟨xs, hl, steps_triples e, steps_owned_triples eo⟩
  · obtain ⟨xs, e, hl⟩ := i3 d A h
    obtain ⟨ys, e', eo⟩ := o3 d A h
    cases e.symm.trans e'
    exact ⟨xs, hl, steps_quads e, steps_owned_quads eo⟩
  · obtain ⟨xs, e, hl⟩ := i4 d A h
    obtain ⟨ys, e', eo⟩ := o4 d A h
    cases e.symm.trans e'
    exact ⟨xs, hl, steps_triples e, steps_owned_triples eo⟩

/-- The iterator over the resources goes over those that `contains_resource` knows, in ascending
order. -/
theorem C93_resources (rep : Bool) :
    (∀ (d : BTreeDataset R) A, DatasetHistory rep d A → ∃ rs,
      rs.Pairwise (fun a b => compare a b = .lt) ∧
      (∀ r, d.containsResource r = .ok (decide (r ∈ rs))) ∧
      GoesOver (countOps R).nextResource d.resourceSteps rs) ∧
    (∀ (d : BTreeGraph R) A, GraphHistory rep d A → ∃ rs,
      rs.Pairwise (fun a b => compare a b = .lt) ∧
      (∀ r, d.containsResource r = .ok (decide (r ∈ rs))) ∧
      GoesOver (countOps R).nextResource d.resourceSteps rs) ∧
    (∀ (d : IndexedBTreeDataset R) A, IndexedDatasetHistory rep d A → ∃ rs,
      rs.Pairwise (fun a b => compare a b = .lt) ∧
      (∀ r, d.containsResource r = .ok (decide (r ∈ rs))) ∧
      GoesOver (indexOps R).nextResource d.resourceSteps rs) ∧
    ∀ (d : IndexedBTreeGraph R) A, IndexedGraphHistory rep d A → ∃ rs,
      rs.Pairwise (fun a b => compare a b = .lt) ∧
      (∀ r, d.containsResource r = .ok (decide (r ∈ rs))) ∧
      GoesOver (indexOps R).nextResource d.resourceSteps rs := by
  obtain ⟨h1, h2, h3, h4⟩ := C13_resources (R := R) rep
  have key : ∀ {x : R → Res Bool} {rs : List R},
      (∀ r, ∃ b, x r = .ok b ∧ (b = true ↔ r ∈ rs)) → ∀ r, x r = .ok (decide (r ∈ rs)) := by
    intro x rs h r
    obtain ⟨b, e, hb⟩ := h r
    rw [e]
    cases b
    · simp only [Bool.false_eq_true, false_iff] at hb
      simp [hb]
    · simp [hb.1 rfl]
  refine ⟨fun d A h => ?_, fun d A h => ?_, fun d A h => ?_, fun d A h => ?_⟩
  · obtain ⟨rs, e, hp, -, hc⟩ := h1 d A h
    exact ⟨rs, hp, key hc, steps_resources e⟩
  · obtain ⟨rs, e, hp, -, hc⟩ := h2 d A h
    exact ⟨rs, hp, key hc, steps_resources e⟩
  · obtain ⟨rs, e, hp, -, hc⟩ := h3 d A h
    exact ⟨rs, hp, key hc, steps_resources e⟩
  · obtain ⟨rs, e, hp, -, hc⟩ := h4 d A h
    exact ⟨rs, hp, key hc, steps_resources e⟩

/-- The iterators over the terms of an indexed dataset go through the marked places (C92). That
over the graph names panics at each empty one, and goes on behind it. -/
theorem C93_dataset_lists (rep : Bool) {d : IndexedBTreeDataset R} {b : Book R (Quad R)}
    (h : DatasetBook rep d b) :
    GoesThrough (indexOps R).nextResource d.subjectSteps (b.list .subj) ∧
    GoesThrough (indexOps R).nextResource d.predicateSteps (b.list .pred) ∧
    GoesThrough (indexOps R).nextResource d.objectSteps (b.list .obj) ∧
    GoesThrough (indexOps R).nextResource d.namedGraphSteps (b.list .graph) := by
  rw [IndexedBTreeDataset.book_list h, IndexedBTreeDataset.book_list h,
    IndexedBTreeDataset.book_list h, IndexedBTreeDataset.book_list h]
  exact ⟨steps_places, steps_places, steps_places, steps_places⟩

/-- The same for an indexed graph. -/
theorem C93_graph_lists (rep : Bool) {d : IndexedBTreeGraph R} {b : Book R (Triple R)}
    (h : GraphBook rep d b) :
    GoesThrough (indexOps R).nextResource d.subjectSteps (b.list .subj) ∧
    GoesThrough (indexOps R).nextResource d.predicateSteps (b.list .pred) ∧
    GoesThrough (indexOps R).nextResource d.objectSteps (b.list .obj) := by
  rw [IndexedBTreeGraph.book_list h (p := .subj) (by simp),
    IndexedBTreeGraph.book_list h (p := .pred) (by simp),
    IndexedBTreeGraph.book_list h (p := .obj) (by simp)]
  exact ⟨steps_places, steps_places, steps_places⟩

/-- The iterators around iterators: a function of each item, and an iterator that may be missing. -/
theorem C93_around {I X Y : Type} (f : X → Y) {next : StepOf I X} :
    (∀ {it l}, GoesThrough next it l → GoesThrough (mapStep f next) it (l.map (Option.map f)) ∧
      GoesThrough (optionStep next) (some it) l) ∧
    GoesThrough (optionStep next) none [] :=
  ⟨fun h => ⟨h.map f, h.option⟩, .no_option⟩

/-! ## Cases -/

/-- The record of graph name 4 goes after its mark should have, and 8 gets a later place. -/
def passedOps : List (Op (Quad Nat)) :=
  [.insert ⟨9, 9, 9, none⟩, .insert ⟨1, 2, 3, some 4⟩, .insert ⟨4, 5, 6, none⟩,
    .remove ⟨1, 2, 3, some 4⟩, .remove ⟨4, 5, 6, none⟩, .insert ⟨9, 9, 9, some 8⟩]

/-- `named_graphs` with a place that is empty: the first call panics, the second gives the next
name, and then it has ended. -/
example : ∃ d, DatasetBook true d
      (bookOf true passedOps .empty) ∧
    ((indexOps Nat).nextResource d.namedGraphSteps).1 = .error .invalidKey ∧
    ((indexOps Nat).nextResource
      (afterCalls (indexOps Nat).nextResource 1 d.namedGraphSteps)).1 = .ok (some 8) ∧
    ((indexOps Nat).nextResource
      (afterCalls (indexOps Nat).nextResource 5 d.namedGraphSteps)).1 = .ok none := by
  obtain ⟨d, -, h⟩ := run_book true (.new (R := Nat))
    (ops := passedOps) rfl
  have hs := (C93_dataset_lists true h).2.2.2
  exact ⟨d, h, hs.2.1 0 (by decide), hs.1 1 8 (by decide), hs.2.2 5 (by decide)⟩

/-- A dataset and a graph that are not empty, read and consumed. -/
example : (∃ xs, Lists xs (fun x => x ∈ xs) ∧ xs ≠ [] ∧
      GoesOver (indexOps Nat).nextOwnedQuad Case.indexedDataset.steps xs) ∧
    ∃ rs, GoesOver (indexOps Nat).nextResource Case.indexedGraph.resourceSteps rs ∧
      ∃ b, GraphBook true Case.indexedGraph b := by
  obtain ⟨xs, hl, -, ho⟩ := (C93_statements true).2.2.1 _ _
    (Case.indexedDataset_reached Case.any_quads)
  obtain ⟨rs, -, -, hr⟩ := (C93_resources true).2.2.2 _ _
    (Case.indexedGraph_reached Case.any_triples)
  refine ⟨⟨xs, ⟨hl.1, fun x => Iff.rfl⟩, ?_, ho⟩, rs, hr,
    (C92_every_history true).2.2.2 _ _ (Case.indexedGraph_reached Case.any_triples)⟩
  rintro rfl
  have := ho.2.2 0 (Nat.le_refl _)
  revert this
  decide

end RdfTypes.Property
