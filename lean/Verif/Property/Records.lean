import Verif.Property.Resources
import Verif.Proof.Records

/-!
# C70: which resources are reported, and how many are counted

The containers do not always report the resources of their statements (C14), and do not
always count them right (C15). These theorems say what they report and count instead,
after every history.
-/

set_option linter.unusedSectionVars false

namespace RdfTypes.Property

open Container Spec

variable {R : Type} [Ord R] [Std.TransOrd R] [Std.LawfulEqOrd R] [DecidableEq R]

/-- Every history has events, so the theorems below apply to it. -/
theorem C70_every_history (rep : Bool) :
    (∀ (d : BTreeDataset R) A, DatasetHistory rep d A →
      ∃ l, PlainEvents (BTreeDataset.container rep R) d l) ∧
    (∀ (d : BTreeGraph R) A, GraphHistory rep d A →
      ∃ l, PlainEvents (BTreeGraph.container rep R) d l) ∧
    (∀ (d : IndexedBTreeDataset R) A, IndexedDatasetHistory rep d A → ∃ l, DatasetEvents rep d l) ∧
    ∀ (d : IndexedBTreeGraph R) A, IndexedGraphHistory rep d A → ∃ l, GraphEvents rep d l :=
  ⟨fun _ _ h => PlainEvents.of_reach h, fun _ _ h => PlainEvents.of_reach h,
    fun _ _ h => IndexedBTreeDataset.events_of_reach h,
    fun _ _ h => IndexedBTreeGraph.events_of_reach h⟩

/-- The records of a resource hold exactly its occurrences in the container. -/
theorem C70_occurrences (rep : Bool) :
    RecordsOccurrences (R := R) (PlainEvents (BTreeDataset.container rep R)) rep quadAt
      BTreeDataset.contains ∧
    RecordsOccurrences (R := R) (PlainEvents (BTreeGraph.container rep R)) rep tripleAt
      BTreeGraph.contains ∧
    RecordsOccurrences (R := R) (DatasetEvents rep) rep quadAt IndexedBTreeDataset.contains ∧
    RecordsOccurrences (R := R) (GraphEvents rep) rep tripleAt IndexedBTreeGraph.contains := by
  refine ⟨?_, ?_, ?_, ?_⟩ <;> intro d l h r
  · obtain ⟨w, k⟩ := BTreeDataset.events_follow h
    obtain ⟨h1, h2, h3⟩ := k.occurrences quadShape_laws w r
    refine ⟨h1, h2, fun x p => ?_⟩
    obtain ⟨b, hb, hbi⟩ := BTreeDataset.contains_spec w x
    rw [h3, hb, quadShape_compV, Except.ok.injEq, hbi]
    rfl
  · obtain ⟨w, k⟩ := BTreeGraph.events_follow h
    obtain ⟨h1, h2, h3⟩ := k.occurrences tripleShape_laws w r
    refine ⟨h1, h2, fun x p => ?_⟩
    obtain ⟨b, hb, hbi⟩ := BTreeGraph.contains_spec w x
    rw [h3, hb, tripleShape_compV, Except.ok.injEq, hbi]
    rfl
  · obtain ⟨w, k⟩ := IndexedBTreeDataset.events_follow h
    obtain ⟨h1, h2, h3⟩ := k.occurrences quadShape_laws w.inv r
    refine ⟨h1, h2, fun x p => ?_⟩
    obtain ⟨b, hb, hbi⟩ := IndexedBTreeDataset.contains_spec w x
    rw [h3, hb, quadShape_compV, Except.ok.injEq, hbi]
    rfl
  · obtain ⟨w, k⟩ := IndexedBTreeGraph.events_follow h
    obtain ⟨h1, h2, h3⟩ := k.occurrences tripleShape_laws w.inv r
    refine ⟨h1, h2, fun x p => ?_⟩
    obtain ⟨b, hb, hbi⟩ := IndexedBTreeGraph.contains_spec w x
    rw [h3, hb, tripleShape_compV, Except.ok.injEq, hbi]
    rfl

/-- `resources` and `contains_resource` report exactly the resources with a current
record. -/
theorem C70_lists (rep : Bool) :
    ListsRecorded (R := R) (PlainEvents (BTreeDataset.container rep R)) rep quadAt
      BTreeDataset.resourceList BTreeDataset.containsResource ∧
    ListsRecorded (R := R) (PlainEvents (BTreeGraph.container rep R)) rep tripleAt
      BTreeGraph.resourceList BTreeGraph.containsResource ∧
    ListsRecorded (R := R) (DatasetEvents rep) rep quadAt
      IndexedBTreeDataset.resourceList IndexedBTreeDataset.containsResource ∧
    ListsRecorded (R := R) (GraphEvents rep) rep tripleAt
      IndexedBTreeGraph.resourceList IndexedBTreeGraph.containsResource := by
  refine ⟨?_, ?_, ?_, ?_⟩ <;> intro d l h
  · obtain ⟨w, k⟩ := BTreeDataset.events_follow h
    obtain ⟨rs, h1, h2, h3⟩ := k.lists w.table
    refine ⟨rs, h1, h2, fun r => ⟨(h3 r).1, ?_⟩⟩
    obtain ⟨o, ho, e⟩ := (h3 r).2
    simp [BTreeDataset.containsResource, BTreeDataset.indexOfResource, ho, e, bind, Except.bind, pure,
      Except.pure]
  · obtain ⟨w, k⟩ := BTreeGraph.events_follow h
    obtain ⟨rs, h1, h2, h3⟩ := k.lists w.table
    refine ⟨rs, h1, h2, fun r => ⟨(h3 r).1, ?_⟩⟩
    obtain ⟨o, ho, e⟩ := (h3 r).2
    simp [BTreeGraph.containsResource, BTreeGraph.indexOfResource, ho, e, bind, Except.bind, pure,
      Except.pure]
  · obtain ⟨w, k⟩ := IndexedBTreeDataset.events_follow h
    obtain ⟨rs, h1, h2, h3⟩ := k.lists w.inv.table
    refine ⟨rs, h1, h2, fun r => ⟨(h3 r).1, ?_⟩⟩
    obtain ⟨o, ho, e⟩ := (h3 r).2
    simp [IndexedBTreeDataset.containsResource, IndexedBTreeDataset.indexOfResource, ho, e, bind,
      Except.bind, pure, Except.pure]
  · obtain ⟨w, k⟩ := IndexedBTreeGraph.events_follow h
    obtain ⟨rs, h1, h2, h3⟩ := k.lists w.inv.table
    refine ⟨rs, h1, h2, fun r => ⟨(h3 r).1, ?_⟩⟩
    obtain ⟨o, ho, e⟩ := (h3 r).2
    simp [IndexedBTreeGraph.containsResource, IndexedBTreeGraph.indexOfResource, ho, e, bind,
      Except.bind, pure, Except.pure]

/-- `resource_count` is the number of records. -/
theorem C70_counts (rep : Bool) :
    CountsRecords (R := R) (DatasetEvents rep) rep quadAt IndexedBTreeDataset.resourceCount ∧
    CountsRecords (R := R) (GraphEvents rep) rep tripleAt IndexedBTreeGraph.resourceCount :=
  ⟨fun _ _ h rs hn hr => (IndexedBTreeDataset.events_follow h).2.counts rs hn hr,
    fun _ _ h rs hn hr => (IndexedBTreeGraph.events_follow h).2.counts rs hn hr⟩

/-! ## Cases -/

/-- The calls of `forgetOps`, latest first. -/
def forgetEvents : List (Event (Quad Nat)) :=
  [.taken [⟨1, 1, 2, none⟩], .added ⟨1, 3, 4, none⟩, .added ⟨1, 1, 2, none⟩]

/-- After `forgetOps`, the remaining occurrence of resource 1 is in a record that is not
current, so resource 1 is not reported, but it counts. -/
example (rep : Bool) : ∃ d, DatasetEvents rep d forgetEvents ∧
    recordsOf rep quadAt 1 forgetEvents = ⟨false, [[(⟨1, 3, 4, none⟩, .subj)]]⟩ ∧
    d.containsResource 1 = .ok false ∧ d.resourceList = .ok [3, 4] ∧ d.resourceCount = 3 := by
  obtain ⟨d1, b1, e1, -⟩ := IndexedBTreeDataset.insert_spec rep
    (IndexedBTreeDataset.wf_new (R := Nat)) ⟨1, 1, 2, none⟩
  have h1 := DatasetEvents.insert .new e1
  obtain ⟨d2, b2, e2, -⟩ := IndexedBTreeDataset.insert_spec rep
    (IndexedBTreeDataset.events_follow h1).1 ⟨1, 3, 4, none⟩
  have h2 := DatasetEvents.insert h1 e2
  obtain ⟨d3, b3, e3, -⟩ := IndexedBTreeDataset.remove_spec
    (IndexedBTreeDataset.events_follow h2).1 ⟨1, 1, 2, none⟩
  have h3 : DatasetEvents rep d3 forgetEvents := .remove h2 e3
  obtain ⟨rs, -, -, hm⟩ := (C70_lists rep).2.2.1 d3 _ h3
  have run : (IndexedBTreeDataset.container rep Nat).run IndexedBTreeDataset.new forgetOps =
      .ok d3 := by
    simp only [run, step, forgetOps, IndexedBTreeDataset.container, bind, Except.bind, pure,
      Except.pure, e1, e2, e3]
  have hl : ((IndexedBTreeDataset.container rep Nat).run IndexedBTreeDataset.new forgetOps).bind
      (·.resourceList) = .ok [3, 4] := by cases rep <;> decide
  have hn : ((IndexedBTreeDataset.container rep Nat).run IndexedBTreeDataset.new forgetOps).map
      (·.resourceCount) = .ok 3 := by cases rep <;> decide
  rw [run] at hl hn
  refine ⟨d3, h3, by cases rep <;> decide, ?_, hl, Except.ok.inj hn⟩
  rw [(hm 1).2]
  cases rep <;> decide

/-- After the calls of `Case.indexedDataset` the records of resource 2 hold it as predicate of
`⟨5, 2, 3, some 9⟩`, and not as object of it. -/
example : ∃ l, DatasetEvents true Case.indexedDataset l ∧
    (⟨5, 2, 3, some 9⟩, .pred) ∈ (recordsOf true quadAt 2 l).groups.flatten ∧
    (⟨5, 2, 3, some 9⟩, .obj) ∉ (recordsOf true quadAt 2 l).groups.flatten := by
  obtain ⟨l, h⟩ := (C70_every_history true).2.2.1 _ _ (Case.indexedDataset_reached Case.any_quads)
  have hm := ((C70_occurrences true).2.2.1 _ l h 2).2.2
  refine ⟨l, h, (hm _ _).2 ⟨by decide +kernel, rfl⟩, fun h => ?_⟩
  exact absurd ((hm _ _).1 h).2 (by decide)

end RdfTypes.Property
