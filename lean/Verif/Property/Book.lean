import Verif.Property.Marks
import Verif.Property.Listings
import Verif.Spec.Book
import Verif.Proof.BookClaims

/-!
# C92: the lists of terms, in order, after every history

C72 says how often each resource is listed, and of `named_graphs` only as long as no place that
is still marked has been emptied. Here the records are kept in places (`Spec/Book`), which
tells the lists in order after every history, also when such a place has been used again.
-/

set_option linter.unusedSectionVars false

namespace RdfTypes.Property

open Container Spec

variable {R : Type} [Ord R] [Std.TransOrd R] [Std.LawfulEqOrd R] [DecidableEq R]

/-- Every history has a book, so the theorems below apply to it. -/
theorem C92_every_history (rep : Bool) :
    (∀ (d : BTreeDataset R) A, DatasetHistory rep d A →
      ∃ b, PlainBook (BTreeDataset.container rep R) rep quadAt d b) ∧
    (∀ (d : BTreeGraph R) A, GraphHistory rep d A →
      ∃ b, PlainBook (BTreeGraph.container rep R) rep tripleAt d b) ∧
    (∀ (d : IndexedBTreeDataset R) A, IndexedDatasetHistory rep d A → ∃ b, DatasetBook rep d b) ∧
    ∀ (d : IndexedBTreeGraph R) A, IndexedGraphHistory rep d A → ∃ b, GraphBook rep d b :=
  ⟨fun _ _ h => PlainBook.of_reach h, fun _ _ h => PlainBook.of_reach h,
    fun _ _ h => IndexedBTreeDataset.book_exists h, fun _ _ h => IndexedBTreeGraph.book_exists h⟩

/-- The book tells which statements and resources the container has, and how many records. -/
theorem C92_contents (rep : Bool) :
    (∀ (d : BTreeDataset R) b, PlainBook (BTreeDataset.container rep R) rep quadAt d b →
      AgreesWithBook b d.contains d.containsResource d.resources.len) ∧
    (∀ (d : BTreeGraph R) b, PlainBook (BTreeGraph.container rep R) rep tripleAt d b →
      AgreesWithBook b d.contains d.containsResource d.resources.len) ∧
    (∀ (d : IndexedBTreeDataset R) b, DatasetBook rep d b →
      AgreesWithBook b d.contains d.containsResource d.resourceCount) ∧
    ∀ (d : IndexedBTreeGraph R) b, GraphBook rep d b →
      AgreesWithBook b d.contains d.containsResource d.resourceCount :=
  ⟨fun _ _ h => BTreeDataset.book_agrees h, fun _ _ h => BTreeGraph.book_agrees h,
    fun _ _ h => IndexedBTreeDataset.book_agrees h, fun _ _ h => IndexedBTreeGraph.book_agrees h⟩

/-- `subjects`, `predicates` and `objects` of a dataset go through the places marked at that
position, none of which is empty. -/
theorem C92_dataset_lists (rep : Bool) {d : IndexedBTreeDataset R} {b : Book R (Quad R)}
    (h : DatasetBook rep d b) :
    ReadsPlaces (b.list .subj) d.subjectList d.subjectCount ∧ none ∉ b.list .subj ∧
    ReadsPlaces (b.list .pred) d.predicateList d.predicateCount ∧ none ∉ b.list .pred ∧
    ReadsPlaces (b.list .obj) d.objectList d.objectCount ∧ none ∉ b.list .obj :=
  ⟨IndexedBTreeDataset.book_reads h .subj, IndexedBTreeDataset.book_full h (by simp),
    IndexedBTreeDataset.book_reads h .pred, IndexedBTreeDataset.book_full h (by simp),
    IndexedBTreeDataset.book_reads h .obj, IndexedBTreeDataset.book_full h (by simp)⟩

/-- The same for a graph. -/
theorem C92_graph_lists (rep : Bool) {d : IndexedBTreeGraph R} {b : Book R (Triple R)}
    (h : GraphBook rep d b) :
    ReadsPlaces (b.list .subj) d.subjectList d.subjectCount ∧ none ∉ b.list .subj ∧
    ReadsPlaces (b.list .pred) d.predicateList d.predicateCount ∧ none ∉ b.list .pred ∧
    ReadsPlaces (b.list .obj) d.objectList d.objectCount ∧ none ∉ b.list .obj :=
  ⟨IndexedBTreeGraph.book_reads h (p := .subj) (by simp), IndexedBTreeGraph.book_full h (by simp),
    IndexedBTreeGraph.book_reads h (p := .pred) (by simp), IndexedBTreeGraph.book_full h (by simp),
    IndexedBTreeGraph.book_reads h (p := .obj) (by simp), IndexedBTreeGraph.book_full h (by simp)⟩

/-- `named_graphs` goes through the places marked as those of graph names, and panics exactly if
one of them is empty. -/
theorem C92_names (rep : Bool) {d : IndexedBTreeDataset R} {b : Book R (Quad R)}
    (h : DatasetBook rep d b) :
    ReadsPlaces (b.list .graph) d.namedGraphList d.namedGraphCount :=
  IndexedBTreeDataset.book_reads h .graph

/-- `remove_graph` returns a graph exactly if the place of the current record of the graph name is
marked as that of a graph name, with exactly the quads in this record that have the graph name. -/
theorem C92_remove_graph (rep : Bool) {d : IndexedBTreeDataset R} {b : Book R (Quad R)}
    (h : DatasetBook rep d b) : TakesMarked rep d b :=
  IndexedBTreeDataset.book_takes h

/-! ## Cases -/

/-- The book after a list of calls. -/
def bookOf (rep : Bool) : List (Op (Quad Nat)) → Book Nat (Quad Nat) → Book Nat (Quad Nat)
  | [], b => b
  | .insert x :: ops, b => bookOf rep ops (b.enter rep quadAt x)
  | .remove x :: ops, b => bookOf rep ops (b.leave x)
  | .extend _ :: ops, b => bookOf rep ops b

theorem run_book (rep : Bool) {ops : List (Op (Quad Nat))} :
    ∀ {d : IndexedBTreeDataset Nat} {b : Book Nat (Quad Nat)},
    DatasetBook rep d b → plainOps ops = true →
    ∃ d', (IndexedBTreeDataset.container rep Nat).run d ops = .ok d' ∧
      DatasetBook rep d' (bookOf rep ops b) := by
  induction ops with
  | nil => exact fun h _ => ⟨_, rfl, h⟩
  | cons op ops ih =>
    intro d b h hp
    have hw := (IndexedBTreeDataset.book_books h).wf
    cases op with
    | insert x =>
      obtain ⟨d1, o, e, -⟩ := IndexedBTreeDataset.insert_spec rep hw x
      obtain ⟨d2, e2, h2⟩ := ih (.insert h e) hp
      refine ⟨d2, ?_, h2⟩
      simp only [run, step, IndexedBTreeDataset.container, bind, Except.bind, pure, Except.pure] at e2 ⊢
      rw [e]
      exact e2
    | remove x =>
      obtain ⟨d1, o, e, -⟩ := IndexedBTreeDataset.remove_spec hw x
      obtain ⟨d2, e2, h2⟩ := ih (.remove h e) hp
      refine ⟨d2, ?_, h2⟩
      simp only [run, step, IndexedBTreeDataset.container, bind, Except.bind, pure, Except.pure] at e2 ⊢
      rw [e]
      exact e2
    | extend x => cases hp

/-- In `reusedOps` the place marked for graph name 4 is emptied, and then used for 9. -/
example : ∃ d d', DatasetBook true d
      (bookOf true (staleOps ++ [.remove ⟨4, 5, 6, none⟩]) .empty) ∧
    (bookOf true (staleOps ++ [.remove ⟨4, 5, 6, none⟩]) .empty).list .graph = [none] ∧
    d.namedGraphList = .error .invalidKey ∧
    DatasetBook true d' (bookOf true reusedOps .empty) ∧
    (bookOf true reusedOps .empty).list .graph = [some 9] ∧ d'.namedGraphList = .ok [9] := by
  obtain ⟨d, -, h⟩ := run_book true (.new (R := Nat))
    (ops := staleOps ++ [.remove ⟨4, 5, 6, none⟩]) rfl
  obtain ⟨d', -, h'⟩ := run_book true (.new (R := Nat)) (ops := reusedOps) rfl
  refine ⟨d, d', h, by decide, (C92_names true h).2.1 (by decide), h', by decide,
    (C92_names true h').2.2 [9] (by decide)⟩

/-- There `remove_graph(Some(9))` returns an empty graph. -/
example : ∃ d d' gr, DatasetBook true d (bookOf true reusedOps .empty) ∧
    d.removeGraph true (some 9) = .ok (d', some gr) ∧ ∀ t, gr.contains t = .ok false := by
  obtain ⟨d, -, h⟩ := run_book true (.new (R := Nat)) (ops := reusedOps) rfl
  obtain ⟨d', out, e, h1, h2, -⟩ := C92_remove_graph true h 9
  cases out with
  | none => exact absurd (h1.2 ⟨3, by decide, by decide⟩) (by simp)
  | some gr =>
    refine ⟨d, d', gr, h, e, fun t => ?_⟩
    obtain ⟨o, eo, ho⟩ := h2 gr rfl t
    cases o with
    | false => exact eo
    | true =>
      obtain ⟨k, r, l, hk, hl, hm⟩ := ho.1 rfl
      have hk' : (bookOf true reusedOps .empty).current 9 = some 3 := by decide
      rw [hk'] at hk
      cases hk
      have hl' : (bookOf true reusedOps .empty).at_ 3 = some (9, [(⟨7, 8, 9, none⟩, .obj)]) := by
        decide
      rw [hl'] at hl
      cases hl
      simp at hm

/-- Terms are listed in the order of the places, and a term that has two records twice. -/
example : ∃ d, DatasetBook true d (bookOf true
      [.insert ⟨5, 2, 3, none⟩, .insert ⟨1, 1, 2, none⟩, .insert ⟨1, 3, 4, none⟩,
        .remove ⟨5, 2, 3, none⟩, .insert ⟨0, 3, 4, some 7⟩] .empty) ∧
    d.subjectList = .ok [0, 1, 1] ∧ d.namedGraphList = .ok [7] := by
  obtain ⟨d, -, h⟩ := run_book true (.new (R := Nat)) (ops :=
      [.insert ⟨5, 2, 3, none⟩, .insert ⟨1, 1, 2, none⟩, .insert ⟨1, 3, 4, none⟩,
        .remove ⟨5, 2, 3, none⟩, .insert ⟨0, 3, 4, some 7⟩]) rfl
  exact ⟨d, h, (C92_dataset_lists true h).1.2.2 _ (by decide), (C92_names true h).2.2 _ (by decide)⟩

/-- The books of `Case.indexedGraph` and `Case.indexedDataset`. -/
example : (∃ b, GraphBook true Case.indexedGraph b ∧ none ∉ b.list .obj) ∧
    ∃ b, DatasetBook true Case.indexedDataset b ∧ TakesMarked true Case.indexedDataset b := by
  obtain ⟨b, h⟩ := (C92_every_history true).2.2.2 _ _ (Case.indexedGraph_reached Case.any_triples)
  obtain ⟨b', h'⟩ := (C92_every_history true).2.2.1 _ _
    (Case.indexedDataset_reached Case.any_quads)
  exact ⟨⟨b, h, (C92_graph_lists true h).2.2.2.2.2⟩, b', h', C92_remove_graph true h'⟩

end RdfTypes.Property
