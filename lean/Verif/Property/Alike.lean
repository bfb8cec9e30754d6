import Verif.Proof.Alike
import Verif.Spec.Alike

/-!
# C90 — Terms that the order does not tell apart
-/

namespace RdfTypes.Property

variable {R Q : Type} [Ord R] [Ord Q]

/-- Words that are compared without regard to case. -/
structure Cased where
  word : Nat
  upper : Bool
  deriving DecidableEq, Repr

instance : Ord Cased := ⟨fun a b => compare a.word b.word⟩

instance : Std.TransOrd Cased where
  eq_swap := Std.OrientedCmp.eq_swap (cmp := (compare : Nat → Nat → Ordering))
  isLE_trans := Std.TransCmp.isLE_trans (cmp := (compare : Nat → Nat → Ordering))

/-! ## Renaming -/

/-- A session on a `BTreeDataset` does the same with renamed terms: the same calls succeed, with the
same answers, renamed. -/
theorem C90_renaming_dataset (rep : Bool) (π : R → Q) (h : Spec.KeepsOrder π)
    (l : List (Spec.Call (Quad R) R)) :
    Spec.session (Spec.answerDataset rep) BTreeDataset.new
        (l.map (Spec.Call.map (fun q => q.map π) π)) =
      Spec.renamed (fun q => q.map π) π
        (Spec.session (Spec.answerDataset rep) BTreeDataset.new l) :=
  Proof.Related.dataset_renaming h rep l

/-- The same of a `BTreeGraph`. -/
theorem C90_renaming_graph (rep : Bool) (π : R → Q) (h : Spec.KeepsOrder π)
    (l : List (Spec.Call (Triple R) R)) :
    Spec.session (Spec.answerGraph rep) BTreeGraph.new
        (l.map (Spec.Call.map (fun t => t.map π) π)) =
      Spec.renamed (fun t => t.map π) π
        (Spec.session (Spec.answerGraph rep) BTreeGraph.new l) :=
  Proof.Related.graph_renaming h rep l

/-- The same of an `IndexedBTreeDataset`, its pattern matching, extraction and removal of graphs
included. -/
theorem C90_renaming_indexed (rep : Bool) (π : R → Q) (h : Spec.KeepsOrder π)
    (l : List (Spec.IndexedCall R)) :
    Spec.session (Spec.answerIndexed rep) IndexedBTreeDataset.new
        (l.map (Spec.IndexedCall.map π)) =
      Spec.renamed (fun q => q.map π) π
        (Spec.session (Spec.answerIndexed rep) IndexedBTreeDataset.new l) :=
  Proof.Related.indexed_renaming h rep l

/-- The same of an `IndexedBTreeGraph`. -/
theorem C90_renaming_indexed_graph (rep : Bool) (π : R → Q) (h : Spec.KeepsOrder π)
    (l : List (Spec.IndexedGraphCall R)) :
    Spec.session (Spec.answerIndexedGraph rep) IndexedBTreeGraph.new
        (l.map (Spec.IndexedGraphCall.map π)) =
      Spec.renamed (fun t => t.map π) π
        (Spec.session (Spec.answerIndexedGraph rep) IndexedBTreeGraph.new l) :=
  Proof.Related.indexedGraph_renaming h rep l

/-- The same of a dataset that is indexed in the middle of the session. -/
theorem C90_renaming_conversion (rep : Bool) (π : R → Q) (h : Spec.KeepsOrder π)
    (l : List (Spec.Call (Quad R) R)) (k : List (Spec.IndexedCall R)) :
    Spec.sessionThrough (Spec.answerDataset rep) IndexedBTreeDataset.fromNonIndexed
        (Spec.answerIndexed rep) BTreeDataset.new (l.map (Spec.Call.map (fun q => q.map π) π))
        (k.map (Spec.IndexedCall.map π)) =
      Spec.renamed (fun q => q.map π) π
        (Spec.sessionThrough (Spec.answerDataset rep) IndexedBTreeDataset.fromNonIndexed
          (Spec.answerIndexed rep) BTreeDataset.new l k) :=
  Proof.Related.conversion_renaming h rep l k

/-- The same of a graph that is indexed in the middle of the session. -/
theorem C90_renaming_graph_conversion (rep : Bool) (π : R → Q) (h : Spec.KeepsOrder π)
    (l : List (Spec.Call (Triple R) R)) (k : List (Spec.IndexedGraphCall R)) :
    Spec.sessionThrough (Spec.answerGraph rep) IndexedBTreeGraph.fromNonIndexed
        (Spec.answerIndexedGraph rep) BTreeGraph.new (l.map (Spec.Call.map (fun t => t.map π) π))
        (k.map (Spec.IndexedGraphCall.map π)) =
      Spec.renamed (fun t => t.map π) π
        (Spec.sessionThrough (Spec.answerGraph rep) IndexedBTreeGraph.fromNonIndexed
          (Spec.answerIndexedGraph rep) BTreeGraph.new l k) :=
  Proof.Related.graphConversion_renaming h rep l k

example : Spec.KeepsOrder (fun c : Cased => c.word) := fun _ _ => rfl

/-- The session goes far enough to return statements. -/
example : Spec.session (Spec.answerIndexed true) (IndexedBTreeDataset.new : IndexedBTreeDataset Cased)
    [.common (.insert ⟨⟨1, true⟩, ⟨2, true⟩, ⟨3, true⟩, some ⟨4, true⟩⟩),
     .common (.insert ⟨⟨1, false⟩, ⟨2, false⟩, ⟨5, false⟩, none⟩),
     .matching 2 (.anySubject (.givenPredicate ⟨2, false⟩ (.anyObject .anyGraph))),
     .removeGraph (some ⟨4, false⟩)] =
    [.ok (.flag true), .ok (.flag true),
     .ok (.statements [⟨⟨1, true⟩, ⟨2, true⟩, ⟨3, true⟩, some ⟨4, true⟩⟩,
       ⟨⟨1, true⟩, ⟨2, true⟩, ⟨5, false⟩, none⟩]),
     .ok (.graph (some [⟨⟨1, true⟩, ⟨2, true⟩, ⟨3, true⟩⟩]))] := by
  rfl

/-- A renaming that does not keep the order changes the answers. -/
example : ¬ Spec.session (Spec.answerDataset true) BTreeDataset.new
      ([.insert ⟨1, 1, 1, none⟩, .insert ⟨2, 2, 2, none⟩, .len].map
        (Spec.Call.map (fun q : Quad Nat => q.map (fun _ => 0)) (fun _ : Nat => 0))) =
    Spec.renamed (fun q : Quad Nat => q.map (fun _ => 0)) (fun _ => 0)
      (Spec.session (Spec.answerDataset true) BTreeDataset.new
        [.insert ⟨1, 1, 1, none⟩, .insert ⟨2, 2, 2, none⟩, .len]) := by
  decide

/-! ## Classes -/

/-- When the order of terms is a total preorder, some renaming merges exactly the terms that it does
not tell apart. With the theorems above, what holds of a container whose terms are told apart by
their order therefore holds of every container, up to spelling. -/
theorem C90_classes (R : Type) [Ord R] [Std.TransOrd R] :
    ∃ (Q : Type) (_ : Ord Q) (π : R → Q), Std.TransOrd Q ∧ Std.LawfulEqOrd Q ∧
      Spec.KeepsOrder π ∧ (∀ q, ∃ r, π r = q) ∧ ∀ a b, π a = π b ↔ Spec.Like a b :=
  ⟨Proof.Related.Class R, inferInstance, Proof.Related.classOf R, inferInstance, inferInstance,
    Proof.Related.classOf_keeps R, Proof.Related.classOf_surjective R,
    Proof.Related.classOf_eq R⟩

example : Spec.Like (⟨1, true⟩ : Cased) ⟨1, false⟩ ∧ (⟨1, true⟩ : Cased) ≠ ⟨1, false⟩ ∧
    ¬ Spec.Like (⟨1, true⟩ : Cased) ⟨2, true⟩ := by
  refine ⟨rfl, by decide, fun h => ?_⟩
  cases h

/-! ## Sets -/

/-- The four containers hold sets up to spelling, whether or not like terms are identical. -/
theorem C90_sets [Std.TransOrd R] (rep : Bool) :
    Spec.IsSetUpTo (BTreeDataset.container rep R) Spec.AlikeQuad ∧
    Spec.IsSetUpTo (IndexedBTreeDataset.container rep R) Spec.AlikeQuad ∧
    Spec.IsSetUpTo (BTreeGraph.container rep R) Spec.AlikeTriple ∧
    Spec.IsSetUpTo (IndexedBTreeGraph.container rep R) Spec.AlikeTriple :=
  ⟨Proof.Related.dataset_set rep, Proof.Related.indexed_set rep, Proof.Related.graph_set rep,
    Proof.Related.indexedGraph_set rep⟩

/-- Two spellings of a quad are one quad. -/
example : Spec.session (Spec.answerDataset true) BTreeDataset.new
    [.insert ⟨⟨1, true⟩, ⟨2, true⟩, (⟨3, true⟩ : Cased), none⟩,
     .insert ⟨⟨1, false⟩, ⟨2, true⟩, ⟨3, false⟩, none⟩,
     .contains ⟨⟨1, false⟩, ⟨2, false⟩, ⟨3, false⟩, none⟩, .iter, .len,
     .remove ⟨⟨1, false⟩, ⟨2, false⟩, ⟨3, false⟩, none⟩, .len] =
    [.ok (.flag true), .ok (.flag false), .ok (.flag true),
     .ok (.statements [⟨⟨1, true⟩, ⟨2, true⟩, ⟨3, true⟩, none⟩]), .ok (.number 1),
     .ok (.flag true), .ok (.number 0)] := by
  rfl

/-! ## Spelling -/

/-- Every term that a session returns is spelled as in an insertion made until then: containers
never make up terms, nor return the spelling of a query. -/
theorem C90_spelling (rep : Bool) :
    (∀ l : List (Spec.Call (Quad R) R),
      Spec.RepeatsEarlier Spec.quadTerms (Spec.session (Spec.answerDataset rep) BTreeDataset.new l)
        (fun i => (l.take (i + 1)).flatMap (Spec.Call.inserted Spec.quadTerms))) ∧
    (∀ l : List (Spec.Call (Triple R) R),
      Spec.RepeatsEarlier Spec.tripleTerms (Spec.session (Spec.answerGraph rep) BTreeGraph.new l)
        (fun i => (l.take (i + 1)).flatMap (Spec.Call.inserted Spec.tripleTerms))) ∧
    (∀ k : List (Spec.IndexedCall R),
      Spec.RepeatsEarlier Spec.quadTerms
        (Spec.session (Spec.answerIndexed rep) IndexedBTreeDataset.new k)
        (fun i => (k.take (i + 1)).flatMap Spec.IndexedCall.inserted)) ∧
    (∀ k : List (Spec.IndexedGraphCall R),
      Spec.RepeatsEarlier Spec.tripleTerms
        (Spec.session (Spec.answerIndexedGraph rep) IndexedBTreeGraph.new k)
        (fun i => (k.take (i + 1)).flatMap Spec.IndexedGraphCall.inserted)) :=
  ⟨Proof.Related.repeatsEarlier (Proof.Related.dataset_spelling rep),
    Proof.Related.repeatsEarlier (Proof.Related.graph_spelling rep),
    Proof.Related.repeatsEarlier (Proof.Related.indexed_spelling rep),
    Proof.Related.repeatsEarlier (Proof.Related.indexedGraph_spelling rep)⟩

/-- The same when the container is indexed in the middle of the session. -/
theorem C90_spelling_conversion (rep : Bool) :
    (∀ (l : List (Spec.Call (Quad R) R)) (k : List (Spec.IndexedCall R)),
      Spec.Repeats Spec.quadTerms
        (Spec.sessionThrough (Spec.answerDataset rep) IndexedBTreeDataset.fromNonIndexed
          (Spec.answerIndexed rep) BTreeDataset.new l k)
        (l.flatMap (Spec.Call.inserted Spec.quadTerms) ++ k.flatMap Spec.IndexedCall.inserted)) ∧
    (∀ (l : List (Spec.Call (Triple R) R)) (k : List (Spec.IndexedGraphCall R)),
      Spec.Repeats Spec.tripleTerms
        (Spec.sessionThrough (Spec.answerGraph rep) IndexedBTreeGraph.fromNonIndexed
          (Spec.answerIndexedGraph rep) BTreeGraph.new l k)
        (l.flatMap (Spec.Call.inserted Spec.tripleTerms) ++
          k.flatMap Spec.IndexedGraphCall.inserted)) :=
  ⟨Proof.Related.conversion_spelling rep, Proof.Related.graphConversion_spelling rep⟩

/-- A quad may come back in a mixture of spellings, none of which is that of the query. -/
example : Spec.session (Spec.answerIndexed true) IndexedBTreeDataset.new
    [.common (.insert ⟨⟨1, true⟩, ⟨2, true⟩, (⟨3, true⟩ : Cased), none⟩),
     .common (.insert ⟨⟨3, false⟩, ⟨2, false⟩, ⟨4, false⟩, none⟩),
     .extract 2 (.givenSubject ⟨3, false⟩ (.anyPredicate (.anyObject .anyGraph))) 2] =
    [.ok (.flag true), .ok (.flag true),
     .ok (.taken [⟨⟨3, true⟩, ⟨2, true⟩, ⟨4, false⟩, none⟩] true)] := by
  rfl

/-- A new term that occurs twice in one quad comes back in both spellings. -/
example : Spec.session (Spec.answerDataset true) BTreeDataset.new
    [.insert ⟨⟨1, true⟩, ⟨2, true⟩, (⟨1, false⟩ : Cased), none⟩, .iter, .resources] =
    [.ok (.flag true), .ok (.statements [⟨⟨1, true⟩, ⟨2, true⟩, ⟨1, false⟩, none⟩]),
     .ok (.terms [⟨1, false⟩, ⟨2, true⟩])] := by
  rfl

end RdfTypes.Property
