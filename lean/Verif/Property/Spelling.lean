import Verif.Proof.SpellingCalls
import Verif.Spec.Spelling
import Verif.Property.Alike

/-!
# C91 — The spelling of what a container holds
-/

namespace RdfTypes.Property

variable {R : Type} [Ord R] [Std.TransOrd R]

/-- What insertions and removals do to the spelling of statements and terms, in any state that the
calls of C90 can lead to. -/
theorem C91_kept (rep : Bool) :
    Spec.KeepsSpelling (Spec.ReachedDataset rep) (BTreeDataset.container rep R) Spec.AlikeQuad
      (fun f q => q.map f) Spec.quadTerms BTreeDataset.resourceList ∧
    Spec.KeepsSpelling (Spec.ReachedIndexed rep) (IndexedBTreeDataset.container rep R)
      Spec.AlikeQuad (fun f q => q.map f) Spec.quadTerms IndexedBTreeDataset.resourceList ∧
    Spec.KeepsSpelling (Spec.ReachedGraph rep) (BTreeGraph.container rep R) Spec.AlikeTriple
      (fun f t => t.map f) Spec.tripleTerms BTreeGraph.resourceList ∧
    Spec.KeepsSpelling (Spec.ReachedIndexedGraph rep) (IndexedBTreeGraph.container rep R)
      Spec.AlikeTriple (fun f t => t.map f) Spec.tripleTerms IndexedBTreeGraph.resourceList :=
  ⟨Proof.Spelling.dataset_keeps rep, Proof.Spelling.indexed_keeps rep,
    Proof.Spelling.graph_keeps rep, Proof.Spelling.indexedGraph_keeps rep⟩

/-- Matching, extraction and `remove_graph` return and leave statements as they are listed. -/
theorem C91_returned (rep : Bool) :
    Spec.ReturnsListed (R := R) rep ∧ Spec.ReturnsListedTriples (R := R) rep :=
  ⟨Proof.Spelling.returnsListed rep, Proof.Spelling.returnsListedTriples rep⟩

/-- A conversion to the indexed containers changes no spelling. -/
theorem C91_conversion (rep : Bool) : Spec.ConversionKeepsSpelling (R := R) rep :=
  Proof.Spelling.conversion_keeps rep

/-- The states are those that calls lead to; a session may go on after a conversion. -/
example : ∃ d : IndexedBTreeDataset Cased, Spec.ReachedIndexed true d ∧
    d.iter = .ok [⟨⟨1, true⟩, ⟨2, true⟩, ⟨3, true⟩, some ⟨4, false⟩⟩] ∧
    d.resourceList = .ok [⟨1, true⟩, ⟨2, true⟩, ⟨3, true⟩, ⟨4, false⟩] :=
  ⟨_, ⟨_, [.common (.insert ⟨⟨1, false⟩, ⟨2, false⟩, ⟨3, false⟩, some ⟨4, false⟩⟩),
      .removeGraph none],
    .inr ⟨_, ⟨[.insert ⟨⟨1, true⟩, ⟨2, true⟩, ⟨3, true⟩, none⟩], rfl⟩, rfl⟩, rfl⟩, rfl, rfl⟩

/-- A new statement takes over the spelling of the terms that are listed, and keeps its own for the
others. -/
example : Spec.session (Spec.answerDataset true) BTreeDataset.new
    [.insert ⟨⟨1, true⟩, ⟨2, true⟩, (⟨3, true⟩ : Cased), none⟩,
     .insert ⟨⟨3, false⟩, ⟨2, false⟩, ⟨4, false⟩, none⟩, .iter, .resources] =
    [.ok (.flag true), .ok (.flag true),
     .ok (.statements [⟨⟨1, true⟩, ⟨2, true⟩, ⟨3, true⟩, none⟩,
       ⟨⟨3, true⟩, ⟨2, true⟩, ⟨4, false⟩, none⟩]),
     .ok (.terms [⟨1, true⟩, ⟨2, true⟩, ⟨3, true⟩, ⟨4, false⟩])] := by
  rfl

example : (⟨⟨3, false⟩, ⟨2, false⟩, ⟨4, false⟩, none⟩ : Quad Cased).map
      (Spec.spell [⟨1, true⟩, ⟨2, true⟩, ⟨3, true⟩]) =
    ⟨⟨3, true⟩, ⟨2, true⟩, ⟨4, false⟩, none⟩ := by
  rfl

/-- A statement that is removed and inserted again can come back in another spelling. -/
example : Spec.session (Spec.answerGraph true) BTreeGraph.new
    [.insert ⟨⟨1, true⟩, ⟨2, true⟩, (⟨3, true⟩ : Cased)⟩,
     .remove ⟨⟨1, false⟩, ⟨2, false⟩, ⟨3, false⟩⟩,
     .insert ⟨⟨1, false⟩, ⟨2, false⟩, ⟨3, false⟩⟩, .iter] =
    [.ok (.flag true), .ok (.flag true), .ok (.flag true),
     .ok (.statements [⟨⟨1, false⟩, ⟨2, false⟩, ⟨3, false⟩⟩])] := by
  rfl

/-- Extraction with a pattern in another spelling. -/
example : Spec.session (Spec.answerIndexed true) (IndexedBTreeDataset.new : IndexedBTreeDataset Cased)
    [.common (.insert ⟨⟨1, true⟩, ⟨2, true⟩, ⟨3, true⟩, none⟩),
     .common (.insert ⟨⟨1, true⟩, ⟨5, true⟩, ⟨3, true⟩, none⟩),
     .extract 2 (.anySubject (.givenPredicate ⟨2, false⟩ (.anyObject .anyGraph))) 3,
     .common .iter] =
    [.ok (.flag true), .ok (.flag true),
     .ok (.taken [⟨⟨1, true⟩, ⟨2, true⟩, ⟨3, true⟩, none⟩] true),
     .ok (.statements [⟨⟨1, true⟩, ⟨5, true⟩, ⟨3, true⟩, none⟩])] := by
  rfl

end RdfTypes.Property
