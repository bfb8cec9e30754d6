import Verif.Model.BTreeDataset
import Verif.Model.BTreeGraph
import Verif.Model.IndexedBTreeDataset
import Verif.Model.IndexedBTreeGraph

/-!
# The iterators of the containers, call by call

`iter`, `into_iter`, `resources` and the lists of terms are modelled as run to the end in the
models of the containers. Here they are the structures of the crate, with their `next`. The
iterators over the trees and sets of slots (`raw_btree::Iter`, `raw_btree::IntoIter`,
`btree_set::Iter`) are the list of the slots to come. A call gives the new state also if it
panics: the inner iterator has advanced by then.
-/

namespace RdfTypes

/-- `Iterator::next` of an iterator with states in `I`: what the call does, and the new state. -/
abbrev StepOf (I X : Type) := I → Res (Option X) × I

variable {R ρ : Type}

/-- `Quads`, `btree_dataset.rs` 324-328, `indexed_btree_dataset.rs` 654-658, and `IntoTriples` of
datasets, `btree_dataset.rs` 341-345, `indexed_btree_dataset.rs` 671-675, which has the same
fields. -/
structure QuadSteps (ρ : Type) where
  resources : Slab ρ
  quads : Slab (Quad Nat)
  indexes : List Nat

/-- `Triples`, `btree_graph.rs` 298-302, `indexed_btree_graph.rs` 471-475, and `IntoTriples` of
graphs, `btree_graph.rs` 315-319, `indexed_btree_graph.rs` 488-492, which has the same fields. -/
structure TripleSteps (ρ : Type) where
  resources : Slab ρ
  triples : Slab (Triple Nat)
  indexes : List Nat

/-- `Resources`, `Subjects`, `Predicates`, `Objects` and `NamedGraphs`, which have the same fields:
`btree_dataset.rs` 379-382, `btree_graph.rs` 353-356, `indexed_btree_dataset.rs` 709-712, 722-725,
735-738, 748-751, 761-764, `indexed_btree_graph.rs` 526-529, 539-542, 552-555, 565-568. -/
structure ResourceSteps (ρ : Type) where
  resources : Slab ρ
  indexes : List Nat

namespace ResOps

variable (ops : ResOps R ρ)

/-- `Quads::next`, `btree_dataset.rs` 333-337, `indexed_btree_dataset.rs` 663-667. -/
def nextQuad : StepOf (QuadSteps ρ) (Quad R) := fun it =>
  match it.indexes with
  | [] => (.ok none, it)
  | i :: l => (some <$> ops.readQuad it.resources it.quads i, { it with indexes := l })

/-- `IntoTriples::next` of datasets, `btree_dataset.rs` 350-354, `indexed_btree_dataset.rs`
680-684. -/
def nextOwnedQuad : StepOf (QuadSteps ρ) (Quad R) := fun it =>
  match it.indexes with
  | [] => (.ok none, it)
  | i :: l =>
    match it.quads.remove i with
    | .error e => (.error e, { it with indexes := l })
    | .ok (quads, q) =>
      (some <$> ops.quadWithResources it.resources q, { it with quads := quads, indexes := l })

/-- `Triples::next`, `btree_graph.rs` 307-311, `indexed_btree_graph.rs` 480-484. -/
def nextTriple : StepOf (TripleSteps ρ) (Triple R) := fun it =>
  match it.indexes with
  | [] => (.ok none, it)
  | i :: l => (some <$> ops.readTriple it.resources it.triples i, { it with indexes := l })

/-- `IntoTriples::next` of graphs, `btree_graph.rs` 324-328, `indexed_btree_graph.rs` 497-501. -/
def nextOwnedTriple : StepOf (TripleSteps ρ) (Triple R) := fun it =>
  match it.indexes with
  | [] => (.ok none, it)
  | i :: l =>
    match it.triples.remove i with
    | .error e => (.error e, { it with indexes := l })
    | .ok (triples, t) =>
      (some <$> ops.tripleWithResources it.resources t, { it with triples := triples, indexes := l })

/-- `Resources::next` and the like, `btree_dataset.rs` 387-389, `btree_graph.rs` 361-363,
`indexed_btree_dataset.rs` 717-719, 730-732, 743-745, 756-758, 769-771, `indexed_btree_graph.rs`
534-536, 547-549, 560-562, 573-575. -/
def nextResource : StepOf (ResourceSteps ρ) R := fun it =>
  match it.indexes with
  | [] => (.ok none, it)
  | i :: l => ((fun x => some (ops.value x)) <$> it.resources.index i, { it with indexes := l })

end ResOps

/-- `iter`, `btree_dataset.rs` 86-92, and `into_iter`, `btree_dataset.rs` 370-376. -/
def BTreeDataset.steps (d : BTreeDataset R) : QuadSteps (CountedResource R) :=
  ⟨d.resources, d.quads, d.quadsIndexes⟩

/-- `resources`, `btree_dataset.rs` 95-100. -/
def BTreeDataset.resourceSteps (d : BTreeDataset R) : ResourceSteps (CountedResource R) :=
  ⟨d.resources, d.resourcesIndexes⟩

/-- `iter`, `btree_graph.rs` 88-94, and `into_iter`, `btree_graph.rs` 344-350. -/
def BTreeGraph.steps (d : BTreeGraph R) : TripleSteps (CountedResource R) :=
  ⟨d.resources, d.triples, d.triplesIndexes⟩

/-- `resources`, `btree_graph.rs` 97-102. -/
def BTreeGraph.resourceSteps (d : BTreeGraph R) : ResourceSteps (CountedResource R) :=
  ⟨d.resources, d.resourcesIndexes⟩

namespace IndexedBTreeDataset

/-- `iter`, `indexed_btree_dataset.rs` 167-173, and `into_iter`, 700-706. -/
def steps (d : IndexedBTreeDataset R) : QuadSteps (IndexedResource R) :=
  ⟨d.resources, d.quads, d.quadsIndexes⟩

/-- `resources`, `indexed_btree_dataset.rs` 176-181. -/
def resourceSteps (d : IndexedBTreeDataset R) : ResourceSteps (IndexedResource R) :=
  ⟨d.resources, d.resourcesIndexes⟩

/-- `subjects`, `indexed_btree_dataset.rs` 184-189. -/
def subjectSteps (d : IndexedBTreeDataset R) : ResourceSteps (IndexedResource R) :=
  ⟨d.resources, d.subjects⟩

/-- `predicates`, `indexed_btree_dataset.rs` 192-197. -/
def predicateSteps (d : IndexedBTreeDataset R) : ResourceSteps (IndexedResource R) :=
  ⟨d.resources, d.predicates⟩

/-- `objects`, `indexed_btree_dataset.rs` 200-205. -/
def objectSteps (d : IndexedBTreeDataset R) : ResourceSteps (IndexedResource R) :=
  ⟨d.resources, d.objects⟩

/-- `named_graphs`, `indexed_btree_dataset.rs` 208-213. -/
def namedGraphSteps (d : IndexedBTreeDataset R) : ResourceSteps (IndexedResource R) :=
  ⟨d.resources, d.namedGraphs⟩

end IndexedBTreeDataset

namespace IndexedBTreeGraph

/-- `iter`, `indexed_btree_graph.rs` 146-152, and `into_iter`, 517-523. -/
def steps (d : IndexedBTreeGraph R) : TripleSteps (IndexedResource R) :=
  ⟨d.resources, d.triples, d.triplesIndexes⟩

/-- `resources`, `indexed_btree_graph.rs` 155-160. -/
def resourceSteps (d : IndexedBTreeGraph R) : ResourceSteps (IndexedResource R) :=
  ⟨d.resources, d.resourcesIndexes⟩

/-- `subjects`, `indexed_btree_graph.rs` 163-168. -/
def subjectSteps (d : IndexedBTreeGraph R) : ResourceSteps (IndexedResource R) :=
  ⟨d.resources, d.subjects⟩

/-- `predicates`, `indexed_btree_graph.rs` 171-176. -/
def predicateSteps (d : IndexedBTreeGraph R) : ResourceSteps (IndexedResource R) :=
  ⟨d.resources, d.predicates⟩

/-- `objects`, `indexed_btree_graph.rs` 179-184. -/
def objectSteps (d : IndexedBTreeGraph R) : ResourceSteps (IndexedResource R) :=
  ⟨d.resources, d.objects⟩

end IndexedBTreeGraph

/-! ## Iterators around iterators -/

/-- `self.0.next().map(f)`: `InfallibleIterator::next`, `utils.rs` 10-12 (`f` is `Ok`), and
`TripleToQuadIterator::next`, `utils.rs` 26-28 (`f` is `into_quad(None)`). -/
def mapStep {I X Y : Type} (f : X → Y) (next : StepOf I X) : StepOf I Y := fun it =>
  let (o, it) := next it
  (Option.map f <$> o, it)

/-- `OptionIterator::next`, `utils.rs` 36-38. -/
def optionStep {I X : Type} (next : StepOf I X) : StepOf (Option I) X
  | none => (.ok none, none)
  | some it => let (o, it) := next it; (o, some it)

end RdfTypes
