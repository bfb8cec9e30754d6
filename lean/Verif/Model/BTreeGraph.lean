import Verif.Model.BTreeDataset

/-! # `BTreeGraph` (`/repo/src/dataset/graph/impl/btree_graph.rs`) -/

namespace RdfTypes

/-- `BTreeGraph<R>`, `btree_graph.rs` 53-58. -/
structure BTreeGraph (R : Type) where
  resources : Slab (CountedResource R)
  triples : Slab (Triple Nat)
  resourcesIndexes : Index
  triplesIndexes : Index
  deriving DecidableEq, Repr

namespace BTreeGraph

variable {R : Type} [Ord R]

/-- `Default::default` and `BTreeGraph::new`, `btree_graph.rs` 60-75. -/
def new : BTreeGraph R := ⟨Slab.empty, Slab.empty, [], []⟩

/-- `len`, `btree_graph.rs` 78-80. -/
def len (d : BTreeGraph R) : Nat := d.triples.len

/-- `is_empty`, `btree_graph.rs` 83-85. -/
def isEmpty (d : BTreeGraph R) : Bool := d.triples.len == 0

/-- `iter`, `btree_graph.rs` 88-94, run to the end with `Triples::next`, 307-311. -/
def iter (d : BTreeGraph R) : Res (List (Triple R)) :=
  d.triplesIndexes.mapM ((countOps R).readTriple d.resources d.triples)

/-- `into_iter`, `btree_graph.rs` 340-351, run to the end. -/
def intoIter (d : BTreeGraph R) : Res (List (Triple R)) :=
  (countOps R).drainTriples d.resources d.triples d.triplesIndexes

/-- `resources`, `btree_graph.rs` 97-102, run to the end. -/
def resourceList (d : BTreeGraph R) : Res (List R) :=
  (countOps R).readResources d.resources d.resourcesIndexes

/-- `index_of_resource`, `btree_graph.rs` 114-118. -/
def indexOfResource (d : BTreeGraph R) (r : R) : Res (Option Nat) :=
  (countOps R).indexOfResource d.resources d.resourcesIndexes r

/-- `index_of_triple`, `btree_graph.rs` 121-125. -/
def indexOfTriple (d : BTreeGraph R) (t : Triple R) : Res (Option Nat) :=
  Index.get ((countOps R).tripleCmp d.resources d.triples t) d.triplesIndexes

/-- `contains_resource`, `btree_graph.rs` 128-130. -/
def containsResource (d : BTreeGraph R) (r : R) : Res Bool := do
  let i ← d.indexOfResource r
  pure i.isSome

/-- `contains`, `btree_graph.rs` 133-135. -/
def contains (d : BTreeGraph R) (t : Triple R) : Res Bool := do
  let i ← d.indexOfTriple t
  pure i.isSome

/-- `insert`, `btree_graph.rs` 141-198. -/
def insert (rep : Bool) (d : BTreeGraph R) (t : Triple R) : Res (BTreeGraph R × Bool) := do
  if ← d.contains t then
    pure (d, false)
  else
    let i := d.triples.vacantKey
    let (resources, resourcesIndexes, t') ←
      (countOps R).acquireTriple rep d.resources d.resourcesIndexes i t
    let triples := d.triples.insert t'
    let triplesIndexes ←
      Index.insert rep ((countOps R).tripleIndexCmp resources triples i) i d.triplesIndexes
    pure (⟨resources, triples, resourcesIndexes, triplesIndexes⟩, true)

/-- `remove`, `btree_graph.rs` 204-240: resources are removed from the resource index by value. -/
def remove (d : BTreeGraph R) (t : Triple R) : Res (BTreeGraph R × Bool) := do
  let ops := countOps R
  match ← Index.remove (ops.tripleCmp d.resources d.triples t) d.triplesIndexes with
  | (triplesIndexes, some i) => do
    let (triples, t') ← d.triples.remove i
    let (res, idx, _) ← ops.release d.resources d.resourcesIndexes .subj i t'.s
      (fun res => ops.resourceCmp res t.s)
    let (res, idx, _) ← ops.release res idx .pred i t'.p (fun res => ops.resourceCmp res t.p)
    let (res, idx, _) ← ops.release res idx .obj i t'.o (fun res => ops.resourceCmp res t.o)
    pure (⟨res, triples, idx, triplesIndexes⟩, true)
  | (triplesIndexes, none) => pure ({ d with triplesIndexes := triplesIndexes }, false)

/-- The methods above as a `Container`: `new` `btree_graph.rs` 73, `len` 78, `is_empty` 83, `iter`
88,
`contains` 133, `insert` 141, `remove` 204, `into_iter` 315-351. -/
def container (rep : Bool) (R : Type) [Ord R] : Container (Triple R) (BTreeGraph R) where
  empty := new
  insert := insert rep
  remove := remove
  contains := contains
  iter := iter
  intoIter := intoIter
  len := len
  isEmpty := isEmpty

end BTreeGraph

end RdfTypes
