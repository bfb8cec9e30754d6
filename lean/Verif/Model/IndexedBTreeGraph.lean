import Verif.Model.IndexedBTreeDataset

/-!
# `IndexedBTreeGraph` (`/repo/src/dataset/graph/impl/indexed_btree_graph.rs`)

Everything except pattern matching, which is in `PatternMatching.lean`.
-/

namespace RdfTypes

/-- `IndexedBTreeGraph<R>`, `indexed_btree_graph.rs` 60-68. The resource records are those of the
dataset,
with `asGraph` always empty (the records of the graph, 779-785, lack it). -/
structure IndexedBTreeGraph (R : Type) where
  resources : Slab (IndexedResource R)
  triples : Slab (Triple Nat)
  resourcesIndexes : Index
  triplesIndexes : Index
  subjects : NatSet
  predicates : NatSet
  objects : NatSet
  deriving DecidableEq, Repr

namespace IndexedBTreeGraph

variable {R : Type} [Ord R]

/-- `Default::default` and `new`, `indexed_btree_graph.rs` 70-88. -/
def new : IndexedBTreeGraph R := ⟨Slab.empty, Slab.empty, [], [], [], [], []⟩

/-- The loop state of `from_non_indexed`, `indexed_btree_graph.rs` 91-109. -/
structure Conversion (R : Type) where
  resources : Slab (IndexedResource R)
  subjects : NatSet
  predicates : NatSet
  objects : NatSet

/-- The loop body of `from_non_indexed`, `indexed_btree_graph.rs` 111-122. -/
def convertStep (triples : Slab (Triple Nat)) (c : Conversion R) (i : Nat) :
    Res (Conversion R) := do
  let ops := indexOps R
  let t ← triples.index i
  let res ← c.resources.modify t.s (ops.add .subj i)
  let res ← res.modify t.p (ops.add .pred i)
  let res ← res.modify t.o (ops.add .obj i)
  pure {
    resources := res
    subjects := NatSet.insert t.s c.subjects
    predicates := NatSet.insert t.p c.predicates
    objects := NatSet.insert t.o c.objects }

/-- `from_non_indexed`, `indexed_btree_graph.rs` 91-133. -/
def fromNonIndexed (d : BTreeGraph R) : Res (IndexedBTreeGraph R) := do
  let resources : Slab (IndexedResource R) :=
    d.resources.mapCollect (fun x => ⟨x.value, [], [], [], []⟩)
  let c ← d.triplesIndexes.foldlM (convertStep d.triples) ⟨resources, [], [], []⟩
  pure {
    resources := c.resources
    triples := d.triples
    resourcesIndexes := d.resourcesIndexes
    triplesIndexes := d.triplesIndexes
    subjects := c.subjects
    predicates := c.predicates
    objects := c.objects }

/-- `len`, `indexed_btree_graph.rs` 136-138. -/
def len (d : IndexedBTreeGraph R) : Nat := d.triples.len

/-- `is_empty`, `indexed_btree_graph.rs` 141-143. -/
def isEmpty (d : IndexedBTreeGraph R) : Bool := d.triples.len == 0

/-- `iter`, `indexed_btree_graph.rs` 146-152, run to the end with `Triples::next`, 480-484. -/
def iter (d : IndexedBTreeGraph R) : Res (List (Triple R)) :=
  d.triplesIndexes.mapM ((indexOps R).readTriple d.resources d.triples)

/-- `into_iter`, `indexed_btree_graph.rs` 517-524, run to the end. -/
def intoIter (d : IndexedBTreeGraph R) : Res (List (Triple R)) :=
  (indexOps R).drainTriples d.resources d.triples d.triplesIndexes

/-- `resources`, `indexed_btree_graph.rs` 155-160, run to the end. -/
def resourceList (d : IndexedBTreeGraph R) : Res (List R) :=
  (indexOps R).readResources d.resources d.resourcesIndexes

/-- `subjects`, `indexed_btree_graph.rs` 163-168, run to the end. -/
def subjectList (d : IndexedBTreeGraph R) : Res (List R) :=
  (indexOps R).readResources d.resources d.subjects

/-- `predicates`, `indexed_btree_graph.rs` 171-176, run to the end. -/
def predicateList (d : IndexedBTreeGraph R) : Res (List R) :=
  (indexOps R).readResources d.resources d.predicates

/-- `objects`, `indexed_btree_graph.rs` 179-184, run to the end. -/
def objectList (d : IndexedBTreeGraph R) : Res (List R) :=
  (indexOps R).readResources d.resources d.objects

/-- `graph_resource_count`, `indexed_btree_graph.rs` 389-391. -/
def resourceCount (d : IndexedBTreeGraph R) : Nat := d.resources.len

/-- `graph_subject_count`, `indexed_btree_graph.rs` 404-406. -/
def subjectCount (d : IndexedBTreeGraph R) : Nat := d.subjects.length

/-- `graph_predicate_count`, `indexed_btree_graph.rs` 419-421. -/
def predicateCount (d : IndexedBTreeGraph R) : Nat := d.predicates.length

/-- `graph_object_count`, `indexed_btree_graph.rs` 434-436. -/
def objectCount (d : IndexedBTreeGraph R) : Nat := d.objects.length

/-- `index_of_resource`, `indexed_btree_graph.rs` 188-192. -/
def indexOfResource (d : IndexedBTreeGraph R) (r : R) : Res (Option Nat) :=
  (indexOps R).indexOfResource d.resources d.resourcesIndexes r

/-- `get_resource`, `indexed_btree_graph.rs` 194-196. -/
def getResource (d : IndexedBTreeGraph R) (r : R) : Res (Option (IndexedResource R)) := do
  match ← d.indexOfResource r with
  | none => pure none
  | some i => pure (d.resources.get i)

/-- `index_of_triple`, `indexed_btree_graph.rs` 199-203. -/
def indexOfTriple (d : IndexedBTreeGraph R) (t : Triple R) : Res (Option Nat) :=
  Index.get ((indexOps R).tripleCmp d.resources d.triples t) d.triplesIndexes

/-- `contains_resource`, `indexed_btree_graph.rs` 206-208. -/
def containsResource (d : IndexedBTreeGraph R) (r : R) : Res Bool := do
  let i ← d.indexOfResource r
  pure i.isSome

/-- `contains`, `indexed_btree_graph.rs` 211-213; also `PatternMatchingGraph::contains_triple`,
463-465. -/
def contains (d : IndexedBTreeGraph R) (t : Triple R) : Res Bool := do
  let i ← d.indexOfTriple t
  pure i.isSome

/-- `insert`, `indexed_btree_graph.rs` 219-280. -/
def insert (rep : Bool) (d : IndexedBTreeGraph R) (t : Triple R) :
    Res (IndexedBTreeGraph R × Bool) := do
  if ← d.contains t then
    pure (d, false)
  else
    let i := d.triples.vacantKey
    let (resources, resourcesIndexes, t') ←
      (indexOps R).acquireTriple rep d.resources d.resourcesIndexes i t
    let triples := d.triples.insert t'
    let triplesIndexes ←
      Index.insert rep ((indexOps R).tripleIndexCmp resources triples i) i d.triplesIndexes
    pure ({
      resources := resources
      triples := triples
      resourcesIndexes := resourcesIndexes
      triplesIndexes := triplesIndexes
      subjects := NatSet.insert t'.s d.subjects
      predicates := NatSet.insert t'.p d.predicates
      objects := NatSet.insert t'.o d.objects }, true)

/-- `remove`, `indexed_btree_graph.rs` 286-326: resources are removed from the resource index by
value. -/
def remove (d : IndexedBTreeGraph R) (t : Triple R) : Res (IndexedBTreeGraph R × Bool) := do
  let ops := indexOps R
  match ← Index.remove (ops.tripleCmp d.resources d.triples t) d.triplesIndexes with
  | (triplesIndexes, some i) => do
    let (triples, t') ← d.triples.remove i
    let (res, idx, _) ← ops.release d.resources d.resourcesIndexes .subj i t'.s
      (fun res => ops.resourceCmp res t.s)
    let (res, idx, _) ← ops.release res idx .pred i t'.p (fun res => ops.resourceCmp res t.p)
    let (res, idx, _) ← ops.release res idx .obj i t'.o (fun res => ops.resourceCmp res t.o)
    pure ({
      resources := res
      triples := triples
      resourcesIndexes := idx
      triplesIndexes := triplesIndexes
      subjects := NatSet.remove t'.s d.subjects
      predicates := NatSet.remove t'.p d.predicates
      objects := NatSet.remove t'.o d.objects }, true)
  | (triplesIndexes, none) => pure ({ d with triplesIndexes := triplesIndexes }, false)

/-- The methods above as a `Container`: `new` `indexed_btree_graph.rs` 86, `len` 136, `is_empty`
141, `iter` 146,
`contains` 211, `insert` 219, `remove` 286, `into_iter` 488-524. -/
def container (rep : Bool) (R : Type) [Ord R] : Container (Triple R) (IndexedBTreeGraph R) where
  empty := new
  insert := insert rep
  remove := remove
  contains := contains
  iter := iter
  intoIter := intoIter
  len := len
  isEmpty := isEmpty

end IndexedBTreeGraph

end RdfTypes
