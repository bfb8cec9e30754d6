import Verif.Base.NatSet
import Verif.Model.BTreeGraph

/-!
# `IndexedBTreeDataset` (`/repo/src/dataset/impl/indexed_btree_dataset.rs`)

Everything except pattern matching, which is in `PatternMatching.lean`.
-/

namespace RdfTypes

/-- `Resource<R>`, `indexed_btree_dataset.rs` 1343-1350. The records of
`indexed_btree_graph.rs` 779-785 have no `as_graph`; here the same type is used
with `asGraph` empty. -/
structure IndexedResource (R : Type) where
  value : R
  asSubject : NatSet
  asPredicate : NatSet
  asObject : NatSet
  asGraph : NatSet
  deriving DecidableEq, Repr

namespace IndexedResource

variable {R : Type}

/-- The field of a position: `as_subject`, `as_predicate`, `as_object`, `as_graph`,
`indexed_btree_dataset.rs` 1346-1349.
-/
def at_ (x : IndexedResource R) : Pos → NatSet
  | .subj => x.asSubject
  | .pred => x.asPredicate
  | .obj => x.asObject
  | .graph => x.asGraph

/-- Updates the field of a position: `as_subject`, `as_predicate`, `as_object`, `as_graph`,
`indexed_btree_dataset.rs` 1346-1349. -/
def update (x : IndexedResource R) (f : NatSet → NatSet) : Pos → IndexedResource R
  | .subj => { x with asSubject := f x.asSubject }
  | .pred => { x with asPredicate := f x.asPredicate }
  | .obj => { x with asObject := f x.asObject }
  | .graph => { x with asGraph := f x.asGraph }

end IndexedResource

/-- The operations on resource records: `Resource::{subject, predicate, object,
graph, is_empty}` (`indexed_btree_dataset.rs` 1353-1398, `indexed_btree_graph.rs`
788-818), `as_*.insert(i)` (`indexed_btree_dataset.rs` 265, 277, 289, 301) and
`as_*.remove(&i)` (393, 401, 409, 418). -/
def indexOps (R : Type) : ResOps R (IndexedResource R) where
  value x := x.value
  create r p k := (⟨r, [], [], [], []⟩ : IndexedResource R).update (NatSet.insert k) p
  add p k x := .ok (x.update (NatSet.insert k) p)
  del p k x := .ok (x.update (NatSet.remove k) p)
  isEmpty x := x.asSubject.isEmpty && x.asPredicate.isEmpty && x.asObject.isEmpty &&
    x.asGraph.isEmpty

/-- `IndexedBTreeDataset<R>`, `indexed_btree_dataset.rs` 62-72. -/
structure IndexedBTreeDataset (R : Type) where
  resources : Slab (IndexedResource R)
  quads : Slab (Quad Nat)
  resourcesIndexes : Index
  quadsIndexes : Index
  subjects : NatSet
  predicates : NatSet
  objects : NatSet
  defaultGraph : NatSet
  namedGraphs : NatSet
  deriving DecidableEq, Repr

namespace IndexedBTreeDataset

variable {R : Type} [Ord R]

/-- `Default::default` and `new`, `indexed_btree_dataset.rs` 74-94. -/
def new : IndexedBTreeDataset R := ⟨Slab.empty, Slab.empty, [], [], [], [], [], [], []⟩

/-- The loop state of `from_non_indexed`, `indexed_btree_dataset.rs` 98-118. -/
structure Conversion (R : Type) where
  resources : Slab (IndexedResource R)
  subjects : NatSet
  predicates : NatSet
  objects : NatSet
  defaultGraph : NatSet
  namedGraphs : NatSet

/-- The loop body of `from_non_indexed`, `indexed_btree_dataset.rs` 120-142. -/
def convertStep (quads : Slab (Quad Nat)) (c : Conversion R) (i : Nat) : Res (Conversion R) := do
  let ops := indexOps R
  let q ← quads.index i
  let res ← c.resources.modify q.s (ops.add .subj i)
  let res ← res.modify q.p (ops.add .pred i)
  let res ← res.modify q.o (ops.add .obj i)
  let c := { c with
    subjects := NatSet.insert q.s c.subjects
    predicates := NatSet.insert q.p c.predicates
    objects := NatSet.insert q.o c.objects }
  match q.g with
  | some g => do
    let res ← res.modify g (ops.add .graph i)
    pure { c with resources := res, namedGraphs := NatSet.insert g c.namedGraphs }
  | none => pure { c with resources := res, defaultGraph := NatSet.insert i c.defaultGraph }

/-- `from_non_indexed`, `indexed_btree_dataset.rs` 97-154. -/
def fromNonIndexed (d : BTreeDataset R) : Res (IndexedBTreeDataset R) := do
  let resources : Slab (IndexedResource R) :=
    d.resources.mapCollect (fun x => ⟨x.value, [], [], [], []⟩)
  let c ← d.quadsIndexes.foldlM (convertStep d.quads) ⟨resources, [], [], [], [], []⟩
  pure {
    resources := c.resources
    quads := d.quads
    resourcesIndexes := d.resourcesIndexes
    quadsIndexes := d.quadsIndexes
    subjects := c.subjects
    predicates := c.predicates
    objects := c.objects
    defaultGraph := c.defaultGraph
    namedGraphs := c.namedGraphs }

/-- `len`, `indexed_btree_dataset.rs` 157-159. -/
def len (d : IndexedBTreeDataset R) : Nat := d.quads.len

/-- `is_empty`, `indexed_btree_dataset.rs` 162-164. -/
def isEmpty (d : IndexedBTreeDataset R) : Bool := d.quads.len == 0

/-- `iter`, `indexed_btree_dataset.rs` 167-173, run to the end with `Quads::next`, 663-667. -/
def iter (d : IndexedBTreeDataset R) : Res (List (Quad R)) :=
  d.quadsIndexes.mapM ((indexOps R).readQuad d.resources d.quads)

/-- `into_iter`, `indexed_btree_dataset.rs` 696-707, run to the end. -/
def intoIter (d : IndexedBTreeDataset R) : Res (List (Quad R)) :=
  (indexOps R).drainQuads d.resources d.quads d.quadsIndexes

/-- `resources`, `indexed_btree_dataset.rs` 176-181, run to the end. -/
def resourceList (d : IndexedBTreeDataset R) : Res (List R) :=
  (indexOps R).readResources d.resources d.resourcesIndexes

/-- `subjects`, `indexed_btree_dataset.rs` 184-189, run to the end. -/
def subjectList (d : IndexedBTreeDataset R) : Res (List R) :=
  (indexOps R).readResources d.resources d.subjects

/-- `predicates`, `indexed_btree_dataset.rs` 192-197, run to the end. -/
def predicateList (d : IndexedBTreeDataset R) : Res (List R) :=
  (indexOps R).readResources d.resources d.predicates

/-- `objects`, `indexed_btree_dataset.rs` 200-205, run to the end. -/
def objectList (d : IndexedBTreeDataset R) : Res (List R) :=
  (indexOps R).readResources d.resources d.objects

/-- `named_graphs`, `indexed_btree_dataset.rs` 208-213, run to the end. -/
def namedGraphList (d : IndexedBTreeDataset R) : Res (List R) :=
  (indexOps R).readResources d.resources d.namedGraphs

/-- `resource_count`, `indexed_btree_dataset.rs` 538-540. -/
def resourceCount (d : IndexedBTreeDataset R) : Nat := d.resources.len

/-- `subject_count`, `indexed_btree_dataset.rs` 553-555. -/
def subjectCount (d : IndexedBTreeDataset R) : Nat := d.subjects.length

/-- `predicate_count`, `indexed_btree_dataset.rs` 568-570. -/
def predicateCount (d : IndexedBTreeDataset R) : Nat := d.predicates.length

/-- `object_count`, `indexed_btree_dataset.rs` 583-585. -/
def objectCount (d : IndexedBTreeDataset R) : Nat := d.objects.length

/-- `named_graph_count`, `indexed_btree_dataset.rs` 598-600. -/
def namedGraphCount (d : IndexedBTreeDataset R) : Nat := d.namedGraphs.length

/-- `index_of_resource`, `indexed_btree_dataset.rs` 217-221. -/
def indexOfResource (d : IndexedBTreeDataset R) (r : R) : Res (Option Nat) :=
  (indexOps R).indexOfResource d.resources d.resourcesIndexes r

/-- `get_resource`, `indexed_btree_dataset.rs` 223-225. -/
def getResource (d : IndexedBTreeDataset R) (r : R) : Res (Option (IndexedResource R)) := do
  match ← d.indexOfResource r with
  | none => pure none
  | some i => pure (d.resources.get i)

/-- `index_of_quad`, `indexed_btree_dataset.rs` 228-232. -/
def indexOfQuad (d : IndexedBTreeDataset R) (q : Quad R) : Res (Option Nat) :=
  Index.get ((indexOps R).quadCmp d.resources d.quads q) d.quadsIndexes

/-- `contains_resource`, `indexed_btree_dataset.rs` 235-237. -/
def containsResource (d : IndexedBTreeDataset R) (r : R) : Res Bool := do
  let i ← d.indexOfResource r
  pure i.isSome

/-- `contains`, `indexed_btree_dataset.rs` 240-242; also `PatternMatchingDataset::contains_quad`,
627-629. -/
def contains (d : IndexedBTreeDataset R) (q : Quad R) : Res Bool := do
  let i ← d.indexOfQuad q
  pure i.isSome

/-- `insert`, `indexed_btree_dataset.rs` 248-333. -/
def insert (rep : Bool) (d : IndexedBTreeDataset R) (q : Quad R) :
    Res (IndexedBTreeDataset R × Bool) := do
  if ← d.contains q then
    pure (d, false)
  else
    let i := d.quads.vacantKey
    let (resources, resourcesIndexes, q') ←
      (indexOps R).acquireQuad rep d.resources d.resourcesIndexes i q
    let defaultGraph := if q'.g.isNone then NatSet.insert i d.defaultGraph else d.defaultGraph
    let namedGraphs := match q'.g with
      | some g => NatSet.insert g d.namedGraphs
      | none => d.namedGraphs
    let quads := d.quads.insert q'
    let quadsIndexes ←
      Index.insert rep ((indexOps R).quadIndexCmp resources quads i) i d.quadsIndexes
    pure ({
      resources := resources
      quads := quads
      resourcesIndexes := resourcesIndexes
      quadsIndexes := quadsIndexes
      subjects := NatSet.insert q'.s d.subjects
      predicates := NatSet.insert q'.p d.predicates
      objects := NatSet.insert q'.o d.objects
      defaultGraph := defaultGraph
      namedGraphs := namedGraphs }, true)

/-- `remove_by_index`, `indexed_btree_dataset.rs` 379-430. -/
def removeByIndex (d : IndexedBTreeDataset R) (i : Nat) (removeIndex : Bool) :
    Res (IndexedBTreeDataset R) := do
  let ops := indexOps R
  let quadsIndexes ← if removeIndex then do
      let (l, _) ← Index.remove (ops.quadIndexCmp d.resources d.quads i) d.quadsIndexes
      pure l
    else pure d.quadsIndexes
  let (quads, q) ← d.quads.remove i
  let (res, idx, _) ← ops.release d.resources d.resourcesIndexes .subj i q.s
    (fun res => ops.resourceIndexCmp res q.s)
  let (res, idx, _) ← ops.release res idx .pred i q.p (fun res => ops.resourceIndexCmp res q.p)
  let (res, idx, _) ← ops.release res idx .obj i q.o (fun res => ops.resourceIndexCmp res q.o)
  let d := { d with
    quads := quads
    quadsIndexes := quadsIndexes
    subjects := NatSet.remove q.s d.subjects
    predicates := NatSet.remove q.p d.predicates
    objects := NatSet.remove q.o d.objects }
  match q.g with
  | some g => do
    let (res, idx, dropped) ← ops.release res idx .graph i g
      (fun res => ops.resourceIndexCmp res g)
    pure { d with
      resources := res
      resourcesIndexes := idx
      namedGraphs := if dropped then NatSet.remove g d.namedGraphs else d.namedGraphs }
  | none =>
    pure { d with
      resources := res
      resourcesIndexes := idx
      defaultGraph := NatSet.remove i d.defaultGraph }

/-- `remove`, `indexed_btree_dataset.rs` 339-350. -/
def remove (d : IndexedBTreeDataset R) (q : Quad R) : Res (IndexedBTreeDataset R × Bool) := do
  match ← Index.remove ((indexOps R).quadCmp d.resources d.quads q) d.quadsIndexes with
  | (quadsIndexes, some i) => do
    let d' ← removeByIndex { d with quadsIndexes := quadsIndexes } i false
    pure (d', true)
  | (quadsIndexes, none) => pure ({ d with quadsIndexes := quadsIndexes }, false)

/-- The loop of `remove_graph`, `indexed_btree_dataset.rs` 370-374. -/
def removeGraphLoop (rep : Bool) (d : IndexedBTreeDataset R) (graph : BTreeGraph R) :
    List Nat → Res (IndexedBTreeDataset R × BTreeGraph R)
  | [] => .ok (d, graph)
  | i :: l => do
    let q ← (indexOps R).readQuad d.resources d.quads i
    let d' ← d.removeByIndex i true
    let (graph', _) ← graph.insert rep q.intoTriple.1
    removeGraphLoop rep d' graph' l

/-- `remove_graph`, `indexed_btree_dataset.rs` 353-377. -/
def removeGraph (rep : Bool) (d : IndexedBTreeDataset R) (graph : Option R) :
    Res (IndexedBTreeDataset R × Option (BTreeGraph R)) := do
  let indexes : Option (List Nat) ← match graph with
    | some g => do
      match ← d.indexOfResource g with
      | none => pure none
      | some g_i =>
        if d.namedGraphs.contains g_i then do
          let x ← d.resources.index g_i
          pure (some x.asGraph)
        else pure none
    | none => pure (some d.defaultGraph)
  match indexes with
  | none => pure (d, none)
  | some l => do
    let (d', graph) ← removeGraphLoop rep d BTreeGraph.new l
    pure (d', some graph)

/-- The methods above as a `Container`: `new` `indexed_btree_dataset.rs` 92, `len` 157, `is_empty`
162, `iter` 167,
`contains` 240, `insert` 248, `remove` 339, `into_iter` 671-707. -/
def container (rep : Bool) (R : Type) [Ord R] : Container (Quad R) (IndexedBTreeDataset R) where
  empty := new
  insert := insert rep
  remove := remove
  contains := contains
  iter := iter
  intoIter := intoIter
  len := len
  isEmpty := isEmpty

end IndexedBTreeDataset

end RdfTypes
