import Verif.Model.Container

/-! # `BTreeDataset` (`/repo/src/dataset/impl/btree_dataset.rs`) -/

namespace RdfTypes

/-- `Resource<R>`, `btree_dataset.rs` 421-425 and `btree_graph.rs` 395-399. -/
structure CountedResource (R : Type) where
  value : R
  occurrences : Nat
  deriving DecidableEq, Repr

/-- The operations on resource records: `Resource::new` and `is_empty`
(`btree_dataset.rs` 427-438, `btree_graph.rs` 401-412), `occurrences += 1`
(`btree_dataset.rs` 157) and `occurrences -= 1` (`btree_dataset.rs` 229), which
panics on zero (with overflow checks on; without them it would wrap around, a
panic here covers both). -/
def countOps (R : Type) : ResOps R (CountedResource R) where
  value x := x.value
  create r _ _ := ⟨r, 1⟩
  add _ _ x := .ok { x with occurrences := x.occurrences + 1 }
  del _ _ x :=
    match x.occurrences with
    | 0 => .error .underflow
    | n + 1 => .ok { x with occurrences := n }
  isEmpty x := x.occurrences == 0

/-- `BTreeDataset<R>`, `btree_dataset.rs` 51-56. -/
structure BTreeDataset (R : Type) where
  resources : Slab (CountedResource R)
  quads : Slab (Quad Nat)
  resourcesIndexes : Index
  quadsIndexes : Index
  deriving DecidableEq, Repr

namespace BTreeDataset

variable {R : Type} [Ord R]

/-- `Default::default` and `BTreeDataset::new`, `btree_dataset.rs` 58-73. -/
def new : BTreeDataset R := ⟨Slab.empty, Slab.empty, [], []⟩

/-- `len`, `btree_dataset.rs` 76-78. -/
def len (d : BTreeDataset R) : Nat := d.quads.len

/-- `is_empty`, `btree_dataset.rs` 81-83; `Slab::is_empty` is `len() == 0`. -/
def isEmpty (d : BTreeDataset R) : Bool := d.quads.len == 0

/-- `iter`, `btree_dataset.rs` 86-92, run to the end with `Quads::next`, 330-338. -/
def iter (d : BTreeDataset R) : Res (List (Quad R)) :=
  d.quadsIndexes.mapM ((countOps R).readQuad d.resources d.quads)

/-- `into_iter`, `btree_dataset.rs` 366-377, run to the end. -/
def intoIter (d : BTreeDataset R) : Res (List (Quad R)) :=
  (countOps R).drainQuads d.resources d.quads d.quadsIndexes

/-- `resources`, `btree_dataset.rs` 95-100, run to the end. -/
def resourceList (d : BTreeDataset R) : Res (List R) :=
  (countOps R).readResources d.resources d.resourcesIndexes

/-- `index_of_resource`, `btree_dataset.rs` 112-116. -/
def indexOfResource (d : BTreeDataset R) (r : R) : Res (Option Nat) :=
  (countOps R).indexOfResource d.resources d.resourcesIndexes r

/-- `index_of_quad`, `btree_dataset.rs` 119-123. -/
def indexOfQuad (d : BTreeDataset R) (q : Quad R) : Res (Option Nat) :=
  Index.get ((countOps R).quadCmp d.resources d.quads q) d.quadsIndexes

/-- `contains_resource`, `btree_dataset.rs` 126-128. -/
def containsResource (d : BTreeDataset R) (r : R) : Res Bool := do
  let i ← d.indexOfResource r
  pure i.isSome

/-- `contains`, `btree_dataset.rs` 131-133. -/
def contains (d : BTreeDataset R) (q : Quad R) : Res Bool := do
  let i ← d.indexOfQuad q
  pure i.isSome

/-- `insert`, `btree_dataset.rs` 139-214. -/
def insert (rep : Bool) (d : BTreeDataset R) (q : Quad R) : Res (BTreeDataset R × Bool) := do
  if ← d.contains q then
    pure (d, false)
  else
    let i := d.quads.vacantKey
    let (resources, resourcesIndexes, q') ←
      (countOps R).acquireQuad rep d.resources d.resourcesIndexes i q
    let quads := d.quads.insert q'
    let quadsIndexes ←
      Index.insert rep ((countOps R).quadIndexCmp resources quads i) i d.quadsIndexes
    pure (⟨resources, quads, resourcesIndexes, quadsIndexes⟩, true)

/-- `remove`, `btree_dataset.rs` 220-266: the subject, predicate and object are removed from the
resource index by value, the graph name by slot. -/
def remove (d : BTreeDataset R) (q : Quad R) : Res (BTreeDataset R × Bool) := do
  let ops := countOps R
  match ← Index.remove (ops.quadCmp d.resources d.quads q) d.quadsIndexes with
  | (quadsIndexes, some i) => do
    let (quads, q') ← d.quads.remove i
    let (res, idx, _) ← ops.release d.resources d.resourcesIndexes .subj i q'.s
      (fun res => ops.resourceCmp res q.s)
    let (res, idx, _) ← ops.release res idx .pred i q'.p (fun res => ops.resourceCmp res q.p)
    let (res, idx, _) ← ops.release res idx .obj i q'.o (fun res => ops.resourceCmp res q.o)
    match q'.g with
    | some g => do
      let (res, idx, _) ← ops.release res idx .graph i g (fun res => ops.resourceIndexCmp res g)
      pure (⟨res, quads, idx, quadsIndexes⟩, true)
    | none => pure (⟨res, quads, idx, quadsIndexes⟩, true)
  | (quadsIndexes, none) => pure ({ d with quadsIndexes := quadsIndexes }, false)

/-- The methods above as a `Container`: `new` `btree_dataset.rs` 71, `len` 76, `is_empty` 81,
`iter` 86,
`contains` 131, `insert` 139, `remove` 220, `into_iter` 341-377. -/
def container (rep : Bool) (R : Type) [Ord R] : Container (Quad R) (BTreeDataset R) where
  empty := new
  insert := insert rep
  remove := remove
  contains := contains
  iter := iter
  intoIter := intoIter
  len := len
  isEmpty := isEmpty

end BTreeDataset

end RdfTypes
