import Verif.Model.Statement

/-!
# Resource tables

The four containers (`/repo/src/dataset/impl/{btree_dataset,indexed_btree_dataset}.rs`,
`/repo/src/dataset/graph/impl/{btree_graph,indexed_btree_graph}.rs`) store
resources in a slab, with an ordered index on top. The Rust code repeats the
same block for each position of a statement and in each container; here the two
blocks (acquiring and releasing a resource) are written once, over the few
operations by which the resource records of the containers differ.
-/

namespace RdfTypes

/-- A position in a statement: the components of `quad.rs` 16 and `triple.rs` 14. -/
inductive Pos where
  | subj | pred | obj | graph
  deriving DecidableEq, Repr

/-- The operations on a resource record `ρ` carrying a resource of type `R`: `Resource` in
`btree_dataset.rs` 421-438, `btree_graph.rs` 395-412, `indexed_btree_dataset.rs` 1343-1399,
`indexed_btree_graph.rs` 779-818, and the updates in `insert` and `remove`. -/
structure ResOps (R ρ : Type) where
  /-- Field `value`. -/
  value : ρ → R
  /-- Constructor: the resource occurs at a position of the statement of key `k`. -/
  create : R → Pos → Nat → ρ
  /-- Records one more occurrence. -/
  add : Pos → Nat → ρ → Res ρ
  /-- Forgets one occurrence. -/
  del : Pos → Nat → ρ → Res ρ
  /-- `Resource::is_empty`. -/
  isEmpty : ρ → Bool

namespace ResOps

variable {R ρ : Type} [Ord R] (ops : ResOps R ρ)

/-- `resource_cmp(resources)(&i, resource)`, `btree_dataset.rs` 13-15,
`btree_graph.rs` 13-15, `indexed_btree_dataset.rs` 24-26. -/
def resourceCmp (res : Slab ρ) (r : R) (i : Nat) : Res Ordering := do
  let x ← res.index i
  pure (compare (ops.value x) r)

/-- `resource_index_cmp(resources)(&i, &j)`, `btree_dataset.rs` 17-21,
`btree_graph.rs` 17-21, `indexed_btree_dataset.rs` 28-32. -/
def resourceIndexCmp (res : Slab ρ) (j i : Nat) : Res Ordering := do
  let x ← res.index i
  let y ← res.index j
  pure (compare (ops.value x) (ops.value y))

/-- `index_of_resource`, `btree_dataset.rs` 112-116, `btree_graph.rs` 114-118,
`indexed_btree_dataset.rs` 217-221, `indexed_btree_graph.rs` 188-192. -/
def indexOfResource (res : Slab ρ) (idx : Index) (r : R) : Res (Option Nat) :=
  Index.get (ops.resourceCmp res r) idx

/-- The block that registers an occurrence of resource `r` at position `pos` of
the statement of key `k`, where `found` is the result of an earlier
`index_of_resource`: `btree_dataset.rs` 151-203 (four instances),
`btree_graph.rs` 152-189 (three), `indexed_btree_dataset.rs` 263-312 (four),
`indexed_btree_graph.rs` 230-267 (three). Returns the new table and the slot. -/
def acquire (rep : Bool) (res : Slab ρ) (idx : Index) (pos : Pos) (k : Nat) (r : R)
    (found : Option Nat) : Res (Slab ρ × Index × Nat) :=
  match found with
  | some i => do
    let res' ← res.modify i (ops.add pos k)
    pure (res', idx, i)
  | none => do
    let i := res.vacantKey
    let res' := res.insert (ops.create r pos k)
    let idx' ← Index.insert rep (ops.resourceIndexCmp res' i) i idx
    pure (res', idx', i)

/-- The block that forgets the occurrence of the resource in slot `i` at
position `pos` of the statement of key `k`, and drops the resource when that was
the last one; `cmp` is the comparator used to remove it from the index
(`resource_cmp` or `resource_index_cmp` depending on the container). The Boolean
says whether the resource was dropped:
`btree_dataset.rs` 226-259, `btree_graph.rs` 212-234,
`indexed_btree_dataset.rs` 391-424, `indexed_btree_graph.rs` 298-320. -/
def release (res : Slab ρ) (idx : Index) (pos : Pos) (k : Nat) (i : Nat)
    (cmp : Slab ρ → Nat → Res Ordering) : Res (Slab ρ × Index × Bool) := do
  let res' ← res.modify i (ops.del pos k)
  let x ← res'.index i
  if ops.isEmpty x then
    let (idx', _) ← Index.remove (cmp res') idx
    let (res'', _) ← res'.remove i
    pure (res'', idx', true)
  else
    pure (res', idx, false)

/-- The resource part of the insertion of a quad: all look-ups come first, then the four
blocks. `btree_dataset.rs` 143-203, `indexed_btree_dataset.rs` 252-317. The latter also
records the default graph inside the last block, and the sets of subjects, predicates, objects
and graph names after it (319-324): these updates do not touch the table and are modelled by
the caller. -/
def acquireQuad (rep : Bool) (res : Slab ρ) (idx : Index) (k : Nat) (q : Quad R) :
    Res (Slab ρ × Index × Quad Nat) := do
  let sFound ← ops.indexOfResource res idx q.s
  let pFound ← ops.indexOfResource res idx q.p
  let oFound ← ops.indexOfResource res idx q.o
  let gFound ← match q.g with
    | none => pure none
    | some g => ops.indexOfResource res idx g
  let (res, idx, s) ← ops.acquire rep res idx .subj k q.s sFound
  let (res, idx, p) ← ops.acquire rep res idx .pred k q.p pFound
  let (res, idx, o) ← ops.acquire rep res idx .obj k q.o oFound
  match q.g with
  | none => pure (res, idx, ⟨s, p, o, none⟩)
  | some g => do
    let (res, idx, g) ← ops.acquire rep res idx .graph k g gFound
    pure (res, idx, ⟨s, p, o, some g⟩)

/-- The resource part of the insertion of a triple. `btree_graph.rs` 145-189,
`indexed_btree_graph.rs` 223-267. -/
def acquireTriple (rep : Bool) (res : Slab ρ) (idx : Index) (k : Nat) (t : Triple R) :
    Res (Slab ρ × Index × Triple Nat) := do
  let sFound ← ops.indexOfResource res idx t.s
  let pFound ← ops.indexOfResource res idx t.p
  let oFound ← ops.indexOfResource res idx t.o
  let (res, idx, s) ← ops.acquire rep res idx .subj k t.s sFound
  let (res, idx, p) ← ops.acquire rep res idx .pred k t.p pFound
  let (res, idx, o) ← ops.acquire rep res idx .obj k t.o oFound
  pure (res, idx, ⟨s, p, o⟩)

/-- `quad_with_resources(resources, quad)`, `btree_dataset.rs` 23-33,
`indexed_btree_dataset.rs` 34-44. -/
def quadWithResources (res : Slab ρ) (q : Quad Nat) : Res (Quad R) := do
  let s ← res.index q.s
  let p ← res.index q.p
  let o ← res.index q.o
  match q.g with
  | none => pure ⟨ops.value s, ops.value p, ops.value o, none⟩
  | some g => do
    let g ← res.index g
    pure ⟨ops.value s, ops.value p, ops.value o, some (ops.value g)⟩

/-- `quads[i]` with its resources: `quad_with_resources`, `btree_dataset.rs` 23-33,
`indexed_btree_dataset.rs` 34-44. -/
def readQuad (res : Slab ρ) (quads : Slab (Quad Nat)) (i : Nat) : Res (Quad R) := do
  let q ← quads.index i
  ops.quadWithResources res q

/-- `quad_cmp(resources, quads)(&i, quad)`, `btree_dataset.rs` 35-40,
`indexed_btree_dataset.rs` 46-51. -/
def quadCmp (res : Slab ρ) (quads : Slab (Quad Nat)) (quad : Quad R) (i : Nat) :
    Res Ordering := do
  let x ← ops.readQuad res quads i
  pure (compare x quad)

/-- `quad_index_cmp(resources, quads)(&i, &j)`, `btree_dataset.rs` 42-47,
`indexed_btree_dataset.rs` 53-58. -/
def quadIndexCmp (res : Slab ρ) (quads : Slab (Quad Nat)) (j i : Nat) : Res Ordering := do
  let x ← ops.readQuad res quads i
  let y ← ops.readQuad res quads j
  pure (compare x y)

/-- `triple_with_resources(resources, triple)`, `btree_graph.rs` 23-32. -/
def tripleWithResources (res : Slab ρ) (t : Triple Nat) : Res (Triple R) := do
  let s ← res.index t.s
  let p ← res.index t.p
  let o ← res.index t.o
  pure ⟨ops.value s, ops.value p, ops.value o⟩

/-- `triples[i]` with its resources: `triple_with_resources`, `btree_graph.rs` 23-32,
`indexed_btree_graph.rs` 30-39. -/
def readTriple (res : Slab ρ) (triples : Slab (Triple Nat)) (i : Nat) : Res (Triple R) := do
  let t ← triples.index i
  ops.tripleWithResources res t

/-- `triple_cmp(resources, triples)(&i, triple)`, `btree_graph.rs` 34-39. -/
def tripleCmp (res : Slab ρ) (triples : Slab (Triple Nat)) (triple : Triple R) (i : Nat) :
    Res Ordering := do
  let x ← ops.readTriple res triples i
  pure (compare x triple)

/-- `triple_index_cmp(resources, triples)(&i, &j)`, `btree_graph.rs` 41-49. -/
def tripleIndexCmp (res : Slab ρ) (triples : Slab (Triple Nat)) (j i : Nat) : Res Ordering := do
  let x ← ops.readTriple res triples i
  let y ← ops.readTriple res triples j
  pure (compare x y)

/-- The values of the slots listed by `idx`, in order (`Resources::next`,
`btree_dataset.rs` 387-389, `btree_graph.rs` 361-363, and the `Resources`
iterators of the indexed containers). -/
def readResources (res : Slab ρ) (idx : Index) : Res (List R) :=
  idx.mapM (fun i => do
    let x ← res.index i
    pure (ops.value x))

/-- The owned iteration of a dataset, run to the end: each slot is removed when
it is reached (`IntoTriples::next`, `btree_dataset.rs` 347-355,
`indexed_btree_dataset.rs` 677-685). -/
def drainQuads (res : Slab ρ) : Slab (Quad Nat) → Index → Res (List (Quad R))
  | _, [] => .ok []
  | quads, i :: l => do
    let (quads', q) ← quads.remove i
    let x ← ops.quadWithResources res q
    let xs ← drainQuads res quads' l
    pure (x :: xs)

/-- The owned iteration of a graph, run to the end (`IntoTriples::next`,
`btree_graph.rs` 321-329, `indexed_btree_graph.rs` 494-502). -/
def drainTriples (res : Slab ρ) : Slab (Triple Nat) → Index → Res (List (Triple R))
  | _, [] => .ok []
  | triples, i :: l => do
    let (triples', t) ← triples.remove i
    let x ← ops.tripleWithResources res t
    let xs ← drainTriples res triples' l
    pure (x :: xs)

end ResOps

end RdfTypes
