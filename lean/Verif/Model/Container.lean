import Verif.Model.ResourceTable

/-!
# Code common to the four containers

`BTreeDataset`, `BTreeGraph`, `IndexedBTreeDataset` and `IndexedBTreeGraph` each
carry their own copy of `extend`, `from_iter`, `PartialEq`, `PartialOrd`, `Ord`,
`Hash`, `Serialize` and `Deserialize`, textually the same up to names. They are
modelled once, over the methods they call.
-/

namespace RdfTypes

/-- What is fed to a `Hasher` (std), as in `btree_dataset.rs` 413-418: a length, a
discriminant, a resource. -/
inductive HashWrite where
  | usize (n : Nat)
  | isize (n : Int)
  | u8 (n : Nat)
  | bytes (l : List Nat)
  deriving DecidableEq, Repr

/-- The inherent methods of a container `D` of statements `S` (`new`, `insert`, `remove`,
`contains`, `iter`, `into_iter`, `len`, `is_empty`), `btree_dataset.rs` 70-261 and the three
other files. -/
structure Container (S D : Type) where
  empty : D
  insert : D → S → Res (D × Bool)
  remove : D → S → Res (D × Bool)
  contains : D → S → Res Bool
  iter : D → Res (List S)
  intoIter : D → Res (List S)
  len : D → Nat
  isEmpty : D → Bool

/-- A mutating call: `insert`, `remove` or `extend`, `btree_dataset.rs` 139, 220 and 278. -/
inductive Op (S : Type) where
  | insert (x : S)
  | remove (x : S)
  | extend (l : List S)
  deriving DecidableEq, Repr

namespace Container

variable {S S' D D' : Type} (c : Container S D)

/-- `Extend::extend`: `btree_dataset.rs` 277-283, `btree_graph.rs` 251-257,
`indexed_btree_dataset.rs` 505-511, `indexed_btree_graph.rs` 356-362. -/
def extend (d : D) : List S → Res D
  | [] => .ok d
  | x :: l => do
    let (d', _) ← c.insert d x
    extend d' l

/-- `FromIterator::from_iter`: `btree_dataset.rs` 269-275, `btree_graph.rs`
243-249, `indexed_btree_dataset.rs` 497-503, `indexed_btree_graph.rs` 348-354. -/
def fromIter (l : List S) : Res D := c.extend c.empty l

/-- One mutating call (also through the traits `DatasetMut`/`GraphMut`, which
forward and drop the result: `btree_dataset.rs` 311-319, `btree_graph.rs`
285-293, `indexed_btree_dataset.rs` 603-611, `indexed_btree_graph.rs` 439-447). -/
def step (d : D) : Op S → Res D
  | .insert x => do
    let (d', _) ← c.insert d x
    pure d'
  | .remove x => do
    let (d', _) ← c.remove d x
    pure d'
  | .extend l => c.extend d l

/-- A sequence of mutating calls: `insert`, `remove` and `extend`, `btree_dataset.rs` 139, 220
and 278. -/
def run (d : D) : List (Op S) → Res D
  | [] => .ok d
  | op :: l => do
    let d' ← c.step d op
    run d' l

/-- `PartialEq::eq` between two containers: `btree_dataset.rs` 392-396,
`btree_graph.rs` 366-370, `indexed_btree_dataset.rs` 774-778,
`indexed_btree_graph.rs` 578-582. Simplification: both iterations are computed
in full (the code stops at the first difference); `e` is the equality of
statements. -/
def eq (c' : Container S' D') (e : S → S' → Bool) (a : D) (b : D') : Res Bool :=
  if c.len a == c'.len b then do
    let xs ← c.iter a
    let ys ← c'.iter b
    pure ((xs.zip ys).all (fun p => e p.1 p.2))
  else
    pure false

/-- `Iterator::cmp` of the standard library, called in `btree_dataset.rs` 406-410:
lexicographic. -/
def iterCmp [Ord S] : List S → List S → Ordering
  | [], [] => .eq
  | [], _ :: _ => .lt
  | _ :: _, [] => .gt
  | x :: xs, y :: ys => (compare x y).then (iterCmp xs ys)

/-- `Iterator::partial_cmp` of the standard library, called in `btree_dataset.rs` 400-404. -/
def iterPartialCmp (pc : S → S → Option Ordering) : List S → List S → Option Ordering
  | [], [] => some .eq
  | [], _ :: _ => some .lt
  | _ :: _, [] => some .gt
  | x :: xs, y :: ys =>
    match pc x y with
    | some .eq => iterPartialCmp pc xs ys
    | o => o

/-- `Ord::cmp`: `btree_dataset.rs` 406-410, `btree_graph.rs` 380-384,
`indexed_btree_dataset.rs` 788-792, `indexed_btree_graph.rs` 592-596. -/
def cmp [Ord S] (a b : D) : Res Ordering := do
  let xs ← c.iter a
  let ys ← c.iter b
  pure (iterCmp xs ys)

/-- `PartialOrd::partial_cmp`: `btree_dataset.rs` 400-404, `btree_graph.rs`
374-378, `indexed_btree_dataset.rs` 782-786, `indexed_btree_graph.rs` 586-590. -/
def partialCmp (pc : S → S → Option Ordering) (a b : D) : Res (Option Ordering) := do
  let xs ← c.iter a
  let ys ← c.iter b
  pure (iterPartialCmp pc xs ys)

/-- `Hash::hash`: `btree_dataset.rs` 412-419, `btree_graph.rs` 386-393,
`indexed_btree_dataset.rs` 794-801, `indexed_btree_graph.rs` 598-605; `h` is the
hash of a statement. -/
def hash (h : S → List HashWrite) (a : D) : Res (List HashWrite) := do
  let xs ← c.iter a
  pure (.usize (c.len a) :: xs.flatMap h)

end Container

/-- Derived `Hash` of `Option` (std), used by that of `Quad`, `quad.rs` 14: the discriminant,
then the content. -/
def Option.hashWrites {α : Type} (h : α → List HashWrite) : Option α → List HashWrite
  | none => [.isize 0]
  | some x => .isize 1 :: h x

/-- Derived `Hash` of `Quad`, `quad.rs` 14. -/
def Quad.hashWrites {α : Type} (h : α → List HashWrite) (q : Quad α) : List HashWrite :=
  h q.s ++ h q.p ++ h q.o ++ Option.hashWrites h q.g

/-- Derived `Hash` of `Triple`, `triple.rs` 12. -/
def Triple.hashWrites {α : Type} (h : α → List HashWrite) (t : Triple α) : List HashWrite :=
  h t.s ++ h t.p ++ h t.o

end RdfTypes
