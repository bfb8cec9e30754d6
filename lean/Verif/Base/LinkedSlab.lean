import Verif.Base.Slab

/-!
# The slab as the crate `slab` implements it

`Base/Slab` describes `slab::Slab` (version 0.4, `Cargo.toml` 36) with a stack of vacant keys.
The crate keeps the vacant entries in a linked list instead, threaded through the entries. This is
its text written from memory, as the dependencies are not in `/repo`; C94 says that both answer alike.
The comments cite the calls in `/repo`.
-/

namespace RdfTypes

/-- `slab::Entry<T>`. -/
inductive SlabEntry (α : Type) where
  | vacant (next : Nat)
  | occupied (v : α)
  deriving DecidableEq, Repr

/-- `slab::Slab<T>`, as in `btree_dataset.rs` 52-53: the entries, their number that are occupied,
and the first vacant key, which is the number of entries if there is none. -/
structure LinkedSlab (α : Type) where
  entries : List (SlabEntry α)
  len : Nat
  next : Nat
  deriving DecidableEq, Repr

namespace LinkedSlab

variable {α β : Type}

/-- `Slab::new`, `btree_dataset.rs` 61-62. -/
def empty : LinkedSlab α := ⟨[], 0, 0⟩

/-- `slab[k]`, `btree_dataset.rs` 28-31. -/
def index (t : LinkedSlab α) (k : Nat) : Res α :=
  match t.entries[k]? with
  | some (.occupied v) => .ok v
  | _ => .error .invalidKey

/-- `Slab::vacant_entry().key()`, `btree_dataset.rs` 151-152. -/
def vacantKey (t : LinkedSlab α) : Nat := t.next

/-- `Slab::insert(v)`, with `insert_at`: `btree_dataset.rs` 160. It panics (`unreachable!`) if the
list leads to an entry that is occupied, or out of the slab. -/
def insert (t : LinkedSlab α) (v : α) : Res (LinkedSlab α) :=
  if t.next = t.entries.length then
    .ok ⟨t.entries ++ [.occupied v], t.len + 1, t.next + 1⟩
  else
    match t.entries[t.next]? with
    | some (.vacant n) => .ok ⟨t.entries.set t.next (.occupied v), t.len + 1, n⟩
    | _ => .error .unwrapNone

/-- `Slab::remove(k)`, with `try_remove`: `btree_dataset.rs` 226. -/
def remove (t : LinkedSlab α) (k : Nat) : Res (LinkedSlab α × α) :=
  match t.entries[k]? with
  | some (.occupied v) => .ok (⟨t.entries.set k (.vacant t.next), t.len - 1, k⟩, v)
  | _ => .error .invalidKey

/-- `slab[k] = f(slab[k])` through `&mut slab[k]`, `btree_dataset.rs` 156. -/
def modify (t : LinkedSlab α) (k : Nat) (f : α → α) : Res (LinkedSlab α) :=
  match t.entries[k]? with
  | some (.occupied v) => .ok ⟨t.entries.set k (.occupied (f v)), t.len, t.next⟩
  | _ => .error .invalidKey

/-- `Slab::into_iter`, `indexed_btree_dataset.rs` 98-100: the occupied entries with their keys. -/
def pairs (t : LinkedSlab α) : List (Nat × α) :=
  t.entries.zipIdx.filterMap (fun e =>
    match e.1 with
    | .occupied v => some (e.2, v)
    | .vacant _ => none)

/-- `slab::builder::Builder`, with which `Slab::from_iter` works. -/
structure Builder (α : Type) where
  slab : LinkedSlab α
  firstVacant : Option Nat

/-- The loop of `Builder::pair` that inserts `n` holes. -/
def fill (t : LinkedSlab α) : Nat → LinkedSlab α
  | 0 => t
  | n + 1 => fill ⟨t.entries ++ [.vacant t.next], t.len, t.entries.length⟩ n

/-- `Builder::pair`. The branch for keys that are not ascending is left out: it is an error here. -/
def Builder.pair (b : Builder α) (x : Nat × α) : Res (Builder α) :=
  if x.1 < b.slab.entries.length then .error .unwrapNone
  else
    let firstVacant := if b.firstVacant.isNone && b.slab.entries.length < x.1 then
      some b.slab.entries.length else b.firstVacant
    let t := fill b.slab (x.1 - b.slab.entries.length)
    .ok ⟨⟨t.entries ++ [.occupied x.2], t.len + 1, t.next⟩, firstVacant⟩

/-- `Builder::build`; `unreachable!` is an error. -/
def Builder.build (b : Builder α) : Res (LinkedSlab α) :=
  let t := b.slab
  if t.len = t.entries.length then .ok { t with next := t.entries.length }
  else
    match b.firstVacant with
    | none => .error .unwrapNone
    | some i =>
      match t.entries[i]? with
      | some (.vacant _) => .ok { t with entries := t.entries.set i (.vacant t.entries.length) }
      | _ => .error .unwrapNone

/-- `slab.into_iter().map(|(k, v)| (k, f(v))).collect()`, `indexed_btree_dataset.rs` 98-112,
`indexed_btree_graph.rs` 92-105. -/
def mapCollect (f : α → β) (t : LinkedSlab α) : Res (LinkedSlab β) := do
  let b ← (t.pairs.map (fun x => (x.1, f x.2))).foldlM Builder.pair ⟨empty, none⟩
  b.build

end LinkedSlab

end RdfTypes
