import Verif.Spec.Records
import Verif.Spec.Shelf

/-!
# In which places records are kept

`Spec/Records` tells the records of each resource. Here they are kept in places, like the
statements (`Spec/Shelf`): a new record goes to the place emptied last. The lists of subjects,
predicates, objects and graph names are marks on places, which may stay when the record goes,
so that the next record in the place gets the marks of the former one.
-/

namespace RdfTypes.Spec

variable {R S D : Type}

/-- The records in their places, each with its resource; the place of the current record of a
resource; and the places marked at a position. -/
structure Book (R S : Type) where
  records : Shelf (R × List (S × Pos))
  current : R → Option Nat
  marked : Pos → Nat → Bool

namespace Book

def empty : Book R S := ⟨.empty, fun _ => none, fun _ _ => false⟩

/-- The record in a place. -/
def at_ (b : Book R S) (k : Nat) : Option (R × List (S × Pos)) := b.records.places[k]?.join

/-- The place of the next new record. -/
def next (b : Book R S) : Nat :=
  match b.records.freed with
  | k :: _ => k
  | [] => b.records.places.length

/-- The places marked at `p`, in order, with the resource of the record, if any. -/
def list (b : Book R S) (p : Pos) : List (Option R) :=
  ((List.range b.records.places.length).filter (b.marked p)).map (fun k => (b.at_ k).map (·.1))

variable [DecidableEq R] [DecidableEq S]

/-- Some record has an occurrence in statement `x`. -/
def knows (b : Book R S) (x : S) : Bool :=
  b.records.places.any (fun o => o.any (fun y => y.2.any (fun a => a.1 = x)))

/-- An occurrence of resource `r` is added to the record in place `known`, if given, or else to
a new record, which becomes the current one if there is none, or in any case if `rep`. The
place is marked at the position of the occurrence. -/
def enterAt (rep : Bool) (b : Book R S) (known : Option Nat) (a : S × Pos) (r : R) : Book R S :=
  let k := known.getD b.next
  let marked := fun p i => (p = a.2 ∧ i = k) || b.marked p i
  match known with
  | some k => ⟨⟨b.records.places.modify k (Option.map (fun y => (y.1, y.2 ++ [a]))),
      b.records.freed⟩, b.current, marked⟩
  | none => ⟨b.records.put (r, [a]),
      fun r' => if r' = r ∧ (rep = true ∨ b.current r = none) then some k else b.current r', marked⟩

/-- A statement is entered unless it is there already. Each of its occurrences goes to the
record that was current before. -/
def enter (rep : Bool) (terms : S → Pos → Option R) (b : Book R S) (x : S) : Book R S :=
  if b.knows x then b
  else [Pos.subj, .pred, .obj, .graph].foldl (fun b' p =>
    match terms x p with
    | some r => b'.enterAt rep (b.current r) (x, p) r
    | none => b') b

/-- An occurrence is taken out of its record. If this leaves the record empty, so is the place
then, and the resource has no current record any more. The mark at the position goes, but
that of a graph name only if the record is left empty. -/
def leaveAt (b : Book R S) (a : S × Pos) : Book R S :=
  match b.records.places.findIdx? (fun o => o.any (fun y => y.2.contains a)) with
  | none => b
  | some k =>
    match b.at_ k with
    | none => b
    | some (r, g) =>
      let g' := g.filter (· ≠ a)
      let marked := fun p i =>
        b.marked p i && !(p = a.2 ∧ i = k ∧ (a.2 ≠ .graph ∨ g' = []))
      if g' = [] then
        ⟨b.records.clear k, fun r' => if r' = r then none else b.current r', marked⟩
      else ⟨⟨b.records.places.set k (some (r, g')), b.records.freed⟩, b.current, marked⟩

/-- A statement is taken out: its subject, its predicate, its object, its graph name. -/
def leave (b : Book R S) (x : S) : Book R S :=
  [Pos.subj, .pred, .obj, .graph].foldl (fun b p => b.leaveAt (x, p)) b

/-- What conversion does: the empty places after the last record go, the others are to be
filled from the last one on, and a place is marked at the positions of its occurrences. -/
def relist (b : Book R S) : Book R S :=
  let places := (b.records.places.reverse.dropWhile (·.isNone)).reverse
  ⟨⟨places, ((List.range places.length).filter (fun k => places[k]?.join.isNone)).reverse⟩,
    b.current, fun p k => (b.at_ k).any (fun y => y.2.any (fun a => a.2 = p))⟩

end Book

/-! ## Histories -/

section histories

variable [DecidableEq R] [DecidableEq S]

/-- States of a plain container, with its book. -/
inductive PlainBook (c : Container S D) (rep : Bool) (terms : S → Pos → Option R) :
    D → Book R S → Prop
  | new : PlainBook c rep terms c.empty .empty
  | insert {d d' : D} {b : Book R S} {x : S} {o : Bool} :
    PlainBook c rep terms d b → c.insert d x = .ok (d', o) →
    PlainBook c rep terms d' (b.enter rep terms x)
  | remove {d d' : D} {b : Book R S} {x : S} {o : Bool} :
    PlainBook c rep terms d b → c.remove d x = .ok (d', o) → PlainBook c rep terms d' (b.leave x)

/-- States of an `IndexedBTreeDataset`. `remove_graph` takes the quads out in the order of
their places (`DatasetShelf`), `extract_pattern_matching` in the order in which it yields
them. -/
inductive DatasetBook [Ord R] (rep : Bool) : IndexedBTreeDataset R → Book R (Quad R) → Prop
  | new : DatasetBook rep IndexedBTreeDataset.new .empty
  | convert {g : BTreeDataset R} {b : Book R (Quad R)} {d : IndexedBTreeDataset R} :
    PlainBook (BTreeDataset.container rep R) rep quadAt g b →
    IndexedBTreeDataset.fromNonIndexed g = .ok d → DatasetBook rep d b.relist
  | insert {d d' : IndexedBTreeDataset R} {b : Book R (Quad R)} {x : Quad R} {o : Bool} :
    DatasetBook rep d b → d.insert rep x = .ok (d', o) → DatasetBook rep d' (b.enter rep quadAt x)
  | remove {d d' : IndexedBTreeDataset R} {b : Book R (Quad R)} {x : Quad R} {o : Bool} :
    DatasetBook rep d b → d.remove x = .ok (d', o) → DatasetBook rep d' (b.leave x)
  | removeGraph {d d' : IndexedBTreeDataset R} {b : Book R (Quad R)} {h : Shelf (Quad R)}
      {g : Option R} {out : Option (BTreeGraph R)} {xs : List (Quad R)} :
    DatasetBook rep d b → d.removeGraph rep g = .ok (d', out) → DatasetShelf rep anyCall d h →
    Picks (returned g out) h.places xs → DatasetBook rep d' (xs.foldl Book.leave b)
  | extract {d d' : IndexedBTreeDataset R} {b : Book R (Quad R)} {pat : CanonicalQuadPattern R}
      {cap n : Nat} {xs : List (Quad R)} {ended : Bool} :
    DatasetBook rep d b → d.quads.entries.length ≤ cap →
    d.extractPatternMatching cap pat n = .ok (d', xs, ended) →
    DatasetBook rep d' (xs.foldl Book.leave b)

/-- States of an `IndexedBTreeGraph`. -/
inductive GraphBook [Ord R] (rep : Bool) : IndexedBTreeGraph R → Book R (Triple R) → Prop
  | new : GraphBook rep IndexedBTreeGraph.new .empty
  | convert {g : BTreeGraph R} {b : Book R (Triple R)} {d : IndexedBTreeGraph R} :
    PlainBook (BTreeGraph.container rep R) rep tripleAt g b →
    IndexedBTreeGraph.fromNonIndexed g = .ok d → GraphBook rep d b.relist
  | insert {d d' : IndexedBTreeGraph R} {b : Book R (Triple R)} {x : Triple R} {o : Bool} :
    GraphBook rep d b → d.insert rep x = .ok (d', o) → GraphBook rep d' (b.enter rep tripleAt x)
  | remove {d d' : IndexedBTreeGraph R} {b : Book R (Triple R)} {x : Triple R} {o : Bool} :
    GraphBook rep d b → d.remove x = .ok (d', o) → GraphBook rep d' (b.leave x)

end histories

/-! ## Claims -/

/-- The container has the statements of the book, knows the resources that have a current record,
and counts the records. -/
def AgreesWithBook [DecidableEq S] (b : Book R S) (contains : S → Res Bool)
    (containsResource : R → Res Bool) (resourceCount : Nat) : Prop :=
  (∀ x, contains x = .ok (b.knows x)) ∧ (∀ r, containsResource r = .ok (b.current r).isSome) ∧
    resourceCount = (b.records.places.filter (·.isSome)).length

/-- A list of places is read: it panics if one is empty, and otherwise gives the resources in
this order. -/
def ReadsPlaces (l : List (Option R)) (list : Res (List R)) (count : Nat) : Prop :=
  count = l.length ∧ (none ∈ l → list = .error .invalidKey) ∧
    ∀ rs, l = rs.map some → list = .ok rs

/-- `remove_graph(Some(g))` returns a graph exactly if the place of the current record of `g` is
marked as that of a graph name. It takes out exactly the quads with `g` as graph name in this
record, and a graph that it returns has exactly their triples. -/
def TakesMarked [Ord R] (rep : Bool) (d : IndexedBTreeDataset R) (b : Book R (Quad R)) : Prop :=
  ∀ g, ∃ d' out, d.removeGraph rep (some g) = .ok (d', out) ∧
    (out.isSome = true ↔ ∃ k, b.current g = some k ∧ b.marked .graph k = true) ∧
    (∀ gr, out = some gr → ∀ t, ∃ o, gr.contains t = .ok o ∧
      (o = true ↔ ∃ k r l, b.current g = some k ∧ b.at_ k = some (r, l) ∧
        (t.intoQuad (some g), .graph) ∈ l)) ∧
    ∀ y, ∃ o o', d.contains y = .ok o ∧ d'.contains y = .ok o' ∧
      (o' = true ↔ o = true ∧ ¬ ∃ k r l, b.current g = some k ∧ b.at_ k = some (r, l) ∧
        (y, .graph) ∈ l)

end RdfTypes.Spec
