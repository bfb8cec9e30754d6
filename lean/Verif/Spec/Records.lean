import Verif.Spec.Resources

/-!
# How the occurrences of a resource are recorded

A container keeps the occurrences of a resource in one or more records, of which one
may be current. The resource is reported as long as it has a current record. What
happens to the records of one resource does not depend on the other resources.
-/

namespace RdfTypes.Spec

variable {R S D : Type}

/-- The term at a position of a quad. -/
def quadAt (q : Quad R) : Pos → Option R
  | .subj => some q.s
  | .pred => some q.p
  | .obj => some q.o
  | .graph => q.g

/-- The term at a position of a triple. -/
def tripleAt (t : Triple R) : Pos → Option R
  | .subj => some t.s
  | .pred => some t.p
  | .obj => some t.o
  | .graph => none

/-- The positions of `r` in a statement. -/
def positionsOf [DecidableEq R] (at_ : Pos → Option R) (r : R) : List Pos :=
  [.subj, .pred, .obj, .graph].filter (fun p => at_ p = some r)

/-- The records of a resource. Each one is a list of occurrences: a statement and a
position. If `listed`, the first one is the current record. -/
structure Records (S : Type) where
  listed : Bool
  groups : List (List (S × Pos))
  deriving DecidableEq, Repr

namespace Records

/-- No occurrence yet. -/
def none : Records S := ⟨false, []⟩

/-- The occurrences in the current record. -/
def current (h : Records S) : List (S × Pos) :=
  match h with
  | ⟨true, g :: _⟩ => g
  | _ => []

variable [DecidableEq S]

/-- A new statement `x` has the resource at the positions `ps`. They all go to the
current record. If there is none, each one gets a record of its own; the current one
is the first of them, or the last one if `rep`. -/
def enter (rep : Bool) (h : Records S) (ps : List Pos) (x : S) : Records S :=
  if ps = [] ∨ h.groups.any (fun g => g.any (fun a => a.1 = x)) then h
  else match h with
    | ⟨true, g :: gs⟩ => ⟨true, (g ++ ps.map (fun p => (x, p))) :: gs⟩
    | ⟨_, gs⟩ => ⟨true, (if rep then ps.reverse else ps).map (fun p => [(x, p)]) ++ gs⟩

/-- The statements `xs` are taken out. When this leaves a record empty, any record,
then there is no current record any more. -/
def leave (h : Records S) (xs : List S) : Records S :=
  let gs := h.groups.map (fun g => g.filter (fun a => a.1 ∉ xs))
  if [] ∈ gs then ⟨false, gs.filter (· ≠ [])⟩ else ⟨h.listed, gs⟩

end Records

/-! ## Histories -/

/-- A call that may have changed the content. -/
inductive Event (S : Type) where
  | added (x : S)
  | taken (xs : List S)

/-- The records of resource `r` after the events, the latest of which comes first. -/
def recordsOf [DecidableEq S] [DecidableEq R] (rep : Bool) (at_ : S → Pos → Option R) (r : R) :
    List (Event S) → Records S
  | [] => .none
  | .added x :: l => (recordsOf rep at_ r l).enter rep (positionsOf (at_ x) r) x
  | .taken xs :: l => (recordsOf rep at_ r l).leave xs

/-- States of a container with what has happened to it. -/
inductive PlainEvents (c : Container S D) : D → List (Event S) → Prop
  | new : PlainEvents c c.empty []
  | insert {d d' : D} {l : List (Event S)} {x : S} {b : Bool} :
    PlainEvents c d l → c.insert d x = .ok (d', b) → PlainEvents c d' (.added x :: l)
  | remove {d d' : D} {l : List (Event S)} {x : S} {b : Bool} :
    PlainEvents c d l → c.remove d x = .ok (d', b) → PlainEvents c d' (.taken [x] :: l)

/-- States of an `IndexedBTreeDataset`. -/
inductive DatasetEvents [Ord R] (rep : Bool) : IndexedBTreeDataset R → List (Event (Quad R)) → Prop
  | new : DatasetEvents rep IndexedBTreeDataset.new []
  | convert {g : BTreeDataset R} {l : List (Event (Quad R))} {d : IndexedBTreeDataset R} :
    PlainEvents (BTreeDataset.container rep R) g l → IndexedBTreeDataset.fromNonIndexed g = .ok d →
    DatasetEvents rep d l
  | insert {d d' : IndexedBTreeDataset R} {l : List (Event (Quad R))} {x : Quad R} {b : Bool} :
    DatasetEvents rep d l → d.insert rep x = .ok (d', b) → DatasetEvents rep d' (.added x :: l)
  | remove {d d' : IndexedBTreeDataset R} {l : List (Event (Quad R))} {x : Quad R} {b : Bool} :
    DatasetEvents rep d l → d.remove x = .ok (d', b) → DatasetEvents rep d' (.taken [x] :: l)
  | removeGraph {d d' : IndexedBTreeDataset R} {l : List (Event (Quad R))} {g : Option R}
      {out : Option (BTreeGraph R)} {xs : List (Quad R)} :
    DatasetEvents rep d l → d.removeGraph rep g = .ok (d', out) →
    (∀ y, y ∈ xs ↔ returned g out y) → DatasetEvents rep d' (.taken xs :: l)
  | extract {d d' : IndexedBTreeDataset R} {l : List (Event (Quad R))}
      {pat : CanonicalQuadPattern R} {cap n : Nat} {xs : List (Quad R)} {ended : Bool} :
    DatasetEvents rep d l → d.quads.entries.length ≤ cap →
    d.extractPatternMatching cap pat n = .ok (d', xs, ended) → DatasetEvents rep d' (.taken xs :: l)

/-- States of an `IndexedBTreeGraph`. -/
inductive GraphEvents [Ord R] (rep : Bool) : IndexedBTreeGraph R → List (Event (Triple R)) → Prop
  | new : GraphEvents rep IndexedBTreeGraph.new []
  | convert {g : BTreeGraph R} {l : List (Event (Triple R))} {d : IndexedBTreeGraph R} :
    PlainEvents (BTreeGraph.container rep R) g l → IndexedBTreeGraph.fromNonIndexed g = .ok d →
    GraphEvents rep d l
  | insert {d d' : IndexedBTreeGraph R} {l : List (Event (Triple R))} {x : Triple R} {b : Bool} :
    GraphEvents rep d l → d.insert rep x = .ok (d', b) → GraphEvents rep d' (.added x :: l)
  | remove {d d' : IndexedBTreeGraph R} {l : List (Event (Triple R))} {x : Triple R} {b : Bool} :
    GraphEvents rep d l → d.remove x = .ok (d', b) → GraphEvents rep d' (.taken [x] :: l)

/-! ## Claims -/

section claims

variable [DecidableEq R] [DecidableEq S] (Past : D → List (Event S) → Prop) (rep : Bool)
  (at_ : S → Pos → Option R)

/-- The records of a resource hold its occurrences in the container, each in one
record. -/
def RecordsOccurrences (contains : D → S → Res Bool) : Prop :=
  ∀ d l, Past d l → ∀ r, (recordsOf rep at_ r l).groups.flatten.Nodup ∧
    (∀ g ∈ (recordsOf rep at_ r l).groups, g ≠ []) ∧
    ∀ x p, (x, p) ∈ (recordsOf rep at_ r l).groups.flatten ↔
      contains d x = .ok true ∧ at_ x p = some r

/-- `resources` lists, in strictly ascending order, exactly the resources with a current
record, and `contains_resource` answers accordingly. -/
def ListsRecorded [Ord R] (resources : D → Res (List R)) (contains : D → R → Res Bool) : Prop :=
  ∀ d l, Past d l → ∃ rs, resources d = .ok rs ∧ rs.Pairwise (fun a b => compare a b = .lt) ∧
    ∀ r, (r ∈ rs ↔ (recordsOf rep at_ r l).listed = true) ∧
      contains d r = .ok (recordsOf rep at_ r l).listed

/-- `resource_count` is the total number of records. -/
def CountsRecords (count : D → Nat) : Prop :=
  ∀ d l, Past d l → ∀ rs : List R, rs.Nodup → (∀ r, (recordsOf rep at_ r l).groups ≠ [] → r ∈ rs) →
    count d = (rs.map (fun r => (recordsOf rep at_ r l).groups.length)).sum

end claims

end RdfTypes.Spec
