import Verif.Spec.Records

/-!
# At which positions a record is listed

The lists of subjects, predicates, objects and graph names of the indexed containers are
lists of records (`Spec/Records`). A container made by conversion starts with every record
listed at the positions of its occurrences. Below, `l₀` are the events before the
conversion and `l` those since; without conversion, `l₀` is empty.
-/

namespace RdfTypes.Spec

variable {R S D : Type}

/-! ## Histories -/

/-- A call on an `IndexedBTreeDataset`. -/
inductive DatasetCall [Ord R] (rep : Bool) :
    IndexedBTreeDataset R → Event (Quad R) → IndexedBTreeDataset R → Prop
  | insert {d d' : IndexedBTreeDataset R} {x : Quad R} {b : Bool} :
    d.insert rep x = .ok (d', b) → DatasetCall rep d (.added x) d'
  | remove {d d' : IndexedBTreeDataset R} {x : Quad R} {b : Bool} :
    d.remove x = .ok (d', b) → DatasetCall rep d (.taken [x]) d'
  | removeGraph {d d' : IndexedBTreeDataset R} {g : Option R} {out : Option (BTreeGraph R)}
      {xs : List (Quad R)} :
    d.removeGraph rep g = .ok (d', out) → (∀ y, y ∈ xs ↔ returned g out y) →
    DatasetCall rep d (.taken xs) d'
  | extract {d d' : IndexedBTreeDataset R} {pat : CanonicalQuadPattern R} {cap n : Nat}
      {xs : List (Quad R)} {ended : Bool} :
    d.quads.entries.length ≤ cap → d.extractPatternMatching cap pat n = .ok (d', xs, ended) →
    DatasetCall rep d (.taken xs) d'

/-- A call on an `IndexedBTreeGraph`. -/
inductive GraphCall [Ord R] (rep : Bool) :
    IndexedBTreeGraph R → Event (Triple R) → IndexedBTreeGraph R → Prop
  | insert {d d' : IndexedBTreeGraph R} {x : Triple R} {b : Bool} :
    d.insert rep x = .ok (d', b) → GraphCall rep d (.added x) d'
  | remove {d d' : IndexedBTreeGraph R} {x : Triple R} {b : Bool} :
    d.remove x = .ok (d', b) → GraphCall rep d (.taken [x]) d'

/-- An `IndexedBTreeDataset` is new, or made by conversion after the events. -/
inductive DatasetStart [Ord R] (rep : Bool) :
    IndexedBTreeDataset R → List (Event (Quad R)) → Prop
  | new : DatasetStart rep IndexedBTreeDataset.new []
  | convert {g : BTreeDataset R} {l : List (Event (Quad R))} {d : IndexedBTreeDataset R} :
    PlainEvents (BTreeDataset.container rep R) g l → IndexedBTreeDataset.fromNonIndexed g = .ok d →
    DatasetStart rep d l

/-- An `IndexedBTreeGraph` is new, or made by conversion after the events. -/
inductive GraphStart [Ord R] (rep : Bool) : IndexedBTreeGraph R → List (Event (Triple R)) → Prop
  | new : GraphStart rep IndexedBTreeGraph.new []
  | convert {g : BTreeGraph R} {l : List (Event (Triple R))} {d : IndexedBTreeGraph R} :
    PlainEvents (BTreeGraph.container rep R) g l → IndexedBTreeGraph.fromNonIndexed g = .ok d →
    GraphStart rep d l

/-- States of a container, with the events before its conversion and those since. -/
inductive Since (start : D → List (Event S) → Prop) (call : D → Event S → D → Prop) :
    D → List (Event S) → List (Event S) → Prop
  | start {d : D} {l₀ : List (Event S)} : start d l₀ → Since start call d l₀ []
  | call {d d' : D} {l₀ l : List (Event S)} {e : Event S} :
    Since start call d l₀ l → call d e d' → Since start call d' l₀ (e :: l)

/-! ## Listed records -/

section marks

variable [DecidableEq R] [DecidableEq S] (rep : Bool) (at_ : S → Pos → Option R) (r : R)
  (l₀ : List (Event S))

/-- The record `g` of resource `r` is listed at position `p`: the latest call that put an
occurrence at `p` into the record, or took one out of it, put one in. What a record was
before a statement came is a record with fewer occurrences, and what it was before
statements were taken out is one with more. -/
def listedAt (p : Pos) : List (Event S) → List (S × Pos) → Bool
  | [], g => g.any (·.2 = p)
  | .added x :: l, g =>
    let before := (recordsOf rep at_ r (l ++ l₀)).groups
    ((x, p) ∈ g ∧ ∀ g₀ ∈ before, (x, p) ∉ g₀) ||
      before.any (fun g₀ => (∀ a ∈ g₀, a ∈ g) && listedAt p l g₀)
  | .taken xs :: l, g =>
    let before := (recordsOf rep at_ r (l ++ l₀)).groups
    before.any (fun g₀ => (∀ a ∈ g, a ∈ g₀) && listedAt p l g₀ && (∀ x ∈ xs, (x, p) ∉ g₀))

/-- The record `g` of resource `r` is listed as a graph name: an occurrence as graph name
was once put into the record. -/
def named : List (Event S) → List (S × Pos) → Bool
  | [], g => g.any (·.2 = .graph)
  | .added x :: l, g =>
    let before := (recordsOf rep at_ r (l ++ l₀)).groups
    (x, .graph) ∈ g || before.any (fun g₀ => (∀ a ∈ g₀, a ∈ g) && named l g₀)
  | .taken _ :: l, g =>
    let before := (recordsOf rep at_ r (l ++ l₀)).groups
    before.any (fun g₀ => (∀ a ∈ g, a ∈ g₀) && named l g₀)

end marks

section names

variable [DecidableEq R] [DecidableEq S] (rep : Bool) (at_ : S → Pos → Option R)
  (l₀ : List (Event S))

/-- Whenever a record listed as a graph name is emptied, it has each of the statements
taken out as graph name. -/
def EmptiedAsName : List (Event S) → Prop
  | [] => True
  | .added _ :: l => EmptiedAsName l
  | .taken xs :: l => EmptiedAsName l ∧ ∀ r, ∀ g ∈ (recordsOf rep at_ r (l ++ l₀)).groups,
    named rep at_ r l₀ l g = true → (∀ a ∈ g, a.1 ∈ xs) → ∀ a ∈ g, (a.1, .graph) ∈ g

/-- The latest call has emptied a record listed as a graph name, which had none of the
statements as graph name. -/
def EmptiedOtherwise : List (Event S) → Prop
  | .taken xs :: l => ∃ r, ∃ g ∈ (recordsOf rep at_ r (l ++ l₀)).groups,
    named rep at_ r l₀ l g = true ∧ (∀ a ∈ g, a.1 ∈ xs) ∧ ∀ a ∈ g, (a.1, .graph) ∉ g
  | _ => False

end names

/-! ## Claims -/

/-- `list` lists each resource as often as it has records described by `listed`, and
`count` counts them. -/
def ListsRecords [DecidableEq R] [DecidableEq S] (rep : Bool) (at_ : S → Pos → Option R)
    (listed : R → List (S × Pos) → Bool) (l : List (Event S)) (list : Res (List R)) (count : Nat) :
    Prop :=
  ∃ rs, list = .ok rs ∧ count = rs.length ∧
    ∀ r, rs.count r = (recordsOf rep at_ r l).groups.countP (listed r)

/-- `remove_graph(Some(g))` takes out exactly the quads with `g` as graph name in the
current record of `g`. It may return no graph only if there are none, and a graph that it
returns has exactly their triples. -/
def TakesCurrent [Ord R] [DecidableEq R] (rep : Bool) (d : IndexedBTreeDataset R)
    (l : List (Event (Quad R))) : Prop :=
  ∀ g, ∃ d' out, d.removeGraph rep (some g) = .ok (d', out) ∧
    (out = none → ∀ y, (y, .graph) ∉ (recordsOf rep quadAt g l).current) ∧
    (∀ gr, out = some gr → ∀ t, ∃ b, gr.contains t = .ok b ∧
      (b = true ↔ (t.intoQuad (some g), .graph) ∈ (recordsOf rep quadAt g l).current)) ∧
    ∀ y, ∃ b b', d.contains y = .ok b ∧ d'.contains y = .ok b' ∧
      (b' = true ↔ b = true ∧ (y, .graph) ∉ (recordsOf rep quadAt g l).current)

end RdfTypes.Spec
