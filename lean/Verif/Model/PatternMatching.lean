import Verif.Model.IndexedBTreeGraph
import Verif.Model.QuadPattern

/-!
# Pattern matching in the indexed containers

`/repo/src/dataset/impl/indexed_btree_dataset.rs` 432-489
and 803-1341, and `/repo/src/dataset/graph/impl/indexed_btree_graph.rs` 328-339 and 607-777.

The subject, predicate and object constraints of the two files have the same
code, up to the iterator type that holds the indexes and to the type of the stored
statement, of which they only read the first three components; they are modelled
once. A peekable iterator over indexes is the list of the indexes left. The
`_owned` constructors differ from the others by copying the indexes to a vector.

`Slab::capacity()` is the capacity of the vector of entries, which is at least its
length and does not change on removal. It is the parameter `cap` of the functions
below; the theorems hold for every `cap` not less than the length.
-/

namespace RdfTypes

/-- The loop shared by the `Fixed` cases, `indexed_btree_dataset.rs` 987, 1081, 1188 and 1327,
`indexed_btree_graph.rs` 662, 707 and 763: `while let Some(j) = indexes.peek()`, skip `j` when it
is less than `i`. -/
def skipTo (i : Nat) : List Nat → List Nat
  | [] => []
  | j :: l => if j < i then skipTo i l else j :: l

/-- `Fixed` case of `next` in predicate, object and graph constraints (`indexed_btree_dataset.rs`
1080-1092, 1187-1199, 1326-1338; `indexed_btree_graph.rs` 706-718, 762-774). -/
def fixedNext (i : Nat) (l : List Nat) : List Nat × Except (Option Nat) Unit :=
  match skipTo i l with
  | [] => ([], .error none)
  | j :: l' => (j :: l', if j = i then .ok () else .error (some j))

/-- `SameAs…` cases of `next`, `indexed_btree_dataset.rs` 1073-1079, 1173-1186 and 1305-1325,
`indexed_btree_graph.rs` 699-705 and 748-761: `Err(i.checked_add(1))` unless the components are the
same slot. Simplification: the addition does not overflow. -/
def sameNext (i : Nat) (same : Bool) : Except (Option Nat) Unit :=
  if same then .ok () else .error (some (i + 1))

/-- `SubjectConstraints`, `indexed_btree_dataset.rs` 918-922, `indexed_btree_graph.rs` 640-644. -/
inductive SubjectConstraints where
  | none
  | any
  | fixed (l : List Nat)
  deriving DecidableEq, Repr

/-- `SubjectConstraints::next`, `indexed_btree_dataset.rs` 982-998, `indexed_btree_graph.rs`
657-673. -/
def SubjectConstraints.next (i : Nat) : SubjectConstraints → SubjectConstraints × Option Nat
  | .none => (.none, Option.none)
  | .any => (.any, some i)
  | .fixed l =>
    let l := skipTo i l
    (.fixed l, l.head?)

/-- `PredicateConstraints`, `indexed_btree_dataset.rs` 1001-1006, `indexed_btree_graph.rs`
676-681. -/
inductive PredicateConstraints where
  | none
  | any
  | sameAsSubject
  | fixed (l : List Nat)
  deriving DecidableEq, Repr

/-- `PredicateConstraints::next`, `indexed_btree_dataset.rs` 1069-1095, `indexed_btree_graph.rs`
695-721. -/
def PredicateConstraints.next (i s p : Nat) :
    PredicateConstraints → PredicateConstraints × Except (Option Nat) Unit
  | .none => (.none, .error Option.none)
  | .any => (.any, .ok ())
  | .sameAsSubject => (.sameAsSubject, sameNext i (s == p))
  | .fixed l =>
    let (l, r) := fixedNext i l
    (.fixed l, r)

/-- `ObjectConstraints`, `indexed_btree_dataset.rs` 1097-1103, `indexed_btree_graph.rs` 723-729. -/
inductive ObjectConstraints where
  | none
  | any
  | sameAsSubject
  | sameAsPredicate
  | fixed (l : List Nat)
  deriving DecidableEq, Repr

/-- `ObjectConstraints::next`, `indexed_btree_dataset.rs` 1169-1202, `indexed_btree_graph.rs`
744-777. -/
def ObjectConstraints.next (i s p o : Nat) :
    ObjectConstraints → ObjectConstraints × Except (Option Nat) Unit
  | .none => (.none, .error Option.none)
  | .any => (.any, .ok ())
  | .sameAsSubject => (.sameAsSubject, sameNext i (s == o))
  | .sameAsPredicate => (.sameAsPredicate, sameNext i (p == o))
  | .fixed l =>
    let (l, r) := fixedNext i l
    (.fixed l, r)

/-- `GraphConstraints`, `indexed_btree_dataset.rs` 1204-1211. -/
inductive GraphConstraints where
  | none
  | any
  | sameAsSubject
  | sameAsPredicate
  | sameAsObject
  | fixed (l : List Nat)
  deriving DecidableEq, Repr

/-- `GraphConstraints::next`, `indexed_btree_dataset.rs` 1301-1341. -/
def GraphConstraints.next (i : Nat) (q : Quad Nat) :
    GraphConstraints → GraphConstraints × Except (Option Nat) Unit
  | .none => (.none, .error Option.none)
  | .any => (.any, .ok ())
  | .sameAsSubject => (.sameAsSubject, sameNext i (some q.s == q.g))
  | .sameAsPredicate => (.sameAsPredicate, sameNext i (some q.p == q.g))
  | .sameAsObject => (.sameAsObject, sameNext i (some q.o == q.g))
  | .fixed l =>
    let (l, r) := fixedNext i l
    (.fixed l, r)

/-! ## Constraints from the parts of a pattern -/

section new

variable {R : Type} (get : R → Res (Option (IndexedResource R)))

/-- `match get_resource(r) { Some(x) => Fixed(x.as_…), None => None }`, `indexed_btree_dataset.rs`
928, 940, 1013, 1026, 1111, 1125, 1220 and 1238, and the graph. -/
def fixedOf {C : Type} (none : C) (fixed : List Nat → C) (p : Pos) (r : R) : Res C := do
  match ← get r with
  | some x => pure (fixed (x.at_ p))
  | Option.none => pure none

/-- `SubjectConstraints::{new, new_owned}`, `indexed_btree_dataset.rs` 925-953,
`indexed_btree_graph.rs` 647-655. -/
def SubjectConstraints.new : PatternSubject R → Res SubjectConstraints
  | .any => pure .any
  | .given r => fixedOf get .none .fixed .subj r

/-- `PredicateConstraints::{new, new_owned}`, `indexed_btree_dataset.rs` 1009-1039,
`indexed_btree_graph.rs` 684-693. -/
def PredicateConstraints.new : PatternPredicate R → Res PredicateConstraints
  | .any => pure .any
  | .sameAsSubject => pure .sameAsSubject
  | .given r => fixedOf get .none .fixed .pred r

/-- `ObjectConstraints::{new, new_owned}`, `indexed_btree_dataset.rs` 1106-1138,
`indexed_btree_graph.rs` 732-742. -/
def ObjectConstraints.new : PatternObject R → Res ObjectConstraints
  | .any => pure .any
  | .sameAsSubject => pure .sameAsSubject
  | .sameAsPredicate => pure .sameAsPredicate
  | .given r => fixedOf get .none .fixed .obj r

/-- `GraphConstraints::{new, new_owned}`, `indexed_btree_dataset.rs` 1214-1260. -/
def GraphConstraints.new (defaultGraph : NatSet) : PatternGraph R → Res GraphConstraints
  | .any => pure .any
  | .sameAsSubject => pure .sameAsSubject
  | .sameAsPredicate => pure .sameAsPredicate
  | .sameAsObject => pure .sameAsObject
  | .given (some r) => fixedOf get .none .fixed .graph r
  | .given Option.none => pure (.fixed defaultGraph)

/-- Insertion into an ascending list, keeping duplicates: a step of `sort_unstable`,
`indexed_btree_dataset.rs` 973, 1060, 1160 and 1283. -/
def insertSorted (i : Nat) : List Nat → List Nat
  | [] => [i]
  | j :: l => if i ≤ j then i :: j :: l else j :: insertSorted i l

/-- `Vec::sort_unstable` on indexes (std), `indexed_btree_dataset.rs` 973, 1060, 1160 and 1283.
Any sorting algorithm gives the same vector; this one is insertion sort. -/
def sortIndexes : List Nat → List Nat
  | [] => []
  | i :: l => insertSorted i (sortIndexes l)

/-- The loop `for r in multi { if let Some(x) = get_resource(r) { indexes.extend(x.as_…) } }`
(`indexed_btree_dataset.rs` 963-968, 1050-1055, 1150-1155, 1273-1278). -/
def multiIndexes (p : Pos) : List R → Res (List Nat)
  | [] => pure []
  | r :: rs => do
    let here ← get r
    let l ← multiIndexes p rs
    pure ((match here with
      | some x => x.at_ p
      | Option.none => []) ++ l)

/-- `if indexes.is_empty() { None } else { indexes.sort_unstable(); Fixed(indexes) }`,
`indexed_btree_dataset.rs` 970-975, 1057-1062, 1157-1162 and 1280-1285. -/
def fixedOfMulti {C : Type} (none : C) (fixed : List Nat → C) (p : Pos) (rs : List R) : Res C := do
  let l ← multiIndexes get p rs
  pure (if l.isEmpty then none else fixed (sortIndexes l))

/-- `SubjectConstraints::new_multi`, `indexed_btree_dataset.rs` 955-978. -/
def SubjectConstraints.newMulti : PatternSubject (List R) → Res SubjectConstraints
  | .any => pure .any
  | .given rs => fixedOfMulti get .none .fixed .subj rs

/-- `PredicateConstraints::new_multi`, `indexed_btree_dataset.rs` 1041-1065. -/
def PredicateConstraints.newMulti : PatternPredicate (List R) → Res PredicateConstraints
  | .any => pure .any
  | .sameAsSubject => pure .sameAsSubject
  | .given rs => fixedOfMulti get .none .fixed .pred rs

/-- `ObjectConstraints::new_multi`, `indexed_btree_dataset.rs` 1140-1165. -/
def ObjectConstraints.newMulti : PatternObject (List R) → Res ObjectConstraints
  | .any => pure .any
  | .sameAsSubject => pure .sameAsSubject
  | .sameAsPredicate => pure .sameAsPredicate
  | .given rs => fixedOfMulti get .none .fixed .obj rs

/-- `GraphConstraints::new_multi`, `indexed_btree_dataset.rs` 1262-1297. -/
def GraphConstraints.newMulti (defaultGraph : NatSet) :
    PatternGraph (List R) → Res GraphConstraints
  | .any => pure .any
  | .sameAsSubject => pure .sameAsSubject
  | .sameAsPredicate => pure .sameAsPredicate
  | .sameAsObject => pure .sameAsObject
  | .given (some rs) => fixedOfMulti get .none .fixed .graph rs
  | .given Option.none => pure (.fixed defaultGraph)

end new

/-! ## The iterators -/

/-- The fields of `PatternMatching`, `MultiPatternMatching` and `ExtractPatternMatching` that
change (`indexed_btree_dataset.rs` 804-812, 841-849, 878-885, `indexed_btree_graph.rs` 608-615):
`F` holds the predicate, object and (for the dataset) graph constraints. -/
structure Matcher (F : Type) where
  subject : SubjectConstraints
  filter : F
  i : Nat
  deriving DecidableEq, Repr

/-- Predicate, object and graph constraints of a dataset iterator, `indexed_btree_dataset.rs`
808-810, 845-847 and 881-883. -/
structure QuadFilter where
  predicate : PredicateConstraints
  object : ObjectConstraints
  graph : GraphConstraints
  deriving DecidableEq, Repr

/-- Predicate and object constraints of a graph iterator, `indexed_btree_graph.rs` 612-613. -/
structure TripleFilter where
  predicate : PredicateConstraints
  object : ObjectConstraints
  deriving DecidableEq, Repr

/-- The nested matches of `next`, `indexed_btree_dataset.rs` 821-833 (and 858-870, 894-908); each
`Err(j)` branch does the same with `j`. -/
def QuadFilter.next (i : Nat) (q : Quad Nat) (f : QuadFilter) :
    QuadFilter × Except (Option Nat) Unit :=
  match f.predicate.next i q.s q.p with
  | (p, .error j) => ({ f with predicate := p }, .error j)
  | (p, .ok ()) =>
    match f.object.next i q.s q.p q.o with
    | (o, .error j) => ({ f with predicate := p, object := o }, .error j)
    | (o, .ok ()) =>
      match f.graph.next i q with
      | (g, .error j) => (⟨p, o, g⟩, .error j)
      | (g, .ok ()) => (⟨p, o, g⟩, .ok ())

/-- The nested matches of `next`, `indexed_btree_graph.rs` 624-633. -/
def TripleFilter.next (i : Nat) (t : Triple Nat) (f : TripleFilter) :
    TripleFilter × Except (Option Nat) Unit :=
  match f.predicate.next i t.s t.p with
  | (p, .error j) => ({ f with predicate := p }, .error j)
  | (p, .ok ()) =>
    match f.object.next i t.s t.p t.o with
    | (o, .error j) => (⟨p, o⟩, .error j)
    | (o, .ok ()) => (⟨p, o⟩, .ok ())

/-- The `while` loop of `next`, `indexed_btree_dataset.rs` 817-837 (and 854-874, 890-912),
`indexed_btree_graph.rs` 620-637: the key and the stored statement of the next match. A `?` on
`None` ends the call. The first argument is fuel; `outOfFuel` stands for a loop that does not end.
-/
def Matcher.loop {F σ : Type} (get : Nat → Option σ)
    (filter : Nat → σ → F → F × Except (Option Nat) Unit) (cap : Nat) :
    Nat → Matcher F → Res (Option (Nat × σ) × Matcher F)
  | 0, m => if m.i < cap then .error .outOfFuel else .ok (none, m)
  | fuel + 1, m =>
    if m.i < cap then
      match m.subject.next m.i with
      | (s, none) => .ok (none, { m with subject := s })
      | (s, some i) =>
        match get i with
        | none => .ok (none, { m with subject := s })
        | some q =>
          match filter i q m.filter with
          | (f, .ok ()) => .ok (some (i, q), ⟨s, f, i + 1⟩)
          | (f, .error (some j)) => loop get filter cap fuel ⟨s, f, j⟩
          | (f, .error none) => .ok (none, ⟨s, f, m.i⟩)
    else .ok (none, m)

/-- Running an iterator to its end: the items, in order; for those of `indexed_btree_dataset.rs`
814-838, 851-875, `indexed_btree_graph.rs` 617-638. -/
def collectAll {M X : Type} (next : M → Res (Option X × M)) : Nat → M → Res (List X)
  | 0, _ => .error .outOfFuel
  | fuel + 1, m => do
    match ← next m with
    | (none, _) => pure []
    | (some x, m') => do
      let xs ← collectAll next fuel m'
      pure (x :: xs)

namespace IndexedBTreeDataset

variable {R : Type} [Ord R]

/-- `PatternMatching::next`, `indexed_btree_dataset.rs` 817-837, and `MultiPatternMatching::next`,
854-874. -/
def matchNext (cap : Nat) (d : IndexedBTreeDataset R) (m : Matcher QuadFilter) :
    Res (Option (Quad R) × Matcher QuadFilter) := do
  match ← m.loop d.quads.get QuadFilter.next cap cap with
  | (none, m') => pure (none, m')
  | (some (_, q), m') => do
    let x ← (indexOps R).quadWithResources d.resources q
    pure (some x, m')

/-- `pattern_matching`, `indexed_btree_dataset.rs` 434-444; the constraints of
`extract_pattern_matching`, 475-478,
are the same. -/
def matcher (d : IndexedBTreeDataset R) (pat : CanonicalQuadPattern R) :
    Res (Matcher QuadFilter) := do
  let s ← SubjectConstraints.new d.getResource pat.subject
  let p ← PredicateConstraints.new d.getResource pat.predicate
  let o ← ObjectConstraints.new d.getResource pat.object
  let g ← GraphConstraints.new d.getResource d.defaultGraph pat.graph
  pure ⟨s, ⟨p, o, g⟩, 0⟩

/-- `multi_pattern_matching`, `indexed_btree_dataset.rs` 448-466. The `IntoIterator`s of the
pattern are lists. -/
def multiMatcher (d : IndexedBTreeDataset R) (pat : CanonicalQuadPattern (List R)) :
    Res (Matcher QuadFilter) := do
  let (ps, pp, po, pg) := pat.intoParts
  let s ← SubjectConstraints.newMulti d.getResource ps
  let p ← PredicateConstraints.newMulti d.getResource pp
  let o ← ObjectConstraints.newMulti d.getResource po
  let g ← GraphConstraints.newMulti d.getResource d.defaultGraph pg
  pure ⟨s, ⟨p, o, g⟩, 0⟩

/-- `pattern_matching` run to the end; also `quad_pattern_matching`, `indexed_btree_dataset.rs`
620-625. -/
def patternMatching (cap : Nat) (d : IndexedBTreeDataset R) (pat : CanonicalQuadPattern R) :
    Res (List (Quad R)) := do
  let m ← d.matcher pat
  collectAll (d.matchNext cap) (cap + 1) m

/-- `multi_pattern_matching`, `indexed_btree_dataset.rs` 448-467, run to the end. -/
def multiPatternMatching (cap : Nat) (d : IndexedBTreeDataset R)
    (pat : CanonicalQuadPattern (List R)) : Res (List (Quad R)) := do
  let m ← d.multiMatcher pat
  collectAll (d.matchNext cap) (cap + 1) m

/-- `ExtractPatternMatching::next`, `indexed_btree_dataset.rs` 890-912. -/
def extractNext (cap : Nat) (d : IndexedBTreeDataset R) (m : Matcher QuadFilter) :
    Res (Option (Quad R) × Matcher QuadFilter × IndexedBTreeDataset R) := do
  match ← m.loop d.quads.get QuadFilter.next cap cap with
  | (none, m') => pure (none, m', d)
  | (some (i, q), m') => do
    let x ← (indexOps R).quadWithResources d.resources q
    let d' ← d.removeByIndex i true
    pure (some x, m', d')

/-- At most `n` calls to `ExtractPatternMatching::next`, `indexed_btree_dataset.rs` 890-912,
stopping at the first `None`: the dataset afterwards, the items, and whether `None` was returned.
-/
def extractLoop (cap : Nat) : Nat → IndexedBTreeDataset R → Matcher QuadFilter →
    Res (IndexedBTreeDataset R × List (Quad R) × Bool)
  | 0, d, _ => pure (d, [], false)
  | n + 1, d, m => do
    match ← d.extractNext cap m with
    | (none, _, d') => pure (d', [], true)
    | (some x, m', d') => do
      let (d'', xs, ended) ← extractLoop cap n d' m'
      pure (d'', x :: xs, ended)

/-- `extract_pattern_matching`, `indexed_btree_dataset.rs` 471-489, followed by at most `n` calls
to `next`. -/
def extractPatternMatching (cap : Nat) (d : IndexedBTreeDataset R)
    (pat : CanonicalQuadPattern R) (n : Nat) :
    Res (IndexedBTreeDataset R × List (Quad R) × Bool) := do
  let m ← d.matcher pat
  extractLoop cap n d m

end IndexedBTreeDataset

namespace IndexedBTreeGraph

variable {R : Type} [Ord R]

/-- `PatternMatching::next`, `indexed_btree_graph.rs` 620-637. -/
def matchNext (cap : Nat) (d : IndexedBTreeGraph R) (m : Matcher TripleFilter) :
    Res (Option (Triple R) × Matcher TripleFilter) := do
  match ← m.loop d.triples.get TripleFilter.next cap cap with
  | (none, m') => pure (none, m')
  | (some (_, t), m') => do
    let x ← (indexOps R).tripleWithResources d.resources t
    pure (some x, m')

/-- `pattern_matching`, `indexed_btree_graph.rs` 330-339. -/
def matcher (d : IndexedBTreeGraph R) (pat : CanonicalTriplePattern R) :
    Res (Matcher TripleFilter) := do
  let s ← SubjectConstraints.new d.getResource pat.subject
  let p ← PredicateConstraints.new d.getResource pat.predicate
  let o ← ObjectConstraints.new d.getResource pat.object
  pure ⟨s, ⟨p, o⟩, 0⟩

/-- `pattern_matching` run to the end; also `triple_pattern_matching`, `indexed_btree_graph.rs`
456-461. -/
def patternMatching (cap : Nat) (d : IndexedBTreeGraph R) (pat : CanonicalTriplePattern R) :
    Res (List (Triple R)) := do
  let m ← d.matcher pat
  collectAll (d.matchNext cap) (cap + 1) m

end IndexedBTreeGraph

end RdfTypes
