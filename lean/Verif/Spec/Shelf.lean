import Verif.Spec.Matching

/-!
# Where statements are kept, and what a search goes through

A container keeps its statements in places, in an order that depends on the
history: a new statement goes to the place emptied last, and to a new place after
the others when no place is empty. A search that does not give the subject may
stop at an empty place, whatever comes after it.
-/

namespace RdfTypes.Spec

variable {R S D P T : Type}

/-- The places, and the empty ones, last emptied first. -/
structure Shelf (S : Type) where
  places : List (Option S)
  freed : List Nat

namespace Shelf

def empty : Shelf S := ⟨[], []⟩

/-- The statements kept. -/
def has (h : Shelf S) (x : S) : Prop := some x ∈ h.places

/-- A new statement goes to the place emptied last, or to a new place. -/
def put (h : Shelf S) (x : S) : Shelf S :=
  match h.freed with
  | k :: ks => ⟨h.places.set k (some x), ks⟩
  | [] => ⟨h.places ++ [some x], []⟩

/-- Place `k` is emptied. -/
def clear (h : Shelf S) (k : Nat) : Shelf S := ⟨h.places.set k none, k :: h.freed⟩

/-- What the insertion of `x` does. -/
def Adds (h : Shelf S) (x : S) (h' : Shelf S) : Prop :=
  (h.has x ∧ h' = h) ∨ (¬ h.has x ∧ h' = h.put x)

/-- What the removal of `x` does. -/
def Drops (h : Shelf S) (x : S) (h' : Shelf S) : Prop :=
  (¬ h.has x ∧ h' = h) ∨ ∃ k : Nat, h.places[k]? = some (some x) ∧ h' = h.clear k

/-- Successive removals. -/
inductive DropsAll : Shelf S → List S → Shelf S → Prop
  | nil {h : Shelf S} : DropsAll h [] h
  | cons {h h₁ h' : Shelf S} {x : S} {xs : List S} : h.has x → Drops h x h₁ → DropsAll h₁ xs h' →
    DropsAll h (x :: xs) h'

end Shelf

/-- `xs` are the statements satisfying `W` in the places `l`, in order. -/
inductive Picks (W : S → Prop) : List (Option S) → List S → Prop
  | nil : Picks W [] []
  | empty {l : List (Option S)} {xs : List S} : Picks W l xs → Picks W (none :: l) xs
  | other {x : S} {l : List (Option S)} {xs : List S} : ¬ W x → Picks W l xs →
    Picks W (some x :: l) xs
  | wanted {x : S} {l : List (Option S)} {xs : List S} : W x → Picks W l xs →
    Picks W (some x :: l) (x :: xs)

/-! ## Histories -/

/-- States of a plain container, with the places of the statements. -/
inductive PlainShelf (c : Container S D) (P : (S → Prop) → Op S → Prop) : D → Shelf S → Prop
  | new : PlainShelf c P c.empty .empty
  | insert {d d' : D} {h h' : Shelf S} {x : S} {b : Bool} :
    PlainShelf c P d h → P h.has (.insert x) → c.insert d x = .ok (d', b) → h.Adds x h' →
    PlainShelf c P d' h'
  | remove {d d' : D} {h h' : Shelf S} {x : S} {b : Bool} :
    PlainShelf c P d h → P h.has (.remove x) → c.remove d x = .ok (d', b) → h.Drops x h' →
    PlainShelf c P d' h'

/-- States of an `IndexedBTreeDataset`. The conversion keeps the places;
`remove_graph` takes the quads out in the order of their places, and
`extract_pattern_matching` in the order in which it yields them. -/
inductive DatasetShelf [Ord R] (rep : Bool) (P : (Quad R → Prop) → Op (Quad R) → Prop) :
    IndexedBTreeDataset R → Shelf (Quad R) → Prop
  | new : DatasetShelf rep P IndexedBTreeDataset.new .empty
  | convert {g : BTreeDataset R} {h : Shelf (Quad R)} {d : IndexedBTreeDataset R} :
    PlainShelf (BTreeDataset.container rep R) P g h → IndexedBTreeDataset.fromNonIndexed g = .ok d →
    DatasetShelf rep P d h
  | insert {d d' : IndexedBTreeDataset R} {h h' : Shelf (Quad R)} {x : Quad R} {b : Bool} :
    DatasetShelf rep P d h → P h.has (.insert x) → d.insert rep x = .ok (d', b) → h.Adds x h' →
    DatasetShelf rep P d' h'
  | remove {d d' : IndexedBTreeDataset R} {h h' : Shelf (Quad R)} {x : Quad R} {b : Bool} :
    DatasetShelf rep P d h → P h.has (.remove x) → d.remove x = .ok (d', b) → h.Drops x h' →
    DatasetShelf rep P d' h'
  | removeGraph {d d' : IndexedBTreeDataset R} {h h' : Shelf (Quad R)} {g : Option R}
      {out : Option (BTreeGraph R)} {xs : List (Quad R)} :
    DatasetShelf rep P d h → d.removeGraph rep g = .ok (d', out) →
    Picks (returned g out) h.places xs → h.DropsAll xs h' → DatasetShelf rep P d' h'
  | extract {d d' : IndexedBTreeDataset R} {h h' : Shelf (Quad R)} {pat : CanonicalQuadPattern R}
      {cap n : Nat} {xs : List (Quad R)} {ended : Bool} :
    DatasetShelf rep P d h → d.quads.entries.length ≤ cap →
    d.extractPatternMatching cap pat n = .ok (d', xs, ended) → h.DropsAll xs h' →
    DatasetShelf rep P d' h'

/-- States of an `IndexedBTreeGraph`. -/
inductive GraphShelf [Ord R] (rep : Bool) (P : (Triple R → Prop) → Op (Triple R) → Prop) :
    IndexedBTreeGraph R → Shelf (Triple R) → Prop
  | new : GraphShelf rep P IndexedBTreeGraph.new .empty
  | convert {g : BTreeGraph R} {h : Shelf (Triple R)} {d : IndexedBTreeGraph R} :
    PlainShelf (BTreeGraph.container rep R) P g h → IndexedBTreeGraph.fromNonIndexed g = .ok d →
    GraphShelf rep P d h
  | insert {d d' : IndexedBTreeGraph R} {h h' : Shelf (Triple R)} {x : Triple R} {b : Bool} :
    GraphShelf rep P d h → P h.has (.insert x) → d.insert rep x = .ok (d', b) → h.Adds x h' →
    GraphShelf rep P d' h'
  | remove {d d' : IndexedBTreeGraph R} {h h' : Shelf (Triple R)} {x : Triple R} {b : Bool} :
    GraphShelf rep P d h → P h.has (.remove x) → d.remove x = .ok (d', b) → h.Drops x h' →
    GraphShelf rep P d' h'

/-! ## Patterns -/

/-- The pattern gives a term or a graph at some position. -/
def givesPart : CanonicalQuadPattern T → Prop
  | .anySubject (.anyPredicate (.anyObject (.givenGraph _)))
  | .anySubject (.anyPredicate (.sameAsSubject (.givenGraph _)))
  | .anySubject (.anyPredicate (.sameAsPredicate (.givenGraph _)))
  | .anySubject (.sameAsSubject (.anyObject (.givenGraph _)))
  | .anySubject (.sameAsSubject (.sameAsSubject (.givenGraph _)))
  | .anySubject (.anyPredicate (.givenObject _ _))
  | .anySubject (.sameAsSubject (.givenObject _ _))
  | .anySubject (.givenPredicate _ _)
  | .givenSubject _ _ => True
  | _ => False

/-- The pattern asks for the same term at two positions. (`sameAsSubject` in
`AnySubject.sameAsSubject` is the predicate.) -/
def repeatsPart : CanonicalQuadPattern T → Prop
  | .anySubject (.anyPredicate (.anyObject .anyGraph))
  | .anySubject (.anyPredicate (.anyObject (.givenGraph _)))
  | .anySubject (.anyPredicate (.givenObject _ .anyGraph))
  | .anySubject (.anyPredicate (.givenObject _ (.givenGraph _)))
  | .anySubject (.givenPredicate _ (.anyObject .anyGraph))
  | .anySubject (.givenPredicate _ (.anyObject (.givenGraph _)))
  | .anySubject (.givenPredicate _ (.givenObject _ .anyGraph))
  | .anySubject (.givenPredicate _ (.givenObject _ (.givenGraph _)))
  | .givenSubject _ (.anyPredicate (.anyObject .anyGraph))
  | .givenSubject _ (.anyPredicate (.anyObject (.givenGraph _)))
  | .givenSubject _ (.anyPredicate (.givenObject _ .anyGraph))
  | .givenSubject _ (.anyPredicate (.givenObject _ (.givenGraph _)))
  | .givenSubject _ (.givenPredicate _ (.anyObject .anyGraph))
  | .givenSubject _ (.givenPredicate _ (.anyObject (.givenGraph _)))
  | .givenSubject _ (.givenPredicate _ (.givenObject _ _)) => False
  | _ => True

def tripleGivesPart : CanonicalTriplePattern T → Prop
  | .anySubject (.anyPredicate (.givenObject _))
  | .anySubject (.sameAsSubject (.givenObject _))
  | .anySubject (.givenPredicate _ _)
  | .givenSubject _ _ => True
  | _ => False

def tripleRepeatsPart : CanonicalTriplePattern T → Prop
  | .anySubject (.anyPredicate .anyObject)
  | .anySubject (.anyPredicate (.givenObject _))
  | .anySubject (.givenPredicate _ .anyObject)
  | .anySubject (.givenPredicate _ (.givenObject _))
  | .givenSubject _ (.anyPredicate .anyObject)
  | .givenSubject _ (.anyPredicate (.givenObject _))
  | .givenSubject _ (.givenPredicate _ _) => False
  | _ => True

/-! ## Searches -/

/-- Place `n` is empty, and comes first or just after a wanted statement. -/
def Barrier (W : S → Prop) (l : List (Option S)) (n : Nat) : Prop :=
  l[n]? = some none ∧ ∀ k, n = k + 1 → ∃ x, l[k]? = some (some x) ∧ W x

/-- How far a search goes: a pattern that gives its subject goes to the end. Otherwise
the search ends or stops at an empty place, which comes first or just after a
statement: the first one if nothing is given; the first one that comes first or just
after a match, if no term is repeated in the pattern. -/
structure GoesTo (W : S → Prop) (l : List (Option S)) (s g r : Prop) (n : Nat) :
    Prop where
  le : n ≤ l.length
  stop : n = l.length ∨ l[n]? = some none ∧ ∀ k, n = k + 1 → ∃ x, l[k]? = some (some x)
  subject : s → n = l.length
  nothingGiven : ¬ g → ∀ k : Nat, k < n → l[k]? ≠ some none
  noRepeat : ¬ r → ¬ s → (n = l.length ∨ Barrier W l n) ∧ ∀ k < n, ¬ Barrier W l k

/-- A search yields exactly the statements wanted in the first places, in the order
of the places. -/
def SearchesPlaces (Shelved : D → Shelf S → Prop) (slots : D → Nat)
    (run : Nat → D → P → Res (List S)) (wanted : P → S → Prop) (subject gives repeats : P → Prop) :
    Prop :=
  ∀ d h, Shelved d h → ∀ cap, slots d ≤ cap → ∀ pat, ∃ xs n, run cap d pat = .ok xs ∧
    Picks (wanted pat) (h.places.take n) xs ∧
    GoesTo (wanted pat) h.places (subject pat) (gives pat) (repeats pat) n

/-- A membership method answers true exactly when a statement satisfies `has` and
the first place is not empty. -/
def AnswersIfFirstFull (Shelved : D → Shelf S → Prop) (slots : D → Nat) (has : S → R → Prop)
    (method : Nat → D → R → Res Bool) : Prop :=
  ∀ d h, Shelved d h → ∀ cap, slots d ≤ cap → ∀ r, ∃ b, method cap d r = .ok b ∧
    (b = true ↔ h.places.head? ≠ some none ∧ ∃ y, h.has y ∧ has y r)

/-- `n` calls to the iterator of `extract_pattern_matching` yield the first `n` quads
that `pattern_matching` yields, in the same order, and reach the end exactly when
there are fewer than `n`. -/
def ExtractsWhatIsFound [Ord R] (Reach : IndexedBTreeDataset R → (Quad R → Prop) → Prop) : Prop :=
  ∀ d A, Reach d A → ∀ cap, datasetSlots d ≤ cap → ∀ pat n, ∃ xs d' ended,
    d.patternMatching cap pat = .ok xs ∧
    d.extractPatternMatching cap pat n = .ok (d', xs.take n, ended) ∧
    (ended = true ↔ xs.length < n)

end RdfTypes.Spec
