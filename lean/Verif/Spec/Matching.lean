import Verif.Spec.Pattern
import Verif.Spec.Resources
import Verif.Model.Traits

/-!
# What users rely on about pattern matching
-/

namespace RdfTypes.Spec

variable {R S D P : Type}

/-! ## Patterns over lists of resources -/

namespace QuadMatch

open QPat

/-- A listed graph name, or the default graph. -/
def graphListed : Option (List R) → Quad R → Prop
  | none, q => q.g = none
  | some l, q => ∃ g ∈ l, q.g = some g

def anyAnyAny' : AnySubjectAnyPredicateAnyObject (List R) → Quad R → Prop
  | .anyGraph, _ => True
  | .sameAsSubject, q => q.g = some q.s
  | .sameAsPredicate, q => q.g = some q.p
  | .sameAsObject, q => q.g = some q.o
  | .givenGraph g, q => graphListed g q

def givenAnyAny' : GivenSubjectAnyPredicateAnyObject (List R) → Quad R → Prop
  | .anyGraph, _ => True
  | .sameAsPredicate, q => q.g = some q.p
  | .sameAsObject, q => q.g = some q.o
  | .givenGraph g, q => graphListed g q

def anyGivenAny' : AnySubjectGivenPredicateAnyObject (List R) → Quad R → Prop
  | .anyGraph, _ => True
  | .sameAsSubject, q => q.g = some q.s
  | .sameAsObject, q => q.g = some q.o
  | .givenGraph g, q => graphListed g q

def anyAnyGiven' : AnySubjectAnyPredicateGivenObject (List R) → Quad R → Prop
  | .anyGraph, _ => True
  | .sameAsSubject, q => q.g = some q.s
  | .sameAsPredicate, q => q.g = some q.p
  | .givenGraph g, q => graphListed g q

def anyGivenGiven' : AnySubjectGivenPredicateGivenObject (List R) → Quad R → Prop
  | .anyGraph, _ => True
  | .sameAsSubject, q => q.g = some q.s
  | .givenGraph g, q => graphListed g q

def givenAnyGiven' : GivenSubjectAnyPredicateGivenObject (List R) → Quad R → Prop
  | .anyGraph, _ => True
  | .sameAsPredicate, q => q.g = some q.p
  | .givenGraph g, q => graphListed g q

def givenGivenAny' : GivenSubjectGivenPredicateAnyObject (List R) → Quad R → Prop
  | .anyGraph, _ => True
  | .sameAsObject, q => q.g = some q.o
  | .givenGraph g, q => graphListed g q

def givenGivenGiven' : GivenSubjectGivenPredicateGivenObject (List R) → Quad R → Prop
  | .anyGraph, _ => True
  | .givenGraph g, q => graphListed g q

end QuadMatch

open QuadMatch

/-- The quads matched by a canonical pattern whose given positions hold lists of
resources: like `matchesQuad`, with a listed resource at each given position. -/
def matchesListed : CanonicalQuadPattern (List R) → Quad R → Prop
  | .anySubject (.anyPredicate o), q =>
    match o with
    | .anyObject g => anyAnyAny' g q
    | .sameAsSubject g => q.o = q.s ∧ anyAnyGiven' g q
    | .sameAsPredicate g => q.o = q.p ∧ anyAnyGiven' g q
    | .givenObject x g => q.o ∈ x ∧ anyAnyGiven' g q
  | .anySubject (.sameAsSubject o), q =>
    q.p = q.s ∧
    match o with
    | .anyObject g => anyGivenAny' g q
    | .sameAsSubject g => q.o = q.s ∧ anyGivenGiven' g q
    | .givenObject x g => q.o ∈ x ∧ anyGivenGiven' g q
  | .anySubject (.givenPredicate p o), q =>
    q.p ∈ p ∧
    match o with
    | .anyObject g => anyGivenAny' g q
    | .sameAsSubject g => q.o = q.s ∧ anyGivenGiven' g q
    | .givenObject x g => q.o ∈ x ∧ anyGivenGiven' g q
  | .givenSubject s (.anyPredicate o), q =>
    q.s ∈ s ∧
    match o with
    | .anyObject g => givenAnyAny' g q
    | .sameAsPredicate g => q.o = q.p ∧ givenAnyGiven' g q
    | .givenObject x g => q.o ∈ x ∧ givenAnyGiven' g q
  | .givenSubject s (.givenPredicate p o), q =>
    q.s ∈ s ∧ q.p ∈ p ∧
    match o with
    | .anyObject g => givenGivenAny' g q
    | .givenObject x g => q.o ∈ x ∧ givenGivenGiven' g q

/-- The pattern gives its subject. -/
def givesSubject {T : Type} : CanonicalQuadPattern T → Prop
  | .givenSubject _ _ => True
  | .anySubject _ => False

/-- The same for triple patterns. -/
def tripleGivesSubject {T : Type} : CanonicalTriplePattern T → Prop
  | .givenSubject _ _ => True
  | .anySubject _ => False

/-! ## Claims

`run cap d pat` collects the items of an iterator; `slots d ≤ cap` is what is known
of the capacity of the slab. -/

section claims

variable (Reach : D → (S → Prop) → Prop) (slots : D → Nat) (run : Nat → D → P → Res (List S))
  (wanted : P → S → Prop)

/-- The iterator ends without panic, and yields only contained statements that match,
each at most once. -/
def YieldsOnly : Prop :=
  ∀ d A, Reach d A → ∀ cap, slots d ≤ cap → ∀ pat, ∃ xs, run cap d pat = .ok xs ∧ xs.Nodup ∧
    ∀ y ∈ xs, A y ∧ wanted pat y

/-- The iterator yields all the contained statements that match, for the patterns in
`Pats`. -/
def YieldsAll (Pats : P → Prop) : Prop :=
  ∀ d A, Reach d A → ∀ cap, slots d ≤ cap → ∀ pat, Pats pat → ∀ y, A y → wanted pat y →
    ∃ xs, run cap d pat = .ok xs ∧ y ∈ xs

/-- In some reachable state a contained statement that matches the pattern is not
yielded, whatever the capacity. -/
def Misses (pat : P) : Prop :=
  ∃ d A y, Reach d A ∧ A y ∧ wanted pat y ∧ ∀ cap, slots d ≤ cap → ∃ xs, run cap d pat = .ok xs ∧
    y ∉ xs

end claims

/-- The number of slots in the slab of statements. -/
abbrev datasetSlots (d : IndexedBTreeDataset R) : Nat := d.quads.entries.length

abbrev graphSlots (d : IndexedBTreeGraph R) : Nat := d.triples.entries.length

/-- At most `n` items are taken from `extract_pattern_matching`: no panic, what is
taken matches, once each, and is exactly what disappears; fewer than `n` items only
at the end, which is reached. -/
def ExtractsOnly [Ord R] (Reach : IndexedBTreeDataset R → (Quad R → Prop) → Prop) : Prop :=
  ∀ d A, Reach d A → ∀ cap, datasetSlots d ≤ cap → ∀ pat n, ∃ d' xs ended,
    d.extractPatternMatching cap pat n = .ok (d', xs, ended) ∧ xs.Nodup ∧
    (∀ y ∈ xs, A y ∧ matchesQuad pat y) ∧
    (∀ y, ∃ b, d'.contains y = .ok b ∧ (b = true ↔ A y ∧ y ∉ xs)) ∧
    xs.length ≤ n ∧ (ended = false → xs.length = n) ∧ (cap < n → ended = true)

/-- After extraction to the end, no quad that is left matches. -/
def ExtractsAll [Ord R] (Reach : IndexedBTreeDataset R → (Quad R → Prop) → Prop)
    (Pats : CanonicalQuadPattern R → Prop) : Prop :=
  ∀ d A, Reach d A → ∀ cap, datasetSlots d ≤ cap → ∀ pat, Pats pat → ∀ n d' xs,
    d.extractPatternMatching cap pat n = .ok (d', xs, true) →
    ∀ y, d'.contains y = .ok true → ¬ matchesQuad pat y

/-! ## Provided methods -/

/-- The iterator, from the state `m`, yields exactly the items of the list, in order,
and then ends, without panic. -/
inductive Yields {M X : Type} (next : M → Res (Option X × M)) : M → List X → Prop
  | ends {m m' : M} : next m = .ok (none, m') → Yields next m []
  | item {m m' : M} {x : X} {xs : List X} : next m = .ok (some x, m') → Yields next m' xs →
    Yields next m (x :: xs)

section provided

variable (Reach : D → (S → Prop) → Prop) (slots : D → Nat)

/-- A membership method never panics and answers true only when a contained statement
satisfies `has`. -/
def AnswersTrueOnly (has : S → R → Prop) (method : Nat → D → R → Res Bool) : Prop :=
  ∀ d A, Reach d A → ∀ cap, slots d ≤ cap → ∀ r, ∃ b, method cap d r = .ok b ∧
    (b = true → ∃ y, A y ∧ has y r)

/-- A membership method answers true exactly when a contained statement satisfies
`has`. -/
def AnswersExactly (has : S → R → Prop) (method : Nat → D → R → Res Bool) : Prop :=
  ∀ d A, Reach d A → ∀ cap, slots d ≤ cap → ∀ r, ∃ b, method cap d r = .ok b ∧
    (b = true ↔ ∃ y, A y ∧ has y r)

/-- In some reachable state a membership method answers false although a contained
statement satisfies `has`, whatever the capacity. -/
def Denies (has : S → R → Prop) (method : Nat → D → R → Res Bool) : Prop :=
  ∃ d A r y, Reach d A ∧ A y ∧ has y r ∧ ∀ cap, slots d ≤ cap → method cap d r = .ok false

/-- A list of objects holds only (`all = False`), or exactly (`all = True`), the objects
for which the statement is contained, each once. -/
def ObjectsOf (all : Prop) (holds : R → Prop) (os : List R) : Prop :=
  os.Nodup ∧ (∀ o ∈ os, holds o) ∧ (all → ∀ o, holds o → o ∈ os)

/-- Each predicate listed comes with its objects, at least one; when `all`, the
predicates are exactly those with objects, each once. -/
def PredicatesOf (all : Prop) (holds : R → R → Prop) (out : List (R × List R)) : Prop :=
  (∀ p os, (p, os) ∈ out → os ≠ [] ∧ ObjectsOf all (holds p) os) ∧
  (all → (out.map (·.1)).Nodup ∧ ∀ p o, holds p o → p ∈ out.map (·.1))

/-- An iterator over objects (`run cap fuel d x`, with enough fuel) ends without panic
and satisfies `ObjectsOf`. -/
def YieldsObjects {X : Type} (all : Prop) (build : X → R → S)
    (run : Nat → Nat → D → X → Res (List R)) : Prop :=
  ∀ d A, Reach d A → ∀ cap, slots d ≤ cap → ∀ fuel, cap < fuel → ∀ x, ∃ os,
    run cap fuel d x = .ok os ∧ ObjectsOf all (fun o => A (build x o)) os

/-- The same for an iterator over predicates, each with its objects. -/
def YieldsPredicates {X : Type} (all : Prop) (build : X → R → R → S)
    (run : Nat → Nat → D → X → Res (List (R × List R))) : Prop :=
  ∀ d A, Reach d A → ∀ cap, slots d ≤ cap → ∀ fuel, cap < fuel → ∀ x, ∃ out,
    run cap fuel d x = .ok out ∧ PredicatesOf all (fun p o => A (build x p o)) out

end provided

/-! ## Graphs as datasets -/

/-- Matching is exact: any pattern yields, without panic and each once, the contained
statements that match. -/
def Exact {M : Type} (mt : Matching P S M) (holds : S → Prop) (wanted : P → S → Prop) : Prop :=
  ∀ pat, ∃ m xs, mt.start pat = .ok m ∧ Yields mt.next m xs ∧ xs.Nodup ∧
    ∀ y, y ∈ xs ↔ holds y ∧ wanted pat y

end RdfTypes.Spec
