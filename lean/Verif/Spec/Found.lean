import Verif.Spec.Records
import Verif.Spec.Shelf

/-!
# What a search finds after any history

A search compares records rather than terms: a term given in the pattern stands for its
current record, and a repeated variable for two occurrences in the same record.
-/

namespace RdfTypes.Spec

variable {R S D P T : Type}

/-- What a pattern may ask of a statement: to have the same at two positions; to have
what is given at a position; to be in the default graph. -/
structure Ask (T : Type) where
  same : Pos → Pos → Prop
  given : T → Pos → Prop
  unnamed : Prop

namespace Ask

open QPat

variable (a : Ask T)

/-- The graph is given. -/
def graph : Option T → Prop
  | none => a.unnamed
  | some t => a.given t .graph

def anyAnyAny : AnySubjectAnyPredicateAnyObject T → Prop
  | .anyGraph => True
  | .sameAsSubject => a.same .subj .graph
  | .sameAsPredicate => a.same .pred .graph
  | .sameAsObject => a.same .obj .graph
  | .givenGraph g => a.graph g

def givenAnyAny : GivenSubjectAnyPredicateAnyObject T → Prop
  | .anyGraph => True
  | .sameAsPredicate => a.same .pred .graph
  | .sameAsObject => a.same .obj .graph
  | .givenGraph g => a.graph g

def anyGivenAny : AnySubjectGivenPredicateAnyObject T → Prop
  | .anyGraph => True
  | .sameAsSubject => a.same .subj .graph
  | .sameAsObject => a.same .obj .graph
  | .givenGraph g => a.graph g

def anyAnyGiven : AnySubjectAnyPredicateGivenObject T → Prop
  | .anyGraph => True
  | .sameAsSubject => a.same .subj .graph
  | .sameAsPredicate => a.same .pred .graph
  | .givenGraph g => a.graph g

def anyGivenGiven : AnySubjectGivenPredicateGivenObject T → Prop
  | .anyGraph => True
  | .sameAsSubject => a.same .subj .graph
  | .givenGraph g => a.graph g

def givenAnyGiven : GivenSubjectAnyPredicateGivenObject T → Prop
  | .anyGraph => True
  | .sameAsPredicate => a.same .pred .graph
  | .givenGraph g => a.graph g

def givenGivenAny : GivenSubjectGivenPredicateAnyObject T → Prop
  | .anyGraph => True
  | .sameAsObject => a.same .obj .graph
  | .givenGraph g => a.graph g

def givenGivenGiven : GivenSubjectGivenPredicateGivenObject T → Prop
  | .anyGraph => True
  | .givenGraph g => a.graph g

/-- A canonical quad pattern, by the names of the constructors. -/
def quad : CanonicalQuadPattern T → Prop
  | .anySubject (.anyPredicate o) =>
    match o with
    | .anyObject g => a.anyAnyAny g
    | .sameAsSubject g => a.same .subj .obj ∧ a.anyAnyGiven g
    | .sameAsPredicate g => a.same .pred .obj ∧ a.anyAnyGiven g
    | .givenObject x g => a.given x .obj ∧ a.anyAnyGiven g
  | .anySubject (.sameAsSubject o) =>
    a.same .subj .pred ∧
    match o with
    | .anyObject g => a.anyGivenAny g
    | .sameAsSubject g => a.same .subj .obj ∧ a.anyGivenGiven g
    | .givenObject x g => a.given x .obj ∧ a.anyGivenGiven g
  | .anySubject (.givenPredicate p o) =>
    a.given p .pred ∧
    match o with
    | .anyObject g => a.anyGivenAny g
    | .sameAsSubject g => a.same .subj .obj ∧ a.anyGivenGiven g
    | .givenObject x g => a.given x .obj ∧ a.anyGivenGiven g
  | .givenSubject s (.anyPredicate o) =>
    a.given s .subj ∧
    match o with
    | .anyObject g => a.givenAnyAny g
    | .sameAsPredicate g => a.same .pred .obj ∧ a.givenAnyGiven g
    | .givenObject x g => a.given x .obj ∧ a.givenAnyGiven g
  | .givenSubject s (.givenPredicate p o) =>
    a.given s .subj ∧ a.given p .pred ∧
    match o with
    | .anyObject g => a.givenGivenAny g
    | .givenObject x g => a.given x .obj ∧ a.givenGivenGiven g

/-- A canonical triple pattern. -/
def triple : CanonicalTriplePattern T → Prop
  | .anySubject (.anyPredicate o) =>
    match o with
    | .anyObject => True
    | .sameAsSubject => a.same .subj .obj
    | .sameAsPredicate => a.same .pred .obj
    | .givenObject x => a.given x .obj
  | .anySubject (.sameAsSubject o) =>
    a.same .subj .pred ∧
    match o with
    | .anyObject => True
    | .sameAsSubject => a.same .subj .obj
    | .givenObject x => a.given x .obj
  | .anySubject (.givenPredicate p o) =>
    a.given p .pred ∧
    match o with
    | .anyObject => True
    | .sameAsSubject => a.same .subj .obj
    | .givenObject x => a.given x .obj
  | .givenSubject s (.anyPredicate o) =>
    a.given s .subj ∧
    match o with
    | .anyObject => True
    | .sameAsPredicate => a.same .pred .obj
    | .givenObject x => a.given x .obj
  | .givenSubject s (.givenPredicate p o) =>
    a.given s .subj ∧ a.given p .pred ∧
    match o with
    | .anyObject => True
    | .givenObject x => a.given x .obj

end Ask

/-- Asking about the terms of a statement. -/
def askTerms (at_ : Pos → Option T) : Ask T where
  same p p' := at_ p' = at_ p
  given t p := at_ p = some t
  unnamed := at_ .graph = none

/-- Asking about the records of the terms of statement `x`. -/
def askRecords (at_ : S → Pos → Option R) (hs : R → Records S) (x : S) : Ask R where
  same p p' := ∃ r, ∃ g ∈ (hs r).groups, (x, p) ∈ g ∧ (x, p') ∈ g
  given r p := (x, p) ∈ (hs r).current
  unnamed := at_ x .graph = none

/-- The same, when lists of terms are given. -/
def askListed (at_ : S → Pos → Option R) (hs : R → Records S) (x : S) : Ask (List R) where
  same p p' := ∃ r, ∃ g ∈ (hs r).groups, (x, p) ∈ g ∧ (x, p') ∈ g
  given rs p := ∃ r ∈ rs, (x, p) ∈ (hs r).current
  unnamed := at_ x .graph = none

/-! ## Claims -/

/-- A search yields exactly the statements that `found` tells in the first places, in
the order of the places. -/
def SearchesRecords (Shelved : D → Shelf S → Prop) (Past : D → List (Event S) → Prop)
    (slots : D → Nat) (run : Nat → D → P → Res (List S))
    (found : List (Event S) → P → S → Prop) (subject gives repeats : P → Prop) : Prop :=
  ∀ d h l, Shelved d h → Past d l → ∀ cap, slots d ≤ cap → ∀ pat, ∃ xs n,
    run cap d pat = .ok xs ∧ Picks (found l pat) (h.places.take n) xs ∧
    GoesTo (found l pat) h.places (subject pat) (gives pat) (repeats pat) n

/-- A membership method answers true exactly when a statement has the term in its current
record at position `p`, and the first place is not empty (`first`) or no matter. -/
def AnswersByRecord [DecidableEq R] [DecidableEq S] (Shelved : D → Shelf S → Prop)
    (Past : D → List (Event S) → Prop) (rep : Bool) (at_ : S → Pos → Option R) (slots : D → Nat)
    (first : Bool) (p : Pos) (method : Nat → D → R → Res Bool) : Prop :=
  ∀ d h l, Shelved d h → Past d l → ∀ cap, slots d ≤ cap → ∀ r, ∃ b, method cap d r = .ok b ∧
    (b = true ↔ (first = true → h.places.head? ≠ some none) ∧
      ∃ y, (y, p) ∈ (recordsOf rep at_ r l).current)

/-- Membership of a statement by searching: true exactly when each of its occurrences is
in the current record of its term. -/
def AnswersByRecords [DecidableEq R] [DecidableEq S] (Shelved : D → Shelf S → Prop)
    (Past : D → List (Event S) → Prop) (rep : Bool) (at_ : S → Pos → Option R) (slots : D → Nat)
    (method : Nat → D → S → Res Bool) : Prop :=
  ∀ d h l, Shelved d h → Past d l → ∀ cap, slots d ≤ cap → ∀ x, ∃ b, method cap d x = .ok b ∧
    (b = true ↔ ∀ p r, at_ x p = some r → (x, p) ∈ (recordsOf rep at_ r l).current)

end RdfTypes.Spec
