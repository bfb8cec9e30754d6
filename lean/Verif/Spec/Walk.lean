import Verif.Spec.Found

/-!
# The way of a search

A search that does not give the subject goes from place to place. At a statement it
tests the parts of the pattern in order: predicate, object, graph. When all hold it
yields the statement and goes to the next place. When a repeated term is the first part
to fail it also goes to the next place. When a given part is the first to fail it goes to
the next statement that has this part, and ends if there is none. It stops at an empty
place.
-/

namespace RdfTypes.Spec

variable {R S D P T : Type}

/-- A part of a pattern: whether it is given, and the statements that have it. -/
structure Test (S : Type) where
  given : Bool
  holds : S → Prop

/-- `t` is the first test that fails at `x`. -/
def FirstFailed (ts : List (Test S)) (x : S) (t : Test S) : Prop :=
  ∃ before after, ts = before ++ t :: after ∧ (∀ u ∈ before, u.holds x) ∧ ¬ t.holds x

/-- From place `i` of `l`, a search testing `ts` yields the statements `xs` and stops at
place `n`. -/
inductive Walk (ts : List (Test S)) (l : List (Option S)) : Nat → List S → Nat → Prop
  | past {i : Nat} : l.length ≤ i → Walk ts l i [] l.length
  | hole {i : Nat} : l[i]? = some none → Walk ts l i [] i
  | found {i n : Nat} {x : S} {xs : List S} : l[i]? = some (some x) → (∀ t ∈ ts, t.holds x) →
    Walk ts l (i + 1) xs n → Walk ts l i (x :: xs) n
  | next {i n : Nat} {x : S} {xs : List S} {t : Test S} : l[i]? = some (some x) →
    FirstFailed ts x t → t.given = false → Walk ts l (i + 1) xs n → Walk ts l i xs n
  | jump {i j n : Nat} {x y : S} {xs : List S} {t : Test S} : l[i]? = some (some x) →
    FirstFailed ts x t → t.given = true → i < j → l[j]? = some (some y) → t.holds y →
    (∀ (k : Nat) (z : S), i < k → k < j → l[k]? = some (some z) → ¬ t.holds z) → Walk ts l j xs n →
    Walk ts l i xs n
  | gone {i : Nat} {x : S} {t : Test S} : l[i]? = some (some x) → FirstFailed ts x t →
    t.given = true → (∀ (k : Nat) (z : S), i < k → l[k]? = some (some z) → ¬ t.holds z) →
    Walk ts l i [] l.length

/-! ## The parts of a pattern, in the order of the tests -/

section tests

open QPat TPat

variable (a : S → Ask T)

def sameTest (p p' : Pos) : Test S := ⟨false, fun x => (a x).same p p'⟩
def givenTest (t : T) (p : Pos) : Test S := ⟨true, fun x => (a x).given t p⟩
def graphTest (g : Option T) : Test S := ⟨true, fun x => (a x).graph g⟩

def anyAnyAnyTests : AnySubjectAnyPredicateAnyObject T → List (Test S)
  | .anyGraph => []
  | .sameAsSubject => [sameTest a .subj .graph]
  | .sameAsPredicate => [sameTest a .pred .graph]
  | .sameAsObject => [sameTest a .obj .graph]
  | .givenGraph g => [graphTest a g]

def anyGivenAnyTests : AnySubjectGivenPredicateAnyObject T → List (Test S)
  | .anyGraph => []
  | .sameAsSubject => [sameTest a .subj .graph]
  | .sameAsObject => [sameTest a .obj .graph]
  | .givenGraph g => [graphTest a g]

def anyAnyGivenTests : AnySubjectAnyPredicateGivenObject T → List (Test S)
  | .anyGraph => []
  | .sameAsSubject => [sameTest a .subj .graph]
  | .sameAsPredicate => [sameTest a .pred .graph]
  | .givenGraph g => [graphTest a g]

def anyGivenGivenTests : AnySubjectGivenPredicateGivenObject T → List (Test S)
  | .anyGraph => []
  | .sameAsSubject => [sameTest a .subj .graph]
  | .givenGraph g => [graphTest a g]

def anyAnyTests : QPat.AnySubjectAnyPredicate T → List (Test S)
  | .anyObject g => anyAnyAnyTests a g
  | .sameAsSubject g => sameTest a .subj .obj :: anyAnyGivenTests a g
  | .sameAsPredicate g => sameTest a .pred .obj :: anyAnyGivenTests a g
  | .givenObject o g => givenTest a o .obj :: anyAnyGivenTests a g

def anyGivenTests : QPat.AnySubjectGivenPredicate T → List (Test S)
  | .anyObject g => anyGivenAnyTests a g
  | .sameAsSubject g => sameTest a .subj .obj :: anyGivenGivenTests a g
  | .givenObject o g => givenTest a o .obj :: anyGivenGivenTests a g

/-- The tests of a quad pattern that does not give the subject. -/
def quadTests : QPat.AnySubject T → List (Test S)
  | .anyPredicate o => anyAnyTests a o
  | .sameAsSubject o => sameTest a .subj .pred :: anyGivenTests a o
  | .givenPredicate p o => givenTest a p .pred :: anyGivenTests a o

def tripleAnyAnyTests : TPat.AnySubjectAnyPredicate T → List (Test S)
  | .anyObject => []
  | .sameAsSubject => [sameTest a .subj .obj]
  | .sameAsPredicate => [sameTest a .pred .obj]
  | .givenObject o => [givenTest a o .obj]

def tripleAnyGivenTests : TPat.AnySubjectGivenPredicate T → List (Test S)
  | .anyObject => []
  | .sameAsSubject => [sameTest a .subj .obj]
  | .givenObject o => [givenTest a o .obj]

/-- The tests of a triple pattern that does not give the subject. -/
def tripleTests : TPat.AnySubject T → List (Test S)
  | .anyPredicate o => tripleAnyAnyTests a o
  | .sameAsSubject o => sameTest a .subj .pred :: tripleAnyGivenTests a o
  | .givenPredicate p o => givenTest a p .pred :: tripleAnyGivenTests a o

end tests

/-- Asking about the terms of a statement, when lists of terms are given. -/
def askListedTerms (at_ : Pos → Option T) : Ask (List T) where
  same p p' := at_ p' = at_ p
  given ts p := ∃ t ∈ ts, at_ p = some t
  unnamed := at_ .graph = none

/-! ## Claims -/

/-- A search for the pattern `pat`, which does not give the subject, yields the statements of
the walk through the places from the first. -/
def WalksPlaces {Q : Type} (Shelved : D → Shelf S → Prop) (slots : D → Nat)
    (run : Nat → D → Q → Res (List S)) (tests : Q → List (Test S)) : Prop :=
  ∀ d h, Shelved d h → ∀ cap, slots d ≤ cap → ∀ pat, ∃ xs n, run cap d pat = .ok xs ∧
    Walk (tests pat) h.places 0 xs n

/-- The same, when what is tested depends on the events so far. -/
def WalksRecords {Q : Type} (Shelved : D → Shelf S → Prop) (Past : D → List (Event S) → Prop)
    (slots : D → Nat) (run : Nat → D → Q → Res (List S))
    (tests : List (Event S) → Q → List (Test S)) : Prop :=
  ∀ d h l, Shelved d h → Past d l → ∀ cap, slots d ≤ cap → ∀ pat, ∃ xs n,
    run cap d pat = .ok xs ∧ Walk (tests l pat) h.places 0 xs n

end RdfTypes.Spec
