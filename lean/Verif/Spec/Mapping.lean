import Verif.Model.Mapping

/-!
# What mapping with effects does

A statement or canonical pattern is a list of places, in the order subject,
predicate, object, graph. Mapping visits the places in this order and calls the
function once on each place where a term is given.

The specification reads the constructors of the pattern types by their names and
uses none of the functions of the model.
-/

namespace RdfTypes.Spec

/-- The first three places of a statement. -/
inductive Place where
  | subject
  | predicate
  | object
  deriving DecidableEq, Repr

/-- What is found in a place. -/
inductive Slot (T : Type) where
  /-- A variable of its own. -/
  | any
  /-- The variable of an earlier place. -/
  | sameAs (p : Place)
  /-- A term. -/
  | given (t : T)
  /-- The default graph. -/
  | default
  deriving DecidableEq, Repr

variable {m : Type → Type} [Monad m] {T U V : Type}

/-- Calling a function on what is found in a place: only if it is a term. -/
def Slot.visit (f : T → m U) : Slot T → m (Slot U)
  | .given t => Slot.given <$> f t
  | .any => pure .any
  | .sameAs p => pure (.sameAs p)
  | .default => pure .default

/-- Calling a function on each place in turn. -/
def visitAll (f : T → m U) : List (Slot T) → m (List (Slot U))
  | [] => pure []
  | x :: l => do
    let y ← x.visit f
    let k ← visitAll f l
    return y :: k

/-- One of two results in a place. -/
def Slot.first : Slot (U × V) → Slot U
  | .given t => .given t.1
  | .any => .any
  | .sameAs p => .sameAs p
  | .default => .default

/-- The other one. -/
def Slot.second : Slot (U × V) → Slot V
  | .given t => .given t.2
  | .any => .any
  | .sameAs p => .sameAs p
  | .default => .default

/-- The terms given in a list of places. -/
def givenTerms : List (Slot T) → List T
  | [] => []
  | .given t :: l => t :: givenTerms l
  | _ :: l => givenTerms l

/-- The place of a graph that is given. -/
def graphSlot : Option T → Slot T
  | some t => .given t
  | none => .default

/-- The places of a quad. -/
def quadSlots (q : Quad T) : List (Slot T) := [.given q.s, .given q.p, .given q.o, graphSlot q.g]

/-- The places of a triple. -/
def tripleSlots (t : Triple T) : List (Slot T) := [.given t.s, .given t.p, .given t.o]

namespace Slots

open QPat

/-- The last place of a pattern, from `AnySubjectAnyPredicateAnyObject`. -/
def anySubjectAnyPredicateAnyObject : AnySubjectAnyPredicateAnyObject T → List (Slot T)
  | .anyGraph => [.any]
  | .sameAsSubject => [.sameAs .subject]
  | .sameAsPredicate => [.sameAs .predicate]
  | .sameAsObject => [.sameAs .object]
  | .givenGraph g => [graphSlot g]

/-- The last place of a pattern, from `GivenSubjectAnyPredicateAnyObject`. -/
def givenSubjectAnyPredicateAnyObject : GivenSubjectAnyPredicateAnyObject T → List (Slot T)
  | .anyGraph => [.any]
  | .sameAsPredicate => [.sameAs .predicate]
  | .sameAsObject => [.sameAs .object]
  | .givenGraph g => [graphSlot g]

/-- The last place of a pattern, from `AnySubjectGivenPredicateAnyObject`. -/
def anySubjectGivenPredicateAnyObject : AnySubjectGivenPredicateAnyObject T → List (Slot T)
  | .anyGraph => [.any]
  | .sameAsSubject => [.sameAs .subject]
  | .sameAsObject => [.sameAs .object]
  | .givenGraph g => [graphSlot g]

/-- The last place of a pattern, from `AnySubjectAnyPredicateGivenObject`. -/
def anySubjectAnyPredicateGivenObject : AnySubjectAnyPredicateGivenObject T → List (Slot T)
  | .anyGraph => [.any]
  | .sameAsSubject => [.sameAs .subject]
  | .sameAsPredicate => [.sameAs .predicate]
  | .givenGraph g => [graphSlot g]

/-- The last place of a pattern, from `AnySubjectGivenPredicateGivenObject`. -/
def anySubjectGivenPredicateGivenObject : AnySubjectGivenPredicateGivenObject T → List (Slot T)
  | .anyGraph => [.any]
  | .sameAsSubject => [.sameAs .subject]
  | .givenGraph g => [graphSlot g]

/-- The last place of a pattern, from `GivenSubjectAnyPredicateGivenObject`. -/
def givenSubjectAnyPredicateGivenObject : GivenSubjectAnyPredicateGivenObject T → List (Slot T)
  | .anyGraph => [.any]
  | .sameAsPredicate => [.sameAs .predicate]
  | .givenGraph g => [graphSlot g]

/-- The last place of a pattern, from `GivenSubjectGivenPredicateAnyObject`. -/
def givenSubjectGivenPredicateAnyObject : GivenSubjectGivenPredicateAnyObject T → List (Slot T)
  | .anyGraph => [.any]
  | .sameAsObject => [.sameAs .object]
  | .givenGraph g => [graphSlot g]

/-- The last place of a pattern, from `GivenSubjectGivenPredicateGivenObject`. -/
def givenSubjectGivenPredicateGivenObject : GivenSubjectGivenPredicateGivenObject T → List (Slot T)
  | .anyGraph => [.any]
  | .givenGraph g => [graphSlot g]

/-- The last two places of a pattern, from `AnySubjectAnyPredicate`. -/
def anySubjectAnyPredicate : AnySubjectAnyPredicate T → List (Slot T)
  | .anyObject g => .any :: anySubjectAnyPredicateAnyObject g
  | .sameAsSubject g => .sameAs .subject :: anySubjectAnyPredicateGivenObject g
  | .sameAsPredicate g => .sameAs .predicate :: anySubjectAnyPredicateGivenObject g
  | .givenObject o g => .given o :: anySubjectAnyPredicateGivenObject g

/-- The last two places of a pattern, from `AnySubjectGivenPredicate`. -/
def anySubjectGivenPredicate : AnySubjectGivenPredicate T → List (Slot T)
  | .anyObject g => .any :: anySubjectGivenPredicateAnyObject g
  | .sameAsSubject g => .sameAs .subject :: anySubjectGivenPredicateGivenObject g
  | .givenObject o g => .given o :: anySubjectGivenPredicateGivenObject g

/-- The last two places of a pattern, from `GivenSubjectAnyPredicate`. -/
def givenSubjectAnyPredicate : GivenSubjectAnyPredicate T → List (Slot T)
  | .anyObject g => .any :: givenSubjectAnyPredicateAnyObject g
  | .sameAsPredicate g => .sameAs .predicate :: givenSubjectAnyPredicateGivenObject g
  | .givenObject o g => .given o :: givenSubjectAnyPredicateGivenObject g

/-- The last two places of a pattern, from `GivenSubjectGivenPredicate`. -/
def givenSubjectGivenPredicate : GivenSubjectGivenPredicate T → List (Slot T)
  | .anyObject g => .any :: givenSubjectGivenPredicateAnyObject g
  | .givenObject o g => .given o :: givenSubjectGivenPredicateGivenObject g

/-- The last three places of a pattern, from `AnySubject`. -/
def anySubject : AnySubject T → List (Slot T)
  | .anyPredicate o => .any :: anySubjectAnyPredicate o
  | .sameAsSubject o => .sameAs .subject :: anySubjectGivenPredicate o
  | .givenPredicate p o => .given p :: anySubjectGivenPredicate o

/-- The last three places of a pattern, from `GivenSubject`. -/
def givenSubject : GivenSubject T → List (Slot T)
  | .anyPredicate o => .any :: givenSubjectAnyPredicate o
  | .givenPredicate p o => .given p :: givenSubjectGivenPredicate o

end Slots

/-- The places of a canonical quad pattern. -/
def patternSlots : CanonicalQuadPattern T → List (Slot T)
  | .anySubject p => .any :: Slots.anySubject p
  | .givenSubject s p => .given s :: Slots.givenSubject p

/-- The term of a quad in one of its first three places. -/
def termAt (q : Quad T) : Place → T
  | .subject => q.s
  | .predicate => q.p
  | .object => q.o

/-- A place that allows a term in one of the first three places. -/
def Slot.allows (q : Quad T) (t : T) : Slot T → Prop
  | .any => True
  | .sameAs p => t = termAt q p
  | .given x => t = x
  | .default => False

/-- A place that allows a graph. -/
def Slot.allowsGraph (q : Quad T) : Slot T → Prop
  | .any => True
  | .sameAs p => q.g = some (termAt q p)
  | .given x => q.g = some x
  | .default => q.g = none

/-- The terms up to the first one that satisfies `bad`, this one included. -/
def untilBad (bad : T → Bool) : List T → List T
  | [] => []
  | t :: l => if bad t then [t] else t :: untilBad bad l

/-- A function that writes down its arguments and panics on those that satisfy `bad`. -/
def recording (bad : T → Bool) (e : Panic) (f : T → U) (t : T) :
    ExceptT Panic (StateM (List T)) U :=
  fun log => (if bad t then .error e else .ok (f t), log ++ [t])

/-- What such a function leaves behind after being called on some terms: it panics on the
first bad one, and has been called on the terms before and on this one. -/
def recorded {α : Type} (bad : T → Bool) (e : Panic) (ts : List T) (a : α) (log : List T) :
    Except Panic α × List T :=
  (if ts.any bad then .error e else .ok a, log ++ untilBad bad ts)

end RdfTypes.Spec
