import Verif.Model.Statement

/-!
# Canonical triple patterns (`/repo/src/pattern/triple/canonical.rs`)

Line numbers refer to that file unless another one is given. A function taking
`&mut self` and returning a value `x` becomes a function returning the pair of
`x` and the new value. The accessors by reference (`subject`, `predicate`,
`object`) and by value (`into_subject`, ...) have the same text and are modelled
once.
-/

namespace RdfTypes

/-- `ResourceOrVar`, `pattern/resource_or_variable.rs` 4-7. -/
inductive ResourceOrVar (T X : Type) where
  | resource (t : T)
  | var (x : X)
  deriving DecidableEq, Repr

/-- `ResourceOrVar::map`, `pattern/resource_or_variable.rs` 10-15. -/
def ResourceOrVar.map {T U X : Type} (f : T → U) : ResourceOrVar T X → ResourceOrVar U X
  | .resource t => .resource (f t)
  | .var x => .var x

/-- `ResourceOrVar::is_id_or`, `pattern/resource_or_variable.rs` 24-29. -/
def ResourceOrVar.isIdOr {T X : Type} (f : X → Bool) : ResourceOrVar T X → Bool
  | .resource _ => true
  | .var x => f x

/-- `TriplePattern`, `pattern/mod.rs` 13. -/
abbrev TriplePattern (T X : Type) := Triple (ResourceOrVar T X)

/-- `QuadPattern`, `pattern/mod.rs` 16. -/
abbrev QuadPattern (T X : Type) := Quad (ResourceOrVar T X)

/-- `PatternSubject`, 361-365; also `quad/canonical.rs` 247-251. -/
inductive PatternSubject (T : Type) where
  | any
  | given (t : T)
  deriving DecidableEq, Repr

/-- `PatternSubject::{id, into_id}`, 367-381; also `quad/canonical.rs` 254-266. -/
def PatternSubject.id {T : Type} : PatternSubject T → Option T
  | .any => none
  | .given t => some t

/-- `PatternPredicate`, 395-400; also `quad/canonical.rs` 281-286. -/
inductive PatternPredicate (T : Type) where
  | any
  | sameAsSubject
  | given (t : T)
  deriving DecidableEq, Repr

/-- `PatternPredicate::{id, into_id}`, 402-418; also `quad/canonical.rs` 289-303. -/
def PatternPredicate.id {T : Type} : PatternPredicate T → Option T
  | .any => none
  | .sameAsSubject => none
  | .given t => some t

/-- `PatternObject`, 433-439; also `quad/canonical.rs` 319-325. -/
inductive PatternObject (T : Type) where
  | any
  | sameAsSubject
  | sameAsPredicate
  | given (t : T)
  deriving DecidableEq, Repr

/-- `PatternObject::{id, into_id}`, 441-455; also `quad/canonical.rs` 328-340. -/
def PatternObject.id {T : Type} : PatternObject T → Option T
  | .given t => some t
  | _ => none

/-- `PatternObject::filter_triple`, `triple/canonical.rs` 471-480. -/
def PatternObject.filterTriple {T : Type} [DecidableEq T] (t : Triple T) : PatternObject T → Bool
  | .any => true
  | .sameAsSubject => t.o = t.s
  | .sameAsPredicate => t.o = t.p
  | .given id => t.o = id

namespace TPat

/-! The nested enumerations, from the innermost. -/

/-- `AnySubjectAnyPredicate`, `triple/canonical.rs` 629-635. -/
inductive AnySubjectAnyPredicate (T : Type) where
  | anyObject
  | sameAsSubject
  | sameAsPredicate
  | givenObject (o : T)
  deriving DecidableEq, Repr

namespace AnySubjectAnyPredicate

variable {T X : Type}

/-- `from_option`, `triple/canonical.rs` 638-643. -/
def fromOption : Option T → AnySubjectAnyPredicate T
  | some o => .givenObject o
  | none => .anyObject

/-- `from_pattern`, `triple/canonical.rs` 645-658. -/
def fromPattern [DecidableEq X] (s p : X) : ResourceOrVar T X → AnySubjectAnyPredicate T
  | .resource o => .givenObject o
  | .var o => if o = s then .sameAsSubject else if o = p then .sameAsPredicate else .anyObject

/-- `object`, `into_object`, `triple/canonical.rs` 678-694. -/
def object : AnySubjectAnyPredicate T → PatternObject T
  | .anyObject => .any
  | .sameAsSubject => .sameAsSubject
  | .sameAsPredicate => .sameAsPredicate
  | .givenObject o => .given o

/-- `set_object`, `triple/canonical.rs` 696-698. -/
def setObject (x : AnySubjectAnyPredicate T) (t : T) :
    PatternObject T × AnySubjectAnyPredicate T := (x.object, .givenObject t)

end AnySubjectAnyPredicate

/-- `AnySubjectGivenPredicate`, `triple/canonical.rs` 701-706. -/
inductive AnySubjectGivenPredicate (T : Type) where
  | anyObject
  | sameAsSubject
  | givenObject (o : T)
  deriving DecidableEq, Repr

namespace AnySubjectGivenPredicate

variable {T X : Type}

/-- `from_option`, `triple/canonical.rs` 709-714. -/
def fromOption : Option T → AnySubjectGivenPredicate T
  | some o => .givenObject o
  | none => .anyObject

/-- `from_pattern`, `triple/canonical.rs` 716-727. -/
def fromPattern [DecidableEq X] (s : X) : ResourceOrVar T X → AnySubjectGivenPredicate T
  | .resource o => .givenObject o
  | .var o => if o = s then .sameAsSubject else .anyObject

/-- `object`, `into_object`, `triple/canonical.rs` 744-758. -/
def object : AnySubjectGivenPredicate T → PatternObject T
  | .anyObject => .any
  | .sameAsSubject => .sameAsSubject
  | .givenObject o => .given o

/-- `set_object`, `triple/canonical.rs` 760-762. -/
def setObject (x : AnySubjectGivenPredicate T) (t : T) :
    PatternObject T × AnySubjectGivenPredicate T := (x.object, .givenObject t)

end AnySubjectGivenPredicate

/-- `GivenSubjectAnyPredicate`, `triple/canonical.rs` 874-879. -/
inductive GivenSubjectAnyPredicate (T : Type) where
  | anyObject
  | sameAsPredicate
  | givenObject (o : T)
  deriving DecidableEq, Repr

namespace GivenSubjectAnyPredicate

variable {T X : Type}

/-- `from_option`, `triple/canonical.rs` 882-887. -/
def fromOption : Option T → GivenSubjectAnyPredicate T
  | some o => .givenObject o
  | none => .anyObject

/-- `from_pattern`, `triple/canonical.rs` 889-900. -/
def fromPattern [DecidableEq X] (p : X) : ResourceOrVar T X → GivenSubjectAnyPredicate T
  | .resource o => .givenObject o
  | .var o => if p = o then .sameAsPredicate else .anyObject

/-- `object`, `into_object`, `triple/canonical.rs` 924-938. -/
def object : GivenSubjectAnyPredicate T → PatternObject T
  | .anyObject => .any
  | .sameAsPredicate => .sameAsPredicate
  | .givenObject o => .given o

/-- `set_object`, `triple/canonical.rs` 940-942. -/
def setObject (x : GivenSubjectAnyPredicate T) (t : T) :
    PatternObject T × GivenSubjectAnyPredicate T := (x.object, .givenObject t)

end GivenSubjectAnyPredicate

/-- `GivenSubjectGivenPredicate`, `triple/canonical.rs` 945-949. -/
inductive GivenSubjectGivenPredicate (T : Type) where
  | anyObject
  | givenObject (o : T)
  deriving DecidableEq, Repr

namespace GivenSubjectGivenPredicate

variable {T X : Type}

/-- `from_option`, `triple/canonical.rs` 952-957. -/
def fromOption : Option T → GivenSubjectGivenPredicate T
  | some o => .givenObject o
  | none => .anyObject

/-- `from_pattern`, `triple/canonical.rs` 959-964. -/
def fromPattern : ResourceOrVar T X → GivenSubjectGivenPredicate T
  | .resource o => .givenObject o
  | .var _ => .anyObject

/-- `object`, `into_object`, `triple/canonical.rs` 985-997. -/
def object : GivenSubjectGivenPredicate T → PatternObject T
  | .anyObject => .any
  | .givenObject o => .given o

/-- `set_object`, `triple/canonical.rs` 999-1001. -/
def setObject (x : GivenSubjectGivenPredicate T) (t : T) :
    PatternObject T × GivenSubjectGivenPredicate T := (x.object, .givenObject t)

end GivenSubjectGivenPredicate

/-- `AnySubject`, `triple/canonical.rs` 482-487. -/
inductive AnySubject (T : Type) where
  | anyPredicate (o : AnySubjectAnyPredicate T)
  | sameAsSubject (o : AnySubjectGivenPredicate T)
  | givenPredicate (p : T) (o : AnySubjectGivenPredicate T)
  deriving DecidableEq, Repr

namespace AnySubject

variable {T X : Type}

/-- `from_option_triple`, `triple/canonical.rs` 490-495. -/
def fromOptionTriple (p o : Option T) : AnySubject T :=
  match p with
  | some p => .givenPredicate p (.fromOption o)
  | none => .anyPredicate (.fromOption o)

/-- `from_pattern`, `triple/canonical.rs` 497-514. -/
def fromPattern [DecidableEq X] (s : X) (p o : ResourceOrVar T X) : AnySubject T :=
  match p with
  | .resource p => .givenPredicate p (.fromPattern s o)
  | .var p => if p = s then .sameAsSubject (.fromPattern s o) else .anyPredicate (.fromPattern s p o)

/-- `predicate`, `into_predicate`, `triple/canonical.rs` 528-542. -/
def predicate : AnySubject T → PatternPredicate T
  | .anyPredicate _ => .any
  | .sameAsSubject _ => .sameAsSubject
  | .givenPredicate p _ => .given p

/-- `object`, `into_object`, `triple/canonical.rs` 544-558. -/
def object : AnySubject T → PatternObject T
  | .anyPredicate o => o.object
  | .sameAsSubject o => o.object
  | .givenPredicate _ o => o.object

/-- `set_predicate`, `triple/canonical.rs` 560-598. -/
def setPredicate (x : AnySubject T) (p : T) : PatternPredicate T × AnySubject T :=
  match x with
  | .anyPredicate .anyObject => (.any, .givenPredicate p .anyObject)
  | .anyPredicate .sameAsSubject => (.any, .givenPredicate p .anyObject)
  | .anyPredicate .sameAsPredicate => (.any, .givenPredicate p (.givenObject p))
  | .anyPredicate (.givenObject o) => (.any, .givenPredicate p (.givenObject o))
  | .sameAsSubject .anyObject => (.sameAsSubject, .givenPredicate p .anyObject)
  | .sameAsSubject .sameAsSubject => (.sameAsSubject, .givenPredicate p (.givenObject p))
  | .sameAsSubject (.givenObject o) => (.sameAsSubject, .givenPredicate p (.givenObject o))
  | .givenPredicate p' o => (.given p', .givenPredicate p o)

/-- `set_object`, `triple/canonical.rs` 600-626. -/
def setObject (x : AnySubject T) (o : T) : PatternObject T × AnySubject T :=
  match x with
  | .anyPredicate .sameAsPredicate => (.any, .givenPredicate o (.givenObject o))
  | .anyPredicate o' => ((o'.setObject o).1, .anyPredicate (o'.setObject o).2)
  | .sameAsSubject .sameAsSubject => (.sameAsSubject, .givenPredicate o (.givenObject o))
  | .sameAsSubject o' => ((o'.setObject o).1, .sameAsSubject (o'.setObject o).2)
  | .givenPredicate p o' => ((o'.setObject o).1, .givenPredicate p (o'.setObject o).2)

end AnySubject

/-- `GivenSubject`, `triple/canonical.rs` 765-769. -/
inductive GivenSubject (T : Type) where
  | anyPredicate (o : GivenSubjectAnyPredicate T)
  | givenPredicate (p : T) (o : GivenSubjectGivenPredicate T)
  deriving DecidableEq, Repr

namespace GivenSubject

variable {T X : Type}

/-- `from_option_triple`, `triple/canonical.rs` 772-777. -/
def fromOptionTriple (p o : Option T) : GivenSubject T :=
  match p with
  | some p => .givenPredicate p (.fromOption o)
  | none => .anyPredicate (.fromOption o)

/-- `from_pattern`, `triple/canonical.rs` 779-788. -/
def fromPattern [DecidableEq X] (p o : ResourceOrVar T X) : GivenSubject T :=
  match p with
  | .resource p => .givenPredicate p (.fromPattern o)
  | .var p => .anyPredicate (.fromPattern p o)

/-- `predicate`, `into_predicate`, `triple/canonical.rs` 801-813. -/
def predicate : GivenSubject T → PatternPredicate T
  | .anyPredicate _ => .any
  | .givenPredicate p _ => .given p

/-- `object`, `into_object`, `triple/canonical.rs` 815-827. -/
def object : GivenSubject T → PatternObject T
  | .anyPredicate o => o.object
  | .givenPredicate _ o => o.object

/-- `set_predicate`, `triple/canonical.rs` 829-851. -/
def setPredicate (x : GivenSubject T) (p : T) : PatternPredicate T × GivenSubject T :=
  match x with
  | .anyPredicate .sameAsPredicate => (.any, .givenPredicate p (.givenObject p))
  | .anyPredicate .anyObject => (.any, .givenPredicate p .anyObject)
  | .anyPredicate (.givenObject o) => (.any, .givenPredicate p (.givenObject o))
  | .givenPredicate p' o => (.given p', .givenPredicate p o)

/-- `set_object`, `triple/canonical.rs` 853-871. -/
def setObject (x : GivenSubject T) (o : T) : PatternObject T × GivenSubject T :=
  match x with
  | .anyPredicate .sameAsPredicate => (.any, .givenPredicate o (.givenObject o))
  | .anyPredicate o' => ((o'.setObject o).1, .anyPredicate (o'.setObject o).2)
  | .givenPredicate p o' => ((o'.setObject o).1, .givenPredicate p (o'.setObject o).2)

end GivenSubject

end TPat

open TPat

/-- `CanonicalTriplePattern`, `triple/canonical.rs` 9-13. -/
inductive CanonicalTriplePattern (T : Type) where
  | anySubject (p : AnySubject T)
  | givenSubject (s : T) (p : GivenSubject T)
  deriving DecidableEq, Repr

namespace CanonicalTriplePattern

variable {T X : Type}

/-- `from_triple`, `triple/canonical.rs` 34-42. -/
def fromTriple (t : Triple T) : CanonicalTriplePattern T :=
  .givenSubject t.s (.givenPredicate t.p (.givenObject t.o))

/-- `from_option_triple`, `triple/canonical.rs` 44-49. -/
def fromOptionTriple (t : Triple (Option T)) : CanonicalTriplePattern T :=
  match t.s with
  | some s => .givenSubject s (.fromOptionTriple t.p t.o)
  | none => .anySubject (.fromOptionTriple t.p t.o)

/-- `from_pattern`, `triple/canonical.rs` 51-60. -/
def fromPattern [DecidableEq X] (t : TriplePattern T X) : CanonicalTriplePattern T :=
  match t.s with
  | .resource s => .givenSubject s (.fromPattern t.p t.o)
  | .var s => .anySubject (.fromPattern s t.p t.o)

/-- `subject`, `into_subject`, `triple/canonical.rs` 69-81. -/
def subject : CanonicalTriplePattern T → PatternSubject T
  | .anySubject _ => .any
  | .givenSubject s _ => .given s

/-- `predicate`, `into_predicate`, `triple/canonical.rs` 83-95. -/
def predicate : CanonicalTriplePattern T → PatternPredicate T
  | .anySubject p => p.predicate
  | .givenSubject _ p => p.predicate

/-- `object`, `into_object`, `triple/canonical.rs` 97-109. -/
def object : CanonicalTriplePattern T → PatternObject T
  | .anySubject p => p.object
  | .givenSubject _ p => p.object

/-- `set_subject`, `triple/canonical.rs` 111-255. -/
def setSubject (x : CanonicalTriplePattern T) (s : T) :
    PatternSubject T × CanonicalTriplePattern T :=
  match x with
  | .anySubject (.anyPredicate .anyObject) => (.any, .givenSubject s (.anyPredicate .anyObject))
  | .anySubject (.anyPredicate .sameAsSubject) =>
    (.any, .givenSubject s (.anyPredicate (.givenObject s)))
  | .anySubject (.anyPredicate .sameAsPredicate) =>
    (.any, .givenSubject s (.anyPredicate .sameAsPredicate))
  | .anySubject (.anyPredicate (.givenObject o)) =>
    (.any, .givenSubject s (.anyPredicate (.givenObject o)))
  | .anySubject (.sameAsSubject .anyObject) =>
    (.any, .givenSubject s (.givenPredicate s .anyObject))
  | .anySubject (.sameAsSubject .sameAsSubject) =>
    (.any, .givenSubject s (.givenPredicate s (.givenObject s)))
  | .anySubject (.sameAsSubject (.givenObject o)) =>
    (.any, .givenSubject s (.givenPredicate s (.givenObject o)))
  | .anySubject (.givenPredicate p .anyObject) =>
    (.any, .givenSubject s (.givenPredicate p .anyObject))
  | .anySubject (.givenPredicate p .sameAsSubject) =>
    (.any, .givenSubject s (.givenPredicate p (.givenObject s)))
  | .anySubject (.givenPredicate p (.givenObject o)) =>
    (.any, .givenSubject s (.givenPredicate p (.givenObject o)))
  | .givenSubject s' (.anyPredicate .anyObject) =>
    (.given s', .givenSubject s (.anyPredicate .anyObject))
  | .givenSubject s' (.anyPredicate .sameAsPredicate) =>
    (.given s', .givenSubject s (.anyPredicate .sameAsPredicate))
  | .givenSubject s' (.anyPredicate (.givenObject o)) =>
    (.given s', .givenSubject s (.anyPredicate (.givenObject o)))
  | .givenSubject s' (.givenPredicate p .anyObject) =>
    (.given s', .givenSubject s (.givenPredicate p .anyObject))
  | .givenSubject s' (.givenPredicate p (.givenObject o)) =>
    (.given s', .givenSubject s (.givenPredicate p (.givenObject o)))

/-- `with_subject`, `triple/canonical.rs` 257-263. -/
def withSubject (x : CanonicalTriplePattern T) (s : T) : CanonicalTriplePattern T :=
  (x.setSubject s).2

/-- `set_predicate`, `triple/canonical.rs` 265-307. -/
def setPredicate (x : CanonicalTriplePattern T) (p : T) :
    PatternPredicate T × CanonicalTriplePattern T :=
  match x with
  | .anySubject (.sameAsSubject .anyObject) =>
    (.sameAsSubject, .givenSubject p (.givenPredicate p .anyObject))
  | .anySubject (.sameAsSubject .sameAsSubject) =>
    (.sameAsSubject, .givenSubject p (.givenPredicate p (.givenObject p)))
  | .anySubject (.sameAsSubject (.givenObject o)) =>
    (.sameAsSubject, .givenSubject p (.givenPredicate p (.givenObject o)))
  | .anySubject p' => ((p'.setPredicate p).1, .anySubject (p'.setPredicate p).2)
  | .givenSubject s p' => ((p'.setPredicate p).1, .givenSubject s (p'.setPredicate p).2)

/-- `with_predicate`, `triple/canonical.rs` 309-315. -/
def withPredicate (x : CanonicalTriplePattern T) (p : T) : CanonicalTriplePattern T :=
  (x.setPredicate p).2

/-- `set_object`, `triple/canonical.rs` 317-350. -/
def setObject (x : CanonicalTriplePattern T) (o : T) :
    PatternObject T × CanonicalTriplePattern T :=
  match x with
  | .anySubject (.anyPredicate .sameAsSubject) =>
    (.sameAsSubject, .givenSubject o (.anyPredicate (.givenObject o)))
  | .anySubject (.sameAsSubject .sameAsSubject) =>
    (.sameAsSubject, .givenSubject o (.givenPredicate o (.givenObject o)))
  | .anySubject p' => ((p'.setObject o).1, .anySubject (p'.setObject o).2)
  | .givenSubject s p' => ((p'.setObject o).1, .givenSubject s (p'.setObject o).2)

/-- `with_object`, `triple/canonical.rs` 352-358. -/
def withObject (x : CanonicalTriplePattern T) (o : T) : CanonicalTriplePattern T :=
  (x.setObject o).2

end CanonicalTriplePattern

end RdfTypes
