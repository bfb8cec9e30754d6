import Verif.Model.Container
import Verif.Model.QuadPattern

/-!
# The derived hash of patterns

A value writes the place of its variant, as declared, and then what its fields write.
-/

namespace RdfTypes

namespace PatHash

variable {T X : Type}

/-- The derived `Hash` of `ResourceOrVar`: `pattern/resource_or_variable.rs` 2-7. -/
def resourceOrVar (h : T → List HashWrite) (hx : X → List HashWrite) :
    ResourceOrVar T X → List HashWrite
  | .resource t => .isize 0 :: h t
  | .var x => .isize 1 :: hx x

/-- The derived `Hash` of `PatternSubject`:
`pattern/quad/canonical.rs` 247-251 and `pattern/triple/canonical.rs` 361-365. -/
def subject (h : T → List HashWrite) :
    PatternSubject T → List HashWrite
  | .any => [.isize 0]
  | .given t => .isize 1 :: h t

/-- The derived `Hash` of `PatternPredicate`:
`pattern/quad/canonical.rs` 281-286 and `pattern/triple/canonical.rs` 395-400. -/
def predicate (h : T → List HashWrite) :
    PatternPredicate T → List HashWrite
  | .any => [.isize 0]
  | .sameAsSubject => [.isize 1]
  | .given t => .isize 2 :: h t

/-- The derived `Hash` of `PatternObject`:
`pattern/quad/canonical.rs` 319-325 and `pattern/triple/canonical.rs` 433-439. -/
def object (h : T → List HashWrite) :
    PatternObject T → List HashWrite
  | .any => [.isize 0]
  | .sameAsSubject => [.isize 1]
  | .sameAsPredicate => [.isize 2]
  | .given t => .isize 3 :: h t

/-- The derived `Hash` of `AnySubjectAnyPredicate`:
`pattern/triple/canonical.rs` 629-635. -/
def tAnySubjectAnyPredicate (h : T → List HashWrite) :
    TPat.AnySubjectAnyPredicate T → List HashWrite
  | .anyObject => [.isize 0]
  | .sameAsSubject => [.isize 1]
  | .sameAsPredicate => [.isize 2]
  | .givenObject o => .isize 3 :: h o

/-- The derived `Hash` of `AnySubjectGivenPredicate`:
`pattern/triple/canonical.rs` 701-706. -/
def tAnySubjectGivenPredicate (h : T → List HashWrite) :
    TPat.AnySubjectGivenPredicate T → List HashWrite
  | .anyObject => [.isize 0]
  | .sameAsSubject => [.isize 1]
  | .givenObject o => .isize 2 :: h o

/-- The derived `Hash` of `GivenSubjectAnyPredicate`:
`pattern/triple/canonical.rs` 874-879. -/
def tGivenSubjectAnyPredicate (h : T → List HashWrite) :
    TPat.GivenSubjectAnyPredicate T → List HashWrite
  | .anyObject => [.isize 0]
  | .sameAsPredicate => [.isize 1]
  | .givenObject o => .isize 2 :: h o

/-- The derived `Hash` of `GivenSubjectGivenPredicate`:
`pattern/triple/canonical.rs` 945-949. -/
def tGivenSubjectGivenPredicate (h : T → List HashWrite) :
    TPat.GivenSubjectGivenPredicate T → List HashWrite
  | .anyObject => [.isize 0]
  | .givenObject o => .isize 1 :: h o

/-- The derived `Hash` of `AnySubject`:
`pattern/triple/canonical.rs` 482-487. -/
def tAnySubject (h : T → List HashWrite) :
    TPat.AnySubject T → List HashWrite
  | .anyPredicate o => .isize 0 :: tAnySubjectAnyPredicate h o
  | .sameAsSubject o => .isize 1 :: tAnySubjectGivenPredicate h o
  | .givenPredicate p o => .isize 2 :: (h p ++ tAnySubjectGivenPredicate h o)

/-- The derived `Hash` of `GivenSubject`:
`pattern/triple/canonical.rs` 765-769. -/
def tGivenSubject (h : T → List HashWrite) :
    TPat.GivenSubject T → List HashWrite
  | .anyPredicate o => .isize 0 :: tGivenSubjectAnyPredicate h o
  | .givenPredicate p o => .isize 1 :: (h p ++ tGivenSubjectGivenPredicate h o)

/-- The derived `Hash` of `CanonicalTriplePattern`:
`pattern/triple/canonical.rs` 9-13. -/
def triplePattern (h : T → List HashWrite) :
    CanonicalTriplePattern T → List HashWrite
  | .anySubject p => .isize 0 :: tAnySubject h p
  | .givenSubject s p => .isize 1 :: (h s ++ tGivenSubject h p)

/-- The derived `Hash` of `PatternGraph`:
`pattern/quad/canonical.rs` 1231-1238. -/
def graph (h : T → List HashWrite) :
    PatternGraph T → List HashWrite
  | .any => [.isize 0]
  | .sameAsSubject => [.isize 1]
  | .sameAsPredicate => [.isize 2]
  | .sameAsObject => [.isize 3]
  | .given g => .isize 4 :: Option.hashWrites h g

/-- The derived `Hash` of `AnySubjectAnyPredicateAnyObject`:
`pattern/quad/canonical.rs` 1240-1247. -/
def qAnySubjectAnyPredicateAnyObject (h : T → List HashWrite) :
    QPat.AnySubjectAnyPredicateAnyObject T → List HashWrite
  | .anyGraph => [.isize 0]
  | .sameAsSubject => [.isize 1]
  | .sameAsPredicate => [.isize 2]
  | .sameAsObject => [.isize 3]
  | .givenGraph g => .isize 4 :: Option.hashWrites h g

/-- The derived `Hash` of `GivenSubjectAnyPredicateAnyObject`:
`pattern/quad/canonical.rs` 1356-1362. -/
def qGivenSubjectAnyPredicateAnyObject (h : T → List HashWrite) :
    QPat.GivenSubjectAnyPredicateAnyObject T → List HashWrite
  | .anyGraph => [.isize 0]
  | .sameAsPredicate => [.isize 1]
  | .sameAsObject => [.isize 2]
  | .givenGraph g => .isize 3 :: Option.hashWrites h g

/-- The derived `Hash` of `AnySubjectGivenPredicateAnyObject`:
`pattern/quad/canonical.rs` 1461-1467. -/
def qAnySubjectGivenPredicateAnyObject (h : T → List HashWrite) :
    QPat.AnySubjectGivenPredicateAnyObject T → List HashWrite
  | .anyGraph => [.isize 0]
  | .sameAsSubject => [.isize 1]
  | .sameAsObject => [.isize 2]
  | .givenGraph g => .isize 3 :: Option.hashWrites h g

/-- The derived `Hash` of `AnySubjectAnyPredicateGivenObject`:
`pattern/quad/canonical.rs` 1566-1572. -/
def qAnySubjectAnyPredicateGivenObject (h : T → List HashWrite) :
    QPat.AnySubjectAnyPredicateGivenObject T → List HashWrite
  | .anyGraph => [.isize 0]
  | .sameAsSubject => [.isize 1]
  | .sameAsPredicate => [.isize 2]
  | .givenGraph g => .isize 3 :: Option.hashWrites h g

/-- The derived `Hash` of `AnySubjectGivenPredicateGivenObject`:
`pattern/quad/canonical.rs` 1671-1676. -/
def qAnySubjectGivenPredicateGivenObject (h : T → List HashWrite) :
    QPat.AnySubjectGivenPredicateGivenObject T → List HashWrite
  | .anyGraph => [.isize 0]
  | .sameAsSubject => [.isize 1]
  | .givenGraph g => .isize 2 :: Option.hashWrites h g

/-- The derived `Hash` of `GivenSubjectAnyPredicateGivenObject`:
`pattern/quad/canonical.rs` 1765-1770. -/
def qGivenSubjectAnyPredicateGivenObject (h : T → List HashWrite) :
    QPat.GivenSubjectAnyPredicateGivenObject T → List HashWrite
  | .anyGraph => [.isize 0]
  | .sameAsPredicate => [.isize 1]
  | .givenGraph g => .isize 2 :: Option.hashWrites h g

/-- The derived `Hash` of `GivenSubjectGivenPredicateAnyObject`:
`pattern/quad/canonical.rs` 1859-1864. -/
def qGivenSubjectGivenPredicateAnyObject (h : T → List HashWrite) :
    QPat.GivenSubjectGivenPredicateAnyObject T → List HashWrite
  | .anyGraph => [.isize 0]
  | .sameAsObject => [.isize 1]
  | .givenGraph g => .isize 2 :: Option.hashWrites h g

/-- The derived `Hash` of `GivenSubjectGivenPredicateGivenObject`:
`pattern/quad/canonical.rs` 1953-1957. -/
def qGivenSubjectGivenPredicateGivenObject (h : T → List HashWrite) :
    QPat.GivenSubjectGivenPredicateGivenObject T → List HashWrite
  | .anyGraph => [.isize 0]
  | .givenGraph g => .isize 1 :: Option.hashWrites h g

/-- The derived `Hash` of `AnySubjectAnyPredicate`:
`pattern/quad/canonical.rs` 529-535. -/
def qAnySubjectAnyPredicate (h : T → List HashWrite) :
    QPat.AnySubjectAnyPredicate T → List HashWrite
  | .anyObject g => .isize 0 :: qAnySubjectAnyPredicateAnyObject h g
  | .sameAsSubject g => .isize 1 :: qAnySubjectAnyPredicateGivenObject h g
  | .sameAsPredicate g => .isize 2 :: qAnySubjectAnyPredicateGivenObject h g
  | .givenObject o g => .isize 3 :: (h o ++ qAnySubjectAnyPredicateGivenObject h g)

/-- The derived `Hash` of `AnySubjectGivenPredicate`:
`pattern/quad/canonical.rs` 694-699. -/
def qAnySubjectGivenPredicate (h : T → List HashWrite) :
    QPat.AnySubjectGivenPredicate T → List HashWrite
  | .anyObject g => .isize 0 :: qAnySubjectGivenPredicateAnyObject h g
  | .sameAsSubject g => .isize 1 :: qAnySubjectGivenPredicateGivenObject h g
  | .givenObject o g => .isize 2 :: (h o ++ qAnySubjectGivenPredicateGivenObject h g)

/-- The derived `Hash` of `GivenSubjectAnyPredicate`:
`pattern/quad/canonical.rs` 969-974. -/
def qGivenSubjectAnyPredicate (h : T → List HashWrite) :
    QPat.GivenSubjectAnyPredicate T → List HashWrite
  | .anyObject g => .isize 0 :: qGivenSubjectAnyPredicateAnyObject h g
  | .sameAsPredicate g => .isize 1 :: qGivenSubjectAnyPredicateGivenObject h g
  | .givenObject o g => .isize 2 :: (h o ++ qGivenSubjectAnyPredicateGivenObject h g)

/-- The derived `Hash` of `GivenSubjectGivenPredicate`:
`pattern/quad/canonical.rs` 1112-1116. -/
def qGivenSubjectGivenPredicate (h : T → List HashWrite) :
    QPat.GivenSubjectGivenPredicate T → List HashWrite
  | .anyObject g => .isize 0 :: qGivenSubjectGivenPredicateAnyObject h g
  | .givenObject o g => .isize 1 :: (h o ++ qGivenSubjectGivenPredicateGivenObject h g)

/-- The derived `Hash` of `AnySubject`:
`pattern/quad/canonical.rs` 368-373. -/
def qAnySubject (h : T → List HashWrite) :
    QPat.AnySubject T → List HashWrite
  | .anyPredicate o => .isize 0 :: qAnySubjectAnyPredicate h o
  | .sameAsSubject o => .isize 1 :: qAnySubjectGivenPredicate h o
  | .givenPredicate p o => .isize 2 :: (h p ++ qAnySubjectGivenPredicate h o)

/-- The derived `Hash` of `GivenSubject`:
`pattern/quad/canonical.rs` 837-841. -/
def qGivenSubject (h : T → List HashWrite) :
    QPat.GivenSubject T → List HashWrite
  | .anyPredicate o => .isize 0 :: qGivenSubjectAnyPredicate h o
  | .givenPredicate p o => .isize 1 :: (h p ++ qGivenSubjectGivenPredicate h o)

/-- The derived `Hash` of `CanonicalQuadPattern`:
`pattern/quad/canonical.rs` 10-14. -/
def quadPattern (h : T → List HashWrite) :
    CanonicalQuadPattern T → List HashWrite
  | .anySubject p => .isize 0 :: qAnySubject h p
  | .givenSubject s p => .isize 1 :: (h s ++ qGivenSubject h p)

end PatHash

end RdfTypes
