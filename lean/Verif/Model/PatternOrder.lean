import Verif.Model.QuadPattern

/-!
# The derived order of canonical patterns

Values of one variant are compared field by field, in the order of declaration, and values of
two variants as the variants are declared.
-/

namespace RdfTypes

namespace PatOrd

variable {T : Type} [Ord T]

/-- The places of the variants of `PatternSubject` as declared:
`pattern/quad/canonical.rs` 247-251 and `pattern/triple/canonical.rs` 361-365. -/
def subjectTag : PatternSubject T → Nat
  | .any => 0
  | .given _ => 1

/-- The derived `Ord::cmp` of `PatternSubject`:
`pattern/quad/canonical.rs` 247-251 and `pattern/triple/canonical.rs` 361-365. -/
def subject : (x y : PatternSubject T) → Ordering
  | .given t, .given t' => compare t t'
  | x, y => compare (subjectTag x) (subjectTag y)

/-- The places of the variants of `PatternPredicate` as declared:
`pattern/quad/canonical.rs` 281-286 and `pattern/triple/canonical.rs` 395-400. -/
def predicateTag : PatternPredicate T → Nat
  | .any => 0
  | .sameAsSubject => 1
  | .given _ => 2

/-- The derived `Ord::cmp` of `PatternPredicate`:
`pattern/quad/canonical.rs` 281-286 and `pattern/triple/canonical.rs` 395-400. -/
def predicate : (x y : PatternPredicate T) → Ordering
  | .given t, .given t' => compare t t'
  | x, y => compare (predicateTag x) (predicateTag y)

/-- The places of the variants of `PatternObject` as declared:
`pattern/quad/canonical.rs` 319-325 and `pattern/triple/canonical.rs` 433-439. -/
def objectTag : PatternObject T → Nat
  | .any => 0
  | .sameAsSubject => 1
  | .sameAsPredicate => 2
  | .given _ => 3

/-- The derived `Ord::cmp` of `PatternObject`:
`pattern/quad/canonical.rs` 319-325 and `pattern/triple/canonical.rs` 433-439. -/
def object : (x y : PatternObject T) → Ordering
  | .given t, .given t' => compare t t'
  | x, y => compare (objectTag x) (objectTag y)

/-- The places of the variants of `AnySubjectAnyPredicate` as declared:
`pattern/triple/canonical.rs` 629-635. -/
def tAnySubjectAnyPredicateTag : TPat.AnySubjectAnyPredicate T → Nat
  | .anyObject => 0
  | .sameAsSubject => 1
  | .sameAsPredicate => 2
  | .givenObject _ => 3

/-- The derived `Ord::cmp` of `AnySubjectAnyPredicate`:
`pattern/triple/canonical.rs` 629-635. -/
def tAnySubjectAnyPredicate :
    (x y : TPat.AnySubjectAnyPredicate T) → Ordering
  | .givenObject o, .givenObject o' => compare o o'
  | x, y => compare (tAnySubjectAnyPredicateTag x) (tAnySubjectAnyPredicateTag y)

/-- The places of the variants of `AnySubjectGivenPredicate` as declared:
`pattern/triple/canonical.rs` 701-706. -/
def tAnySubjectGivenPredicateTag : TPat.AnySubjectGivenPredicate T → Nat
  | .anyObject => 0
  | .sameAsSubject => 1
  | .givenObject _ => 2

/-- The derived `Ord::cmp` of `AnySubjectGivenPredicate`:
`pattern/triple/canonical.rs` 701-706. -/
def tAnySubjectGivenPredicate :
    (x y : TPat.AnySubjectGivenPredicate T) → Ordering
  | .givenObject o, .givenObject o' => compare o o'
  | x, y => compare (tAnySubjectGivenPredicateTag x) (tAnySubjectGivenPredicateTag y)

/-- The places of the variants of `GivenSubjectAnyPredicate` as declared:
`pattern/triple/canonical.rs` 874-879. -/
def tGivenSubjectAnyPredicateTag : TPat.GivenSubjectAnyPredicate T → Nat
  | .anyObject => 0
  | .sameAsPredicate => 1
  | .givenObject _ => 2

/-- The derived `Ord::cmp` of `GivenSubjectAnyPredicate`:
`pattern/triple/canonical.rs` 874-879. -/
def tGivenSubjectAnyPredicate :
    (x y : TPat.GivenSubjectAnyPredicate T) → Ordering
  | .givenObject o, .givenObject o' => compare o o'
  | x, y => compare (tGivenSubjectAnyPredicateTag x) (tGivenSubjectAnyPredicateTag y)

/-- The places of the variants of `GivenSubjectGivenPredicate` as declared:
`pattern/triple/canonical.rs` 945-949. -/
def tGivenSubjectGivenPredicateTag : TPat.GivenSubjectGivenPredicate T → Nat
  | .anyObject => 0
  | .givenObject _ => 1

/-- The derived `Ord::cmp` of `GivenSubjectGivenPredicate`:
`pattern/triple/canonical.rs` 945-949. -/
def tGivenSubjectGivenPredicate :
    (x y : TPat.GivenSubjectGivenPredicate T) → Ordering
  | .givenObject o, .givenObject o' => compare o o'
  | x, y => compare (tGivenSubjectGivenPredicateTag x) (tGivenSubjectGivenPredicateTag y)

/-- The places of the variants of `AnySubject` as declared:
`pattern/triple/canonical.rs` 482-487. -/
def tAnySubjectTag : TPat.AnySubject T → Nat
  | .anyPredicate _ => 0
  | .sameAsSubject _ => 1
  | .givenPredicate _ _ => 2

/-- The derived `Ord::cmp` of `AnySubject`:
`pattern/triple/canonical.rs` 482-487. -/
def tAnySubject :
    (x y : TPat.AnySubject T) → Ordering
  | .anyPredicate o, .anyPredicate o' => tAnySubjectAnyPredicate o o'
  | .sameAsSubject o, .sameAsSubject o' => tAnySubjectGivenPredicate o o'
  | .givenPredicate p o, .givenPredicate p' o' =>
    (compare p p').then (tAnySubjectGivenPredicate o o')
  | x, y => compare (tAnySubjectTag x) (tAnySubjectTag y)

/-- The places of the variants of `GivenSubject` as declared:
`pattern/triple/canonical.rs` 765-769. -/
def tGivenSubjectTag : TPat.GivenSubject T → Nat
  | .anyPredicate _ => 0
  | .givenPredicate _ _ => 1

/-- The derived `Ord::cmp` of `GivenSubject`:
`pattern/triple/canonical.rs` 765-769. -/
def tGivenSubject :
    (x y : TPat.GivenSubject T) → Ordering
  | .anyPredicate o, .anyPredicate o' => tGivenSubjectAnyPredicate o o'
  | .givenPredicate p o, .givenPredicate p' o' =>
    (compare p p').then (tGivenSubjectGivenPredicate o o')
  | x, y => compare (tGivenSubjectTag x) (tGivenSubjectTag y)

/-- The places of the variants of `CanonicalTriplePattern` as declared:
`pattern/triple/canonical.rs` 9-13. -/
def triplePatternTag : CanonicalTriplePattern T → Nat
  | .anySubject _ => 0
  | .givenSubject _ _ => 1

/-- The derived `Ord::cmp` of `CanonicalTriplePattern`:
`pattern/triple/canonical.rs` 9-13. -/
def triplePattern :
    (x y : CanonicalTriplePattern T) → Ordering
  | .anySubject p, .anySubject p' => tAnySubject p p'
  | .givenSubject s p, .givenSubject s' p' => (compare s s').then (tGivenSubject p p')
  | x, y => compare (triplePatternTag x) (triplePatternTag y)

/-- The places of the variants of `PatternGraph` as declared:
`pattern/quad/canonical.rs` 1231-1238. -/
def graphTag : PatternGraph T → Nat
  | .any => 0
  | .sameAsSubject => 1
  | .sameAsPredicate => 2
  | .sameAsObject => 3
  | .given _ => 4

/-- The derived `Ord::cmp` of `PatternGraph`:
`pattern/quad/canonical.rs` 1231-1238. -/
def graph : (x y : PatternGraph T) → Ordering
  | .given g, .given g' => compare g g'
  | x, y => compare (graphTag x) (graphTag y)

/-- The places of the variants of `AnySubjectAnyPredicateAnyObject` as declared:
`pattern/quad/canonical.rs` 1240-1247. -/
def qAnySubjectAnyPredicateAnyObjectTag : QPat.AnySubjectAnyPredicateAnyObject T → Nat
  | .anyGraph => 0
  | .sameAsSubject => 1
  | .sameAsPredicate => 2
  | .sameAsObject => 3
  | .givenGraph _ => 4

/-- The derived `Ord::cmp` of `AnySubjectAnyPredicateAnyObject`:
`pattern/quad/canonical.rs` 1240-1247. -/
def qAnySubjectAnyPredicateAnyObject :
    (x y : QPat.AnySubjectAnyPredicateAnyObject T) → Ordering
  | .givenGraph g, .givenGraph g' => compare g g'
  | x, y => compare (qAnySubjectAnyPredicateAnyObjectTag x) (qAnySubjectAnyPredicateAnyObjectTag y)

/-- The places of the variants of `GivenSubjectAnyPredicateAnyObject` as declared:
`pattern/quad/canonical.rs` 1356-1362. -/
def qGivenSubjectAnyPredicateAnyObjectTag : QPat.GivenSubjectAnyPredicateAnyObject T → Nat
  | .anyGraph => 0
  | .sameAsPredicate => 1
  | .sameAsObject => 2
  | .givenGraph _ => 3

/-- The derived `Ord::cmp` of `GivenSubjectAnyPredicateAnyObject`:
`pattern/quad/canonical.rs` 1356-1362. -/
def qGivenSubjectAnyPredicateAnyObject :
    (x y : QPat.GivenSubjectAnyPredicateAnyObject T) → Ordering
  | .givenGraph g, .givenGraph g' => compare g g'
  | x, y =>
    compare (qGivenSubjectAnyPredicateAnyObjectTag x) (qGivenSubjectAnyPredicateAnyObjectTag y)

/-- The places of the variants of `AnySubjectGivenPredicateAnyObject` as declared:
`pattern/quad/canonical.rs` 1461-1467. -/
def qAnySubjectGivenPredicateAnyObjectTag : QPat.AnySubjectGivenPredicateAnyObject T → Nat
  | .anyGraph => 0
  | .sameAsSubject => 1
  | .sameAsObject => 2
  | .givenGraph _ => 3

/-- The derived `Ord::cmp` of `AnySubjectGivenPredicateAnyObject`:
`pattern/quad/canonical.rs` 1461-1467. -/
def qAnySubjectGivenPredicateAnyObject :
    (x y : QPat.AnySubjectGivenPredicateAnyObject T) → Ordering
  | .givenGraph g, .givenGraph g' => compare g g'
  | x, y =>
    compare (qAnySubjectGivenPredicateAnyObjectTag x) (qAnySubjectGivenPredicateAnyObjectTag y)

/-- The places of the variants of `AnySubjectAnyPredicateGivenObject` as declared:
`pattern/quad/canonical.rs` 1566-1572. -/
def qAnySubjectAnyPredicateGivenObjectTag : QPat.AnySubjectAnyPredicateGivenObject T → Nat
  | .anyGraph => 0
  | .sameAsSubject => 1
  | .sameAsPredicate => 2
  | .givenGraph _ => 3

/-- The derived `Ord::cmp` of `AnySubjectAnyPredicateGivenObject`:
`pattern/quad/canonical.rs` 1566-1572. -/
def qAnySubjectAnyPredicateGivenObject :
    (x y : QPat.AnySubjectAnyPredicateGivenObject T) → Ordering
  | .givenGraph g, .givenGraph g' => compare g g'
  | x, y =>
    compare (qAnySubjectAnyPredicateGivenObjectTag x) (qAnySubjectAnyPredicateGivenObjectTag y)

/-- The places of the variants of `AnySubjectGivenPredicateGivenObject` as declared:
`pattern/quad/canonical.rs` 1671-1676. -/
def qAnySubjectGivenPredicateGivenObjectTag : QPat.AnySubjectGivenPredicateGivenObject T → Nat
  | .anyGraph => 0
  | .sameAsSubject => 1
  | .givenGraph _ => 2

/-- The derived `Ord::cmp` of `AnySubjectGivenPredicateGivenObject`:
`pattern/quad/canonical.rs` 1671-1676. -/
def qAnySubjectGivenPredicateGivenObject :
    (x y : QPat.AnySubjectGivenPredicateGivenObject T) → Ordering
  | .givenGraph g, .givenGraph g' => compare g g'
  | x, y =>
    compare (qAnySubjectGivenPredicateGivenObjectTag x) (qAnySubjectGivenPredicateGivenObjectTag y)

/-- The places of the variants of `GivenSubjectAnyPredicateGivenObject` as declared:
`pattern/quad/canonical.rs` 1765-1770. -/
def qGivenSubjectAnyPredicateGivenObjectTag : QPat.GivenSubjectAnyPredicateGivenObject T → Nat
  | .anyGraph => 0
  | .sameAsPredicate => 1
  | .givenGraph _ => 2

/-- The derived `Ord::cmp` of `GivenSubjectAnyPredicateGivenObject`:
`pattern/quad/canonical.rs` 1765-1770. -/
def qGivenSubjectAnyPredicateGivenObject :
    (x y : QPat.GivenSubjectAnyPredicateGivenObject T) → Ordering
  | .givenGraph g, .givenGraph g' => compare g g'
  | x, y =>
    compare (qGivenSubjectAnyPredicateGivenObjectTag x) (qGivenSubjectAnyPredicateGivenObjectTag y)

/-- The places of the variants of `GivenSubjectGivenPredicateAnyObject` as declared:
`pattern/quad/canonical.rs` 1859-1864. -/
def qGivenSubjectGivenPredicateAnyObjectTag : QPat.GivenSubjectGivenPredicateAnyObject T → Nat
  | .anyGraph => 0
  | .sameAsObject => 1
  | .givenGraph _ => 2

/-- The derived `Ord::cmp` of `GivenSubjectGivenPredicateAnyObject`:
`pattern/quad/canonical.rs` 1859-1864. -/
def qGivenSubjectGivenPredicateAnyObject :
    (x y : QPat.GivenSubjectGivenPredicateAnyObject T) → Ordering
  | .givenGraph g, .givenGraph g' => compare g g'
  | x, y =>
    compare (qGivenSubjectGivenPredicateAnyObjectTag x) (qGivenSubjectGivenPredicateAnyObjectTag y)

/-- The places of the variants of `GivenSubjectGivenPredicateGivenObject` as declared:
`pattern/quad/canonical.rs` 1953-1957. -/
def qGivenSubjectGivenPredicateGivenObjectTag : QPat.GivenSubjectGivenPredicateGivenObject T → Nat
  | .anyGraph => 0
  | .givenGraph _ => 1

/-- The derived `Ord::cmp` of `GivenSubjectGivenPredicateGivenObject`:
`pattern/quad/canonical.rs` 1953-1957. -/
def qGivenSubjectGivenPredicateGivenObject :
    (x y : QPat.GivenSubjectGivenPredicateGivenObject T) → Ordering
  | .givenGraph g, .givenGraph g' => compare g g'
  | x, y =>
    compare (qGivenSubjectGivenPredicateGivenObjectTag x)
      (qGivenSubjectGivenPredicateGivenObjectTag y)

/-- The places of the variants of `AnySubjectAnyPredicate` as declared:
`pattern/quad/canonical.rs` 529-535. -/
def qAnySubjectAnyPredicateTag : QPat.AnySubjectAnyPredicate T → Nat
  | .anyObject _ => 0
  | .sameAsSubject _ => 1
  | .sameAsPredicate _ => 2
  | .givenObject _ _ => 3

/-- The derived `Ord::cmp` of `AnySubjectAnyPredicate`:
`pattern/quad/canonical.rs` 529-535. -/
def qAnySubjectAnyPredicate :
    (x y : QPat.AnySubjectAnyPredicate T) → Ordering
  | .anyObject g, .anyObject g' => qAnySubjectAnyPredicateAnyObject g g'
  | .sameAsSubject g, .sameAsSubject g' => qAnySubjectAnyPredicateGivenObject g g'
  | .sameAsPredicate g, .sameAsPredicate g' => qAnySubjectAnyPredicateGivenObject g g'
  | .givenObject o g, .givenObject o' g' =>
    (compare o o').then (qAnySubjectAnyPredicateGivenObject g g')
  | x, y => compare (qAnySubjectAnyPredicateTag x) (qAnySubjectAnyPredicateTag y)

/-- The places of the variants of `AnySubjectGivenPredicate` as declared:
`pattern/quad/canonical.rs` 694-699. -/
def qAnySubjectGivenPredicateTag : QPat.AnySubjectGivenPredicate T → Nat
  | .anyObject _ => 0
  | .sameAsSubject _ => 1
  | .givenObject _ _ => 2

/-- The derived `Ord::cmp` of `AnySubjectGivenPredicate`:
`pattern/quad/canonical.rs` 694-699. -/
def qAnySubjectGivenPredicate :
    (x y : QPat.AnySubjectGivenPredicate T) → Ordering
  | .anyObject g, .anyObject g' => qAnySubjectGivenPredicateAnyObject g g'
  | .sameAsSubject g, .sameAsSubject g' => qAnySubjectGivenPredicateGivenObject g g'
  | .givenObject o g, .givenObject o' g' =>
    (compare o o').then (qAnySubjectGivenPredicateGivenObject g g')
  | x, y => compare (qAnySubjectGivenPredicateTag x) (qAnySubjectGivenPredicateTag y)

/-- The places of the variants of `GivenSubjectAnyPredicate` as declared:
`pattern/quad/canonical.rs` 969-974. -/
def qGivenSubjectAnyPredicateTag : QPat.GivenSubjectAnyPredicate T → Nat
  | .anyObject _ => 0
  | .sameAsPredicate _ => 1
  | .givenObject _ _ => 2

/-- The derived `Ord::cmp` of `GivenSubjectAnyPredicate`:
`pattern/quad/canonical.rs` 969-974. -/
def qGivenSubjectAnyPredicate :
    (x y : QPat.GivenSubjectAnyPredicate T) → Ordering
  | .anyObject g, .anyObject g' => qGivenSubjectAnyPredicateAnyObject g g'
  | .sameAsPredicate g, .sameAsPredicate g' => qGivenSubjectAnyPredicateGivenObject g g'
  | .givenObject o g, .givenObject o' g' =>
    (compare o o').then (qGivenSubjectAnyPredicateGivenObject g g')
  | x, y => compare (qGivenSubjectAnyPredicateTag x) (qGivenSubjectAnyPredicateTag y)

/-- The places of the variants of `GivenSubjectGivenPredicate` as declared:
`pattern/quad/canonical.rs` 1112-1116. -/
def qGivenSubjectGivenPredicateTag : QPat.GivenSubjectGivenPredicate T → Nat
  | .anyObject _ => 0
  | .givenObject _ _ => 1

/-- The derived `Ord::cmp` of `GivenSubjectGivenPredicate`:
`pattern/quad/canonical.rs` 1112-1116. -/
def qGivenSubjectGivenPredicate :
    (x y : QPat.GivenSubjectGivenPredicate T) → Ordering
  | .anyObject g, .anyObject g' => qGivenSubjectGivenPredicateAnyObject g g'
  | .givenObject o g, .givenObject o' g' =>
    (compare o o').then (qGivenSubjectGivenPredicateGivenObject g g')
  | x, y => compare (qGivenSubjectGivenPredicateTag x) (qGivenSubjectGivenPredicateTag y)

/-- The places of the variants of `AnySubject` as declared:
`pattern/quad/canonical.rs` 368-373. -/
def qAnySubjectTag : QPat.AnySubject T → Nat
  | .anyPredicate _ => 0
  | .sameAsSubject _ => 1
  | .givenPredicate _ _ => 2

/-- The derived `Ord::cmp` of `AnySubject`:
`pattern/quad/canonical.rs` 368-373. -/
def qAnySubject :
    (x y : QPat.AnySubject T) → Ordering
  | .anyPredicate o, .anyPredicate o' => qAnySubjectAnyPredicate o o'
  | .sameAsSubject o, .sameAsSubject o' => qAnySubjectGivenPredicate o o'
  | .givenPredicate p o, .givenPredicate p' o' =>
    (compare p p').then (qAnySubjectGivenPredicate o o')
  | x, y => compare (qAnySubjectTag x) (qAnySubjectTag y)

/-- The places of the variants of `GivenSubject` as declared:
`pattern/quad/canonical.rs` 837-841. -/
def qGivenSubjectTag : QPat.GivenSubject T → Nat
  | .anyPredicate _ => 0
  | .givenPredicate _ _ => 1

/-- The derived `Ord::cmp` of `GivenSubject`:
`pattern/quad/canonical.rs` 837-841. -/
def qGivenSubject :
    (x y : QPat.GivenSubject T) → Ordering
  | .anyPredicate o, .anyPredicate o' => qGivenSubjectAnyPredicate o o'
  | .givenPredicate p o, .givenPredicate p' o' =>
    (compare p p').then (qGivenSubjectGivenPredicate o o')
  | x, y => compare (qGivenSubjectTag x) (qGivenSubjectTag y)

/-- The places of the variants of `CanonicalQuadPattern` as declared:
`pattern/quad/canonical.rs` 10-14. -/
def quadPatternTag : CanonicalQuadPattern T → Nat
  | .anySubject _ => 0
  | .givenSubject _ _ => 1

/-- The derived `Ord::cmp` of `CanonicalQuadPattern`:
`pattern/quad/canonical.rs` 10-14. -/
def quadPattern :
    (x y : CanonicalQuadPattern T) → Ordering
  | .anySubject p, .anySubject p' => qAnySubject p p'
  | .givenSubject s p, .givenSubject s' p' => (compare s s').then (qGivenSubject p p')
  | x, y => compare (quadPatternTag x) (quadPatternTag y)

end PatOrd

end RdfTypes
