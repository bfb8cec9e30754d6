import Verif.Model.Debugging
import Verif.Model.QuadPattern

/-!
# `Debug` output of patterns
-/

namespace RdfTypes

namespace Debugging

variable {T X : Type}

/-- The derived `Debug` of `ResourceOrVar`: `pattern/resource_or_variable.rs` 2-7. -/
def resourceOrVar (f : T → Printed) (fx : X → Printed) : ResourceOrVar T X → Printed
  | .resource t => items ['R', 'e', 's', 'o', 'u', 'r', 'c', 'e', '('] [f t] [')']
  | .var x => items ['V', 'a', 'r', '('] [fx x] [')']

/-- The derived `Debug` of `AnySubjectAnyPredicate`: `pattern/triple/canonical.rs` 629-635. -/
def tAnySubjectAnyPredicate (f : T → Printed) : TPat.AnySubjectAnyPredicate T → Printed
  | .anyObject => fun _ => ['A', 'n', 'y', 'O', 'b', 'j', 'e', 'c', 't']
  | .sameAsSubject => fun _ => ['S', 'a', 'm', 'e', 'A', 's', 'S', 'u', 'b', 'j', 'e', 'c', 't']
  | .sameAsPredicate => fun _ =>
    ['S', 'a', 'm', 'e', 'A', 's', 'P', 'r', 'e', 'd', 'i', 'c', 'a', 't', 'e']
  | .givenObject o => items ['G', 'i', 'v', 'e', 'n', 'O', 'b', 'j', 'e', 'c', 't', '('] [f o] [')']

/-- The derived `Debug` of `AnySubjectGivenPredicate`: `pattern/triple/canonical.rs` 701-706. -/
def tAnySubjectGivenPredicate (f : T → Printed) : TPat.AnySubjectGivenPredicate T → Printed
  | .anyObject => fun _ => ['A', 'n', 'y', 'O', 'b', 'j', 'e', 'c', 't']
  | .sameAsSubject => fun _ => ['S', 'a', 'm', 'e', 'A', 's', 'S', 'u', 'b', 'j', 'e', 'c', 't']
  | .givenObject o => items ['G', 'i', 'v', 'e', 'n', 'O', 'b', 'j', 'e', 'c', 't', '('] [f o] [')']

/-- The derived `Debug` of `GivenSubjectAnyPredicate`: `pattern/triple/canonical.rs` 874-879. -/
def tGivenSubjectAnyPredicate (f : T → Printed) : TPat.GivenSubjectAnyPredicate T → Printed
  | .anyObject => fun _ => ['A', 'n', 'y', 'O', 'b', 'j', 'e', 'c', 't']
  | .sameAsPredicate => fun _ =>
    ['S', 'a', 'm', 'e', 'A', 's', 'P', 'r', 'e', 'd', 'i', 'c', 'a', 't', 'e']
  | .givenObject o => items ['G', 'i', 'v', 'e', 'n', 'O', 'b', 'j', 'e', 'c', 't', '('] [f o] [')']

/-- The derived `Debug` of `GivenSubjectGivenPredicate`: `pattern/triple/canonical.rs` 945-949. -/
def tGivenSubjectGivenPredicate (f : T → Printed) : TPat.GivenSubjectGivenPredicate T → Printed
  | .anyObject => fun _ => ['A', 'n', 'y', 'O', 'b', 'j', 'e', 'c', 't']
  | .givenObject o => items ['G', 'i', 'v', 'e', 'n', 'O', 'b', 'j', 'e', 'c', 't', '('] [f o] [')']

/-- The derived `Debug` of `AnySubject`: `pattern/triple/canonical.rs` 482-487. -/
def tAnySubject (f : T → Printed) : TPat.AnySubject T → Printed
  | .anyPredicate o =>
    items ['A', 'n', 'y', 'P', 'r', 'e', 'd', 'i', 'c', 'a', 't', 'e', '(']
      [tAnySubjectAnyPredicate f o] [')']
  | .sameAsSubject o =>
    items ['S', 'a', 'm', 'e', 'A', 's', 'S', 'u', 'b', 'j', 'e', 'c', 't', '(']
      [tAnySubjectGivenPredicate f o] [')']
  | .givenPredicate p o =>
    items ['G', 'i', 'v', 'e', 'n', 'P', 'r', 'e', 'd', 'i', 'c', 'a', 't', 'e', '(']
      [f p, tAnySubjectGivenPredicate f o] [')']

/-- The derived `Debug` of `GivenSubject`: `pattern/triple/canonical.rs` 765-769. -/
def tGivenSubject (f : T → Printed) : TPat.GivenSubject T → Printed
  | .anyPredicate o =>
    items ['A', 'n', 'y', 'P', 'r', 'e', 'd', 'i', 'c', 'a', 't', 'e', '(']
      [tGivenSubjectAnyPredicate f o] [')']
  | .givenPredicate p o =>
    items ['G', 'i', 'v', 'e', 'n', 'P', 'r', 'e', 'd', 'i', 'c', 'a', 't', 'e', '(']
      [f p, tGivenSubjectGivenPredicate f o] [')']

/-- The derived `Debug` of `CanonicalTriplePattern`: `pattern/triple/canonical.rs` 9-13. -/
def triplePattern (f : T → Printed) : CanonicalTriplePattern T → Printed
  | .anySubject p =>
    items ['A', 'n', 'y', 'S', 'u', 'b', 'j', 'e', 'c', 't', '('] [tAnySubject f p] [')']
  | .givenSubject s p =>
    items ['G', 'i', 'v', 'e', 'n', 'S', 'u', 'b', 'j', 'e', 'c', 't', '(']
      [f s, tGivenSubject f p] [')']

/-- The derived `Debug` of `AnySubjectAnyPredicateAnyObject`: `pattern/quad/canonical.rs`
1240-1247. -/
def qAnySubjectAnyPredicateAnyObject (f : T → Printed) :
    QPat.AnySubjectAnyPredicateAnyObject T → Printed
  | .anyGraph => fun _ => ['A', 'n', 'y', 'G', 'r', 'a', 'p', 'h']
  | .sameAsSubject => fun _ => ['S', 'a', 'm', 'e', 'A', 's', 'S', 'u', 'b', 'j', 'e', 'c', 't']
  | .sameAsPredicate => fun _ =>
    ['S', 'a', 'm', 'e', 'A', 's', 'P', 'r', 'e', 'd', 'i', 'c', 'a', 't', 'e']
  | .sameAsObject => fun _ => ['S', 'a', 'm', 'e', 'A', 's', 'O', 'b', 'j', 'e', 'c', 't']
  | .givenGraph g =>
    items ['G', 'i', 'v', 'e', 'n', 'G', 'r', 'a', 'p', 'h', '('] [option f g] [')']

/-- The derived `Debug` of `GivenSubjectAnyPredicateAnyObject`: `pattern/quad/canonical.rs`
1356-1362. -/
def qGivenSubjectAnyPredicateAnyObject (f : T → Printed) :
    QPat.GivenSubjectAnyPredicateAnyObject T → Printed
  | .anyGraph => fun _ => ['A', 'n', 'y', 'G', 'r', 'a', 'p', 'h']
  | .sameAsPredicate => fun _ =>
    ['S', 'a', 'm', 'e', 'A', 's', 'P', 'r', 'e', 'd', 'i', 'c', 'a', 't', 'e']
  | .sameAsObject => fun _ => ['S', 'a', 'm', 'e', 'A', 's', 'O', 'b', 'j', 'e', 'c', 't']
  | .givenGraph g =>
    items ['G', 'i', 'v', 'e', 'n', 'G', 'r', 'a', 'p', 'h', '('] [option f g] [')']

/-- The derived `Debug` of `AnySubjectGivenPredicateAnyObject`: `pattern/quad/canonical.rs`
1461-1467. -/
def qAnySubjectGivenPredicateAnyObject (f : T → Printed) :
    QPat.AnySubjectGivenPredicateAnyObject T → Printed
  | .anyGraph => fun _ => ['A', 'n', 'y', 'G', 'r', 'a', 'p', 'h']
  | .sameAsSubject => fun _ => ['S', 'a', 'm', 'e', 'A', 's', 'S', 'u', 'b', 'j', 'e', 'c', 't']
  | .sameAsObject => fun _ => ['S', 'a', 'm', 'e', 'A', 's', 'O', 'b', 'j', 'e', 'c', 't']
  | .givenGraph g =>
    items ['G', 'i', 'v', 'e', 'n', 'G', 'r', 'a', 'p', 'h', '('] [option f g] [')']

/-- The derived `Debug` of `AnySubjectAnyPredicateGivenObject`: `pattern/quad/canonical.rs`
1566-1572. -/
def qAnySubjectAnyPredicateGivenObject (f : T → Printed) :
    QPat.AnySubjectAnyPredicateGivenObject T → Printed
  | .anyGraph => fun _ => ['A', 'n', 'y', 'G', 'r', 'a', 'p', 'h']
  | .sameAsSubject => fun _ => ['S', 'a', 'm', 'e', 'A', 's', 'S', 'u', 'b', 'j', 'e', 'c', 't']
  | .sameAsPredicate => fun _ =>
    ['S', 'a', 'm', 'e', 'A', 's', 'P', 'r', 'e', 'd', 'i', 'c', 'a', 't', 'e']
  | .givenGraph g =>
    items ['G', 'i', 'v', 'e', 'n', 'G', 'r', 'a', 'p', 'h', '('] [option f g] [')']

/-- The derived `Debug` of `AnySubjectGivenPredicateGivenObject`: `pattern/quad/canonical.rs`
1671-1676. -/
def qAnySubjectGivenPredicateGivenObject (f : T → Printed) :
    QPat.AnySubjectGivenPredicateGivenObject T → Printed
  | .anyGraph => fun _ => ['A', 'n', 'y', 'G', 'r', 'a', 'p', 'h']
  | .sameAsSubject => fun _ => ['S', 'a', 'm', 'e', 'A', 's', 'S', 'u', 'b', 'j', 'e', 'c', 't']
  | .givenGraph g =>
    items ['G', 'i', 'v', 'e', 'n', 'G', 'r', 'a', 'p', 'h', '('] [option f g] [')']

/-- The derived `Debug` of `GivenSubjectAnyPredicateGivenObject`: `pattern/quad/canonical.rs`
1765-1770. -/
def qGivenSubjectAnyPredicateGivenObject (f : T → Printed) :
    QPat.GivenSubjectAnyPredicateGivenObject T → Printed
  | .anyGraph => fun _ => ['A', 'n', 'y', 'G', 'r', 'a', 'p', 'h']
  | .sameAsPredicate => fun _ =>
    ['S', 'a', 'm', 'e', 'A', 's', 'P', 'r', 'e', 'd', 'i', 'c', 'a', 't', 'e']
  | .givenGraph g =>
    items ['G', 'i', 'v', 'e', 'n', 'G', 'r', 'a', 'p', 'h', '('] [option f g] [')']

/-- The derived `Debug` of `GivenSubjectGivenPredicateAnyObject`: `pattern/quad/canonical.rs`
1859-1864. -/
def qGivenSubjectGivenPredicateAnyObject (f : T → Printed) :
    QPat.GivenSubjectGivenPredicateAnyObject T → Printed
  | .anyGraph => fun _ => ['A', 'n', 'y', 'G', 'r', 'a', 'p', 'h']
  | .sameAsObject => fun _ => ['S', 'a', 'm', 'e', 'A', 's', 'O', 'b', 'j', 'e', 'c', 't']
  | .givenGraph g =>
    items ['G', 'i', 'v', 'e', 'n', 'G', 'r', 'a', 'p', 'h', '('] [option f g] [')']

/-- The derived `Debug` of `GivenSubjectGivenPredicateGivenObject`: `pattern/quad/canonical.rs`
1953-1957. -/
def qGivenSubjectGivenPredicateGivenObject (f : T → Printed) :
    QPat.GivenSubjectGivenPredicateGivenObject T → Printed
  | .anyGraph => fun _ => ['A', 'n', 'y', 'G', 'r', 'a', 'p', 'h']
  | .givenGraph g =>
    items ['G', 'i', 'v', 'e', 'n', 'G', 'r', 'a', 'p', 'h', '('] [option f g] [')']

/-- The derived `Debug` of `AnySubjectAnyPredicate`: `pattern/quad/canonical.rs` 529-535. -/
def qAnySubjectAnyPredicate (f : T → Printed) : QPat.AnySubjectAnyPredicate T → Printed
  | .anyObject g =>
    items ['A', 'n', 'y', 'O', 'b', 'j', 'e', 'c', 't', '(']
      [qAnySubjectAnyPredicateAnyObject f g] [')']
  | .sameAsSubject g =>
    items ['S', 'a', 'm', 'e', 'A', 's', 'S', 'u', 'b', 'j', 'e', 'c', 't', '(']
      [qAnySubjectAnyPredicateGivenObject f g] [')']
  | .sameAsPredicate g =>
    items ['S', 'a', 'm', 'e', 'A', 's', 'P', 'r', 'e', 'd', 'i', 'c', 'a', 't', 'e', '(']
      [qAnySubjectAnyPredicateGivenObject f g] [')']
  | .givenObject o g =>
    items ['G', 'i', 'v', 'e', 'n', 'O', 'b', 'j', 'e', 'c', 't', '(']
      [f o, qAnySubjectAnyPredicateGivenObject f g] [')']

/-- The derived `Debug` of `AnySubjectGivenPredicate`: `pattern/quad/canonical.rs` 694-699. -/
def qAnySubjectGivenPredicate (f : T → Printed) : QPat.AnySubjectGivenPredicate T → Printed
  | .anyObject g =>
    items ['A', 'n', 'y', 'O', 'b', 'j', 'e', 'c', 't', '(']
      [qAnySubjectGivenPredicateAnyObject f g] [')']
  | .sameAsSubject g =>
    items ['S', 'a', 'm', 'e', 'A', 's', 'S', 'u', 'b', 'j', 'e', 'c', 't', '(']
      [qAnySubjectGivenPredicateGivenObject f g] [')']
  | .givenObject o g =>
    items ['G', 'i', 'v', 'e', 'n', 'O', 'b', 'j', 'e', 'c', 't', '(']
      [f o, qAnySubjectGivenPredicateGivenObject f g] [')']

/-- The derived `Debug` of `GivenSubjectAnyPredicate`: `pattern/quad/canonical.rs` 969-974. -/
def qGivenSubjectAnyPredicate (f : T → Printed) : QPat.GivenSubjectAnyPredicate T → Printed
  | .anyObject g =>
    items ['A', 'n', 'y', 'O', 'b', 'j', 'e', 'c', 't', '(']
      [qGivenSubjectAnyPredicateAnyObject f g] [')']
  | .sameAsPredicate g =>
    items ['S', 'a', 'm', 'e', 'A', 's', 'P', 'r', 'e', 'd', 'i', 'c', 'a', 't', 'e', '(']
      [qGivenSubjectAnyPredicateGivenObject f g] [')']
  | .givenObject o g =>
    items ['G', 'i', 'v', 'e', 'n', 'O', 'b', 'j', 'e', 'c', 't', '(']
      [f o, qGivenSubjectAnyPredicateGivenObject f g] [')']

/-- The derived `Debug` of `GivenSubjectGivenPredicate`: `pattern/quad/canonical.rs` 1112-1116. -/
def qGivenSubjectGivenPredicate (f : T → Printed) : QPat.GivenSubjectGivenPredicate T → Printed
  | .anyObject g =>
    items ['A', 'n', 'y', 'O', 'b', 'j', 'e', 'c', 't', '(']
      [qGivenSubjectGivenPredicateAnyObject f g] [')']
  | .givenObject o g =>
    items ['G', 'i', 'v', 'e', 'n', 'O', 'b', 'j', 'e', 'c', 't', '(']
      [f o, qGivenSubjectGivenPredicateGivenObject f g] [')']

/-- The derived `Debug` of `AnySubject`: `pattern/quad/canonical.rs` 368-373. -/
def qAnySubject (f : T → Printed) : QPat.AnySubject T → Printed
  | .anyPredicate o =>
    items ['A', 'n', 'y', 'P', 'r', 'e', 'd', 'i', 'c', 'a', 't', 'e', '(']
      [qAnySubjectAnyPredicate f o] [')']
  | .sameAsSubject o =>
    items ['S', 'a', 'm', 'e', 'A', 's', 'S', 'u', 'b', 'j', 'e', 'c', 't', '(']
      [qAnySubjectGivenPredicate f o] [')']
  | .givenPredicate p o =>
    items ['G', 'i', 'v', 'e', 'n', 'P', 'r', 'e', 'd', 'i', 'c', 'a', 't', 'e', '(']
      [f p, qAnySubjectGivenPredicate f o] [')']

/-- The derived `Debug` of `GivenSubject`: `pattern/quad/canonical.rs` 837-841. -/
def qGivenSubject (f : T → Printed) : QPat.GivenSubject T → Printed
  | .anyPredicate o =>
    items ['A', 'n', 'y', 'P', 'r', 'e', 'd', 'i', 'c', 'a', 't', 'e', '(']
      [qGivenSubjectAnyPredicate f o] [')']
  | .givenPredicate p o =>
    items ['G', 'i', 'v', 'e', 'n', 'P', 'r', 'e', 'd', 'i', 'c', 'a', 't', 'e', '(']
      [f p, qGivenSubjectGivenPredicate f o] [')']

/-- The derived `Debug` of `CanonicalQuadPattern`: `pattern/quad/canonical.rs` 10-14. -/
def quadPattern (f : T → Printed) : CanonicalQuadPattern T → Printed
  | .anySubject p =>
    items ['A', 'n', 'y', 'S', 'u', 'b', 'j', 'e', 'c', 't', '('] [qAnySubject f p] [')']
  | .givenSubject s p =>
    items ['G', 'i', 'v', 'e', 'n', 'S', 'u', 'b', 'j', 'e', 'c', 't', '(']
      [f s, qGivenSubject f p] [')']

end Debugging

end RdfTypes
