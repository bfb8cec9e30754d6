import Verif.Model.QuadPattern

/-!
# An order of patterns

A position left open comes first, then one that repeats the subject, the predicate or the
object, and last one at which a term is given; given terms are in the order of terms, after the
default graph. Patterns are in the order of the first position at which they differ.
-/

namespace RdfTypes.Spec

variable {R : Type}

/-- What a pattern says of the subject. -/
def subjectRank : PatternSubject R → Nat × Option (Option R)
  | .any => (0, none)
  | .given r => (4, some (some r))

/-- What a pattern says of the predicate. -/
def predicateRank : PatternPredicate R → Nat × Option (Option R)
  | .any => (0, none)
  | .sameAsSubject => (1, none)
  | .given r => (4, some (some r))

/-- What a pattern says of the object. -/
def objectRank : PatternObject R → Nat × Option (Option R)
  | .any => (0, none)
  | .sameAsSubject => (1, none)
  | .sameAsPredicate => (2, none)
  | .given r => (4, some (some r))

/-- What a pattern says of the graph. -/
def graphRank : PatternGraph R → Nat × Option (Option R)
  | .any => (0, none)
  | .sameAsSubject => (1, none)
  | .sameAsPredicate => (2, none)
  | .sameAsObject => (3, none)
  | .given g => (4, some g)

/-- The order of what is said of a position. -/
def rankOrder [Ord R] (a b : Nat × Option (Option R)) : Ordering :=
  (compare a.1 b.1).then (compare a.2 b.2)

/-- The order of the first difference. -/
def firstUnequal [Ord R] : List ((Nat × Option (Option R)) × (Nat × Option (Option R))) → Ordering
  | [] => .eq
  | (a, b) :: l => (rankOrder a b).then (firstUnequal l)

end RdfTypes.Spec
