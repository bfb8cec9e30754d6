import Verif.Model.Iterators

/-!
# An iterator used call by call
-/

namespace RdfTypes.Spec

variable {I X : Type}

/-- The state after that many calls to `next`, panics caught. -/
def afterCalls (next : StepOf I X) : Nat → I → I
  | 0, it => it
  | n + 1, it => afterCalls next n (next it).2

/-- The iterator goes through `l`: call number `k` gives the item number `k`, panics if there is
none in this place, and says that it has ended if `l` is that short, each time. -/
def GoesThrough (next : StepOf I X) (it : I) (l : List (Option X)) : Prop :=
  (∀ (k : Nat) x, l[k]? = some (some x) → (next (afterCalls next k it)).1 = .ok (some x)) ∧
  (∀ (k : Nat), l[k]? = some none → (next (afterCalls next k it)).1 = .error .invalidKey) ∧
  ∀ (k : Nat), l.length ≤ k → (next (afterCalls next k it)).1 = .ok none

/-- The same, without any panic. -/
def GoesOver (next : StepOf I X) (it : I) (l : List X) : Prop := GoesThrough next it (l.map some)

end RdfTypes.Spec
