import Verif.Spec.Frames
import Verif.Spec.Nameless

/-!
# The first of several mappings
-/

namespace RdfTypes.Spec

variable {A : Type} [Ord A]

/-- Functions that are the same on a set, or the first of them has the lesser value at the least
argument at which they differ. -/
def NotAfter (D : A → Prop) (f g : A → A) : Prop :=
  (∀ x, D x → f x = g x) ∨
    ∃ x, D x ∧ compare (f x) (g x) = .lt ∧ ∀ z, D z → compare z x = .lt → f z = g z

end RdfTypes.Spec
