import Verif.Spec.Frames

/-!
# Datasets whose blank nodes are not entangled
-/

namespace RdfTypes.Spec

variable {B I L : Type}

/-- A frame with two blank nodes at least. -/
def Several (φ : Quad (Option B)) : Prop :=
  ∃ b c, b ≠ c ∧ some b ∈ positions φ ∧ some c ∈ positions φ

/-- Frames with blank nodes at the same positions. -/
def SameSpots (φ ψ : Quad (Option B)) : Prop := φ.map Option.isSome = ψ.map Option.isSome

/-- `φ` is the only frame of the set `S` that has several blank nodes, `b` among them, at the
positions at which `φ` has blank nodes. -/
def OnlyPlace (ds : List (Quad (LocalTerm B I L))) (S : Quad (Option B) → Prop)
    (φ : Quad (Option B)) (b : B) : Prop :=
  ∀ ψ ∈ frames ds, Several ψ → S ψ → some b ∈ positions ψ → SameSpots ψ φ → ψ = φ

/-- The quads with frame in `S` that have `b`, and blank nodes at the positions at which `φ` has
blank nodes, are equal up to the names of blank nodes. -/
def OnlyShape (ds : List (Quad (LocalTerm B I L))) (S : Quad (Option B) → Prop)
    (φ : Quad (Option B)) (b : B) : Prop :=
  ∀ q ∈ ds, ∀ q' ∈ ds, (S (q.map skeleton) ∧ .anonymous b ∈ positions q ∧
      SameSpots (q.map skeleton) φ) →
    (S (q'.map skeleton) ∧ .anonymous b ∈ positions q' ∧ SameSpots (q'.map skeleton) φ) →
    q.map erase = q'.map erase

/-- In every set of frames, if some have several blank nodes, one of these has a blank node for
which it is the only place, or which has only one shape, in the set. -/
def Untangled (ds : List (Quad (LocalTerm B I L))) : Prop :=
  ∀ S : Quad (Option B) → Prop, (∃ φ ∈ frames ds, Several φ ∧ S φ) →
    ∃ φ ∈ frames ds, Several φ ∧ S φ ∧
      ∃ b, some b ∈ positions φ ∧ (OnlyPlace ds S φ b ∨ OnlyShape ds S φ b)

/-- `c` is in the frame, deeper than the other blank nodes there. -/
def Deepest (depth : B → Nat) (c : B) (φ : Quad (Option B)) : Prop :=
  some c ∈ positions φ ∧ ∀ b, some b ∈ positions φ → b ≠ c → depth b < depth c

/-- Blank nodes form trees: they can be given depths such that where several of them are
together, one is the deepest, and it is the deepest in no other such place. -/
def TreeLike (ds : List (Quad (LocalTerm B I L))) : Prop :=
  ∃ depth : B → Nat,
    (∀ φ ∈ frames ds, Several φ → ∃ c, Deepest depth c φ) ∧
    ∀ φ ∈ frames ds, ∀ ψ ∈ frames ds, Several φ → Several ψ → ∀ c, Deepest depth c φ →
      Deepest depth c ψ → φ = ψ

end RdfTypes.Spec
