import Verif.Spec.Isomorphism

/-!
# Datasets whose blank nodes are placed alike
-/

namespace RdfTypes.Spec

variable {B I L : Type}

/-- What is left of a term when everything but the blank nodes is erased. -/
def skeleton : LocalTerm B I L → Option B
  | .anonymous b => some b
  | .named _ => none

/-- The quads that have blank nodes, without their other terms. -/
def frames (ds : List (Quad (LocalTerm B I L))) : List (Quad (Option B)) :=
  (ds.map (·.map skeleton)).filter fun q => (positions q).any Option.isSome

/-- The datasets have the same number of quads, and a renaming, one to one on the blank nodes
of the first, keeps two things apart from each other: how often which blank nodes occur
together at which positions, whatever the other terms, and which quads are around each blank
node, whatever the other blank nodes. -/
structure Consistent [DecidableEq B] [DecidableEq I] [DecidableEq L] (f : B → B)
    (ds ds' : List (Quad (LocalTerm B I L))) : Prop where
  length : ds.length = ds'.length
  injective : ∀ b b', BlankIn ds (.anonymous b) → BlankIn ds (.anonymous b') → f b = f b' → b = b'
  places : ((frames ds).map (·.map (Option.map f))).Perm (frames ds')
  shapes : ∀ b, BlankIn ds (.anonymous b) →
    (surroundings ds (.anonymous b)).Perm (surroundings ds' (.anonymous (f b)))

end RdfTypes.Spec
