import Verif.Spec.Nameless
import Verif.Spec.Untangled

/-!
# Datasets of resources that say the same
-/

namespace RdfTypes.Spec

variable {R I L : Type}

/-- A nameless resource and its new name, or resources that share a term. -/
def CarriedTo (i : ReverseInterpretation R I L) (f : R → R) (r r' : R) : Prop :=
  (nameless i r = true ∧ nameless i r' = true ∧ f r = r') ∨ SharesTerm i r r'

/-- No two quads of the dataset say the same. -/
def SaysOnce (i : ReverseInterpretation R I L) (ds : List (Quad R)) : Prop :=
  ds.Pairwise fun q q' => ¬ EachPosition (CarriedTo i id) q q'

/-- A renaming of nameless resources, one to one on the first dataset, carries its quads to those
of the second. -/
def RelatedWith (i : ReverseInterpretation R I L) (f : R → R) (ds ds' : List (Quad R)) : Prop :=
  (∀ r r', NamelessIn i ds r → NamelessIn i ds r' → f r = f r' → r = r') ∧
  (∀ q ∈ ds, ∃ q' ∈ ds', EachPosition (CarriedTo i f) q q') ∧
  ∀ q' ∈ ds', ∃ q ∈ ds, EachPosition (CarriedTo i f) q q'

def IsomorphicWith (i : ReverseInterpretation R I L) (ds ds' : List (Quad R)) : Prop :=
  ∃ f, RelatedWith i f ds ds'

/-- Quads without nameless resources. -/
def AllNamed (i : ReverseInterpretation R I L) (q : Quad R) : Prop :=
  ∀ r ∈ positions q, nameless i r = false

/-- A nameless resource taken as a blank node, another one as what it shares terms with. -/
def meaning (i : ReverseInterpretation R I L) (r : R) : LocalTerm R (R → Prop) Empty :=
  if nameless i r then .anonymous r else .named (.iri (SharesTerm i r))

/-- The dataset with its resources so taken is untangled. -/
def UntangledWith (i : ReverseInterpretation R I L) (ds : List (Quad R)) : Prop :=
  Untangled (ds.map (·.map (meaning i)))

end RdfTypes.Spec
