import Verif.Spec.Isomorphism

/-!
# Isomorphic datasets of resources
-/

namespace RdfTypes.Spec

variable {R I L : Type}

/-- A resource that no term names. -/
def nameless (i : ReverseInterpretation R I L) (r : R) : Bool :=
  (i.irisOf r).isEmpty && (i.literalsOf r).isEmpty

/-- Resources that a common term names. -/
def SharesTerm (i : ReverseInterpretation R I L) (r r' : R) : Prop :=
  (∃ x, x ∈ i.irisOf r ∧ x ∈ i.irisOf r') ∨ ∃ x, x ∈ i.literalsOf r ∧ x ∈ i.literalsOf r'

/-- Resources that the terms do not tell apart. -/
def Alike (i : ReverseInterpretation R I L) (r r' : R) : Prop :=
  SharesTerm i r r' ∨ nameless i r = true ∧ nameless i r' = true

/-- Resources that share a term with a third one share a term. So it is when every resource
has at most one term, and when every term names at most one resource. -/
def NamesAgree (i : ReverseInterpretation R I L) : Prop :=
  ∀ a b c, SharesTerm i a b → SharesTerm i b c → SharesTerm i a c

/-- A nameless resource that occurs in a dataset. -/
def NamelessIn (i : ReverseInterpretation R I L) (ds : List (Quad R)) (r : R) : Prop :=
  nameless i r = true ∧ ∃ q ∈ ds, r ∈ positions q

/-- The quads around a resource, once for each position of it. -/
def quadsAround [DecidableEq R] (ds : List (Quad R)) (r : R) : List (Quad R) :=
  ds.flatMap (fun q => ((positions q).filter (· = r)).map (fun _ => q))

/-- The quads that have nameless resources, without the other ones. -/
def namelessFrames (i : ReverseInterpretation R I L) (ds : List (Quad R)) :
    List (Quad (Option R)) :=
  (ds.map (·.map fun r => if nameless i r then some r else none)).filter
    fun q => (positions q).any Option.isSome

/-- The datasets have the same number of quads, and a renaming of nameless resources, one to
one on those of the first, keeps two things apart from each other: how often which of them
occur together at which positions, whatever the other resources, and which quads are around
each of them, whatever the other ones. -/
structure ConsistentWith [DecidableEq R] (i : ReverseInterpretation R I L) (f : R → R)
    (ds ds' : List (Quad R)) : Prop where
  length : ds.length = ds'.length
  injective : ∀ r r', NamelessIn i ds r → NamelessIn i ds r' → f r = f r' → r = r'
  places : ((namelessFrames i ds).map (·.map (Option.map f))).Perm (namelessFrames i ds')
  shapes : ∀ r, NamelessIn i ds r →
    Paired (EachPosition (Alike i)) (quadsAround ds r) (quadsAround ds' (f r))

end RdfTypes.Spec
