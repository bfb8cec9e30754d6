import Verif.Model.Term

/-!
# Reverse interpretations

Model of the parts of `/repo/src/interpretation/mod.rs` and
`/repo/src/interpretation/impl/none.rs` that list the terms of a resource.
-/

namespace RdfTypes

/-- The required methods of `ReverseInterpretation`, `interpretation/mod.rs` 74-96.
Simplification: iterators are the lists of their items. -/
structure ReverseInterpretation (R I L : Type) where
  irisOf : R → List I
  literalsOf : R → List (Literal I L)

namespace ReverseInterpretation

variable {R I L : Type} (i : ReverseInterpretation R I L)

/-- `terms_of` and `TermsOf::next`, `interpretation/mod.rs` 86-91 and 106-111: the IRIs, then the
literals. -/
def termsOf (r : R) : List (Term I L) := (i.irisOf r).map .iri ++ (i.literalsOf r).map .literal

/-- `is_anonymous`, `interpretation/mod.rs` 93-95. -/
def isAnonymous (r : R) : Bool := (i.termsOf r).head?.isNone

end ReverseInterpretation

/-- `impl ReverseInterpretation for ()`, `interpretation/impl/none.rs` 32-49. -/
def lexical (B I L : Type) : ReverseInterpretation (LocalTerm B I L) I L where
  irisOf
    | .named (.iri i) => [i]
    | _ => []
  literalsOf
    | .named (.literal l) => [l]
    | _ => []

end RdfTypes
