import Verif.Spec.NTriples

/-!
# What displays say, blank nodes included
-/

namespace RdfTypes.Spec.NTriples

/-- The term with a blank node replaced by the string that is its label. -/
def quoted : RdfTerm Text Text → RdfTerm Text Text
  | .blank l => .typed l "http://www.w3.org/2001/XMLSchema#string".toList
  | t => t

/-- The statement with its blank nodes replaced. -/
def quotedStatement (x : Statement) : Statement :=
  (quoted x.1, quoted x.2.1, quoted x.2.2.1, x.2.2.2.map quoted)

/-- Whatever the valid statements of a container, reading its display gives them, in order of
iteration and with their blank nodes replaced; and two containers are displayed alike exactly when
this is the same for both. -/
def DisplaysQuoted {S D : Type} (c : Container S D) (Reach : D → (S → Prop) → Prop)
    (display : D → Res Text) (a : S → Statement) : Prop :=
  ∀ d A, Reach d A → (∀ x, A x → ValidStatement (a x)) →
    ∃ xs t, c.iter d = .ok xs ∧ display d = .ok t ∧ (∀ x, x ∈ xs ↔ A x) ∧
      readDocument t = some (xs.map fun x => quotedStatement (a x)) ∧
      ∀ d' A' xs', Reach d' A' → (∀ x, A' x → ValidStatement (a x)) → c.iter d' = .ok xs' →
        (display d' = .ok t ↔
          xs'.map (fun x => quotedStatement (a x)) = xs.map fun x => quotedStatement (a x))

end RdfTypes.Spec.NTriples
