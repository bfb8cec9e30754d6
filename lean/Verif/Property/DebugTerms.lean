import Verif.Property.Debugging
import Verif.Spec.DebugTerms
import Verif.Proof.DebugTerms

/-!
# C96: `Debug` output of terms
-/

set_option linter.unusedSectionVars false

namespace RdfTypes.Property

open Container Spec Debugging

variable {I L : Type}

/-- `{:?}` gives these texts for terms and identifiers. -/
theorem C96_one_line (borrowed : Bool) (plain : Char → Bool) (fi : I → Printed) (ft : L → Printed) :
    (∀ t, localTerm borrowed plain fi ft t false =
      localOnLine borrowed plain (fi · false) (ft · false) t) ∧
    ∀ i, idRef plain fi i false = idOnLine plain (fi · false) i :=
  ⟨localTerm_onLine borrowed plain fi ft, idRef_onLine plain fi⟩

/-- `{:#?}` gives these lines for terms and identifiers. -/
theorem C96_lines (borrowed : Bool) (plain : Char → Bool) (fi : I → Printed) (ft : L → Printed) :
    (∀ t, linesOf (localTerm borrowed plain fi ft t true) =
      localLines borrowed plain (fi · true) (ft · true) t) ∧
    ∀ i, linesOf (idRef plain fi i true) = idLines plain (fi · true) i :=
  ⟨localTerm_lines borrowed plain fi ft, idRef_lines plain fi⟩

/-- Strings can be told apart and their end can be told, whatever characters are plain. The
characters that are not plain are replaced by ones from space to tilde. -/
theorem C96_strings (plain : Char → Bool) (b : Bool) :
    Delimited (str plain · b) ∧
    ∀ s, ∀ c ∈ str plain s b,
      (c ∈ s ∧ plain c = true ∧ c ≠ '\n') ∨ (0x20 ≤ c.toNat ∧ c.toNat < 0x7F) :=
  ⟨(str_readable plain b).delimited, fun _ _ h => str_mem h⟩

/-- Terms and identifiers can be told apart and their end can be told, if this is so for IRIs and
language tags. -/
theorem C96_apart (borrowed : Bool) (plain : Char → Bool) (fi : I → Printed) (ft : L → Printed)
    (alternate : Bool) (hi : Delimited (fi · alternate)) (ht : Delimited (ft · alternate)) :
    Delimited (localTerm borrowed plain fi ft · alternate) ∧
    (∀ t t', localTerm borrowed plain fi ft t alternate =
      localTerm borrowed plain fi ft t' alternate → t = t') ∧
    Delimited (idRef plain fi · alternate) ∧
    ∀ i i', idRef plain fi i alternate = idRef plain fi i' alternate → i = i' :=
  ⟨(localTerm_readable hi ht).delimited,
    fun t t' e => (localTerm_readable hi ht t t' [] [] (by simpa using e)).1,
    (idRef_readable hi).delimited,
    fun i i' e => (idRef_readable hi i i' [] [] (by simpa using e)).1⟩

/-- Two datasets or graphs of terms that print alike, in either way, hold the same statements. -/
theorem C96_containers [Ord I] [Std.TransOrd I] [Std.LawfulEqOrd I] [DecidableEq I] [Ord L]
    [Std.TransOrd L] [Std.LawfulEqOrd L] [DecidableEq L] (rep borrowed : Bool)
    (plain : Char → Bool) (fi : I → Printed) (ft : L → Printed) (p p' : Printed) (alternate : Bool)
    (hi : Delimited (fi · alternate)) (ht : Delimited (ft · alternate))
    (e : p alternate = p' alternate) :
    (∀ A A', DatasetPrints rep (localTerm borrowed plain fi ft) A p →
      DatasetPrints rep (localTerm borrowed plain fi ft) A' p' → ∀ q, A q ↔ A' q) ∧
    ∀ A A', GraphPrints rep (localTerm borrowed plain fi ft) A p →
      GraphPrints rep (localTerm borrowed plain fi ft) A' p' → ∀ t, A t ↔ A' t :=
  C95_apart rep _ p p' alternate (C96_apart borrowed plain fi ft alternate hi ht).1 e

/-- IRIs and tags that are printed as strings meet the hypotheses. -/
example (plain : Char → Bool) (b : Bool) : Delimited (str plain · b) := (C96_strings plain b).1

/-- A literal on one line. -/
example : localTerm false (fun c => 0x20 ≤ c.toNat && c.toNat < 0x7F) (str fun _ => true)
    (str fun _ => true)
    (.named (.literal ⟨"a \"quote\",\n\x07 é".toList, .langString "fr".toList⟩)) false =
    "Named(Literal(Literal { value: \"a \\\"quote\\\",\\n\\u{7} \\u{e9}\", type_: LangString(\"fr\") }))".toList := by
  decide +kernel

/-- A literal in a graph, on many lines. -/
example : (do
    let d ← (BTreeGraph.container true (LocalTerm Text Text Text)).run BTreeGraph.new
      [.insert ⟨.anonymous "_:b".toList, .named (.iri "p".toList),
        .named (.literal ⟨"1".toList, .any "xsd".toList⟩)⟩]
    let f := localTerm true (fun _ => true) (str fun _ => true) (str fun _ => true)
    let p ← Debugging.container (BTreeGraph.container true (LocalTerm Text Text Text))
      (triple f f f) d
    pure (p true)) = .ok "{
    Triple(
        Anonymous(
            \"_:b\",
        ),
        Named(
            Iri(
                \"p\",
            ),
        ),
        Named(
            Literal(
                LiteralRef {
                    value: \"1\",
                    type_: Any(
                        \"xsd\",
                    ),
                },
            ),
        ),
    ),\n}".toList := by
  decide +kernel

/-- Without escaping, two triples of blank nodes would print alike. -/
example : ¬ Delimited fun s : Text => '"' :: (s ++ ['"']) := by
  intro h
  have := h ['a'] ['a', '"', ',', ' ', '"', 'a'] ',' ',' (' ' :: '"' :: 'a' :: '"' :: ',' :: []) [] (.inl rfl)
    (.inl rfl) (by decide)
  cases this

end RdfTypes.Property
