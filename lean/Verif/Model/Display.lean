import Verif.Model.TermRef
import Verif.Model.Container

/-!
# Display

Model of `/repo/src/display.rs` and of the `RdfDisplay` and `fmt::Display`
implementations of terms, statements and containers. A display is the text written to
the formatter.

Simplifications: the formatter has no width, fill or precision, and writing to it does
not fail (`Verif/Model/Formatting.lean` models these). IRIs and language tags are their texts
(`I = L = Text`), so that two IRIs are equal when their texts are.
-/

namespace RdfTypes

/-- `"http://www.w3.org/2001/XMLSchema#string"`, `lib.rs` 51. -/
def xsdString : Text := "http://www.w3.org/2001/XMLSchema#string".toList

namespace Display

/-- One character of a string, `display.rs` 23-29. -/
def strChar (c : Char) : Text :=
  if c = '"' then ['\\', '"']
  else if c = '\\' then ['\\', '\\']
  else if c = '\n' then ['\\', 'n']
  else if c = '\r' then ['\\', 'r']
  else [c]

/-- `RdfDisplay for str`, `display.rs` 17-34; also for `String`, 36-40. -/
def str (s : Text) : Text := '"' :: s.flatMap strChar ++ ['"']

/-- The format `{:#04x}` (std) of `display.rs` 50: `0x` and the hexadecimal digits, at least
two. -/
def hex04 (n : Nat) : Text :=
  let digits := Nat.toDigits 16 n
  '0' :: 'x' :: (List.replicate (2 - digits.length) '0' ++ digits)

/-- The characters escaped in an IRI, `display.rs` 48. -/
def isEscapedInIri (c : Char) : Bool :=
  c.toNat ≤ 0x20 || c == '<' || c == '>' || c == '"' || c == '{' || c == '}' || c == '|' ||
    c == '^' || c == '`' || c == '\\'

/-- One character of an IRI, `display.rs` 47-53. -/
def iriChar (c : Char) : Text :=
  if isEscapedInIri c then '\\' :: 'u' :: hex04 c.toNat else [c]

/-- `RdfDisplay for IriRef`, `display.rs` 42-58; also for `Iri` 60-65, `IriBuf` 74-79 and
`IriRefBuf` 88-93. -/
def iri (s : Text) : Text := '<' :: s.flatMap iriChar ++ ['>']

/-- `RdfDisplay for LangTag`, `display.rs` 102-107; also for `LangTagBuf`, 116-121. -/
def langTag (s : Text) : Text := s

end Display

open Display

/-- `is_xsd_string`, `literal/type/mod.rs` 37-39. -/
def LiteralType.isXsdString (t : LiteralType Text Text) : Bool := t.isIri xsdString

/-- `is_xsd_string`, `literal/type/ref.rs` 36-38. -/
def LiteralTypeRef.isXsdString (t : LiteralTypeRef Text Text) : Bool := t.isIri xsdString

/-- `RdfDisplay for LiteralType`, `literal/type/mod.rs` 70-83. -/
def LiteralType.rdfFmt : LiteralType Text Text → Text
  | .any ty => '^' :: '^' :: iri ty
  | .langString tag => '@' :: Display.langTag tag

/-- `RdfDisplay for LiteralTypeRef`, `literal/type/ref.rs` 99-112. -/
def LiteralTypeRef.rdfFmt : LiteralTypeRef Text Text → Text
  | .any ty => '^' :: '^' :: iri ty
  | .langString tag => '@' :: Display.langTag tag

/-- `RdfDisplay for Literal`, `literal/mod.rs` 114-123. -/
def Literal.rdfFmt (l : Literal Text Text) : Text :=
  str l.value ++ if l.type_.isXsdString then [] else l.type_.rdfFmt

/-- `fmt::Display for Literal`, `literal/mod.rs` 103-112. -/
def Literal.fmt (l : Literal Text Text) : Text :=
  str l.value ++ if l.type_.isXsdString then [] else l.type_.rdfFmt

/-- `RdfDisplay for LiteralRef`, `literal/ref.rs` 145-154. -/
def LiteralRef.rdfFmt (l : LiteralRef Text Text) : Text :=
  str l.value ++ if l.type_.isXsdString then [] else l.type_.rdfFmt

/-- `fmt::Display for LiteralRef`, `literal/ref.rs` 134-143. -/
def LiteralRef.fmt (l : LiteralRef Text Text) : Text :=
  str l.value ++ if l.type_.isXsdString then [] else l.type_.rdfFmt

/-- `RdfDisplay for Term`, `term/mod.rs` 118-125. -/
def Term.rdfFmt : Term Text Text → Text
  | .iri i => Display.iri i
  | .literal l => l.rdfFmt

/-- `fmt::Display for Term`, `term/mod.rs` 109-116. `IriBuf` displays as its text. -/
def Term.fmt : Term Text Text → Text
  | .iri i => i
  | .literal l => l.fmt

/-- `RdfDisplay for LocalTerm`, `term/local/mod.rs` 130-137. There is no `RdfDisplay` for
`BlankIdBuf` nor for `BlankId`: the call on the identifier is resolved by dereferencing it
to `str` (`blankid.rs` 199-206 and 61-68), whose display is a quoted string. -/
def LocalTerm.rdfFmt : LexTerm Text Text → Text
  | .anonymous b => str b.asBlankIdRef.asStr
  | .named t => t.rdfFmt

/-- `fmt::Display for LocalTerm`, `term/local/mod.rs` 121-128, with
`fmt::Display for BlankIdBuf`, `blankid.rs` 264-269. -/
def LocalTerm.fmt : LexTerm Text Text → Text
  | .anonymous b => b.str
  | .named t => t.fmt

section statements

variable {S P O G : Type}

/-- `RdfDisplay for Quad`, `quad.rs` 338-358; also `fmt::Display`, 316-336, which has the
same body. -/
def Quad.rdfFmt (fs : S → Text) (fp : P → Text) (fo : O → Text) (fg : G → Text)
    (q : Quad S P O G) : Text :=
  match q.g with
  | some g => fs q.s ++ ' ' :: fp q.p ++ ' ' :: fo q.o ++ ' ' :: fg g
  | none => fs q.s ++ ' ' :: fp q.p ++ ' ' :: fo q.o

/-- `RdfDisplay for Triple`, `triple.rs` 200-210; also `fmt::Display`, 188-198, which has the
same body. -/
def Triple.rdfFmt (fs : S → Text) (fp : P → Text) (fo : O → Text) (t : Triple S P O) : Text :=
  fs t.s ++ ' ' :: fp t.p ++ ' ' :: fo t.o

end statements

/-- `RdfDisplay for Quad`, `quad.rs` 338-358, of lexical terms. -/
abbrev fmtQuad (q : Quad (LexTerm Text Text)) : Text :=
  q.rdfFmt LocalTerm.rdfFmt LocalTerm.rdfFmt LocalTerm.rdfFmt LocalTerm.rdfFmt

/-- `RdfDisplay for Triple`, `triple.rs` 200-210, of lexical terms. -/
abbrev fmtTriple (t : Triple (LexTerm Text Text)) : Text :=
  t.rdfFmt LocalTerm.rdfFmt LocalTerm.rdfFmt LocalTerm.rdfFmt

/-- `RdfDisplay` for the containers: `btree_dataset.rs` 446-454, `btree_graph.rs` 420-428,
`indexed_btree_dataset.rs` 1407-1415, `indexed_btree_graph.rs` 826-834. All four have the
same body, over `IntoIterator for &Self`. -/
def Container.rdfFmt {S D : Type} (c : Container S D) (f : S → Text) (d : D) : Res Text := do
  let xs ← c.iter d
  return xs.flatMap fun t => f t ++ [' ', '.', '\n']

end RdfTypes
