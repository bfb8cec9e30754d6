import Verif.Spec.Debugging
import Verif.Model.DebugTerms

/-!
# The text of a term for `{:?}` and `{:#?}`
-/

namespace RdfTypes.Spec

variable {I L : Type}

/-- Characters written as a backslash and a letter. -/
def backslashed : List (Char × Char) :=
  [('\x00', '0'), ('\t', 't'), ('\n', 'n'), ('\r', 'r'), ('"', '"'), ('\\', '\\')]

/-- A character between quotation marks. -/
def quotedChar (plain : Char → Bool) (c : Char) : Text :=
  match backslashed.lookup c with
  | some k => ['\\', k]
  | none => if plain c then [c] else ['\\', 'u', '{'] ++ Nat.toDigits 16 c.toNat ++ ['}']

/-- A string between quotation marks. -/
def quoted (plain : Char → Bool) (s : Text) : Text := ['"'] ++ s.flatMap (quotedChar plain) ++ ['"']

/-- The name of the type of a literal. -/
def literalName : Bool → Text
  | false => ['L', 'i', 't', 'e', 'r', 'a', 'l']
  | true => ['L', 'i', 't', 'e', 'r', 'a', 'l', 'R', 'e', 'f']

/-- A name and one text in parentheses. -/
def called (name t : Text) : Text := name ++ ['('] ++ t ++ [')']

/-- The type of a literal on one line. -/
def typeOnLine (fi : I → Text) (ft : L → Text) : LiteralType I L → Text
  | .any i => called ['A', 'n', 'y'] (fi i)
  | .langString t => called ['L', 'a', 'n', 'g', 'S', 't', 'r', 'i', 'n', 'g'] (ft t)

/-- A literal on one line. -/
def literalOnLine (borrowed : Bool) (plain : Char → Bool) (fi : I → Text) (ft : L → Text)
    (x : Literal I L) : Text :=
  literalName borrowed ++ [' ', '{', ' ', 'v', 'a', 'l', 'u', 'e', ':', ' '] ++
    quoted plain x.value ++ [',', ' ', 't', 'y', 'p', 'e', '_', ':', ' '] ++
    typeOnLine fi ft x.type_ ++ [' ', '}']

/-- A term on one line. -/
def termOnLine (borrowed : Bool) (plain : Char → Bool) (fi : I → Text) (ft : L → Text) :
    Term I L → Text
  | .iri i => called ['I', 'r', 'i'] (fi i)
  | .literal x =>
    called ['L', 'i', 't', 'e', 'r', 'a', 'l'] (literalOnLine borrowed plain fi ft x)

/-- A term that may be a blank node on one line. -/
def localOnLine (borrowed : Bool) (plain : Char → Bool) (fi : I → Text) (ft : L → Text) :
    LocalTerm Text I L → Text
  | .anonymous b =>
    called ['A', 'n', 'o', 'n', 'y', 'm', 'o', 'u', 's'] (quoted plain b)
  | .named t => called ['N', 'a', 'm', 'e', 'd'] (termOnLine borrowed plain fi ft t)

/-- An identifier on one line. -/
def idOnLine (plain : Char → Bool) (fi : I → Text) : Id Text I → Text
  | .blankId b => called ['B', 'l', 'a', 'n', 'k', 'I', 'd'] (quoted plain b)
  | .iri i => called ['I', 'r', 'i'] (fi i)

/-- A name and lines in parentheses. -/
def calledLines (name : Text) (l : List Text) : List Text :=
  [name ++ ['(']] ++ shifted 4 (closed l) ++ [[')']]

/-- The lines of the type of a literal, with the name of the field. -/
def typeLines (fi : I → Text) (ft : L → Text) : LiteralType I L → List Text
  | .any i => calledLines ['t', 'y', 'p', 'e', '_', ':', ' ', 'A', 'n', 'y'] (linesOf (fi i))
  | .langString t =>
    calledLines ['t', 'y', 'p', 'e', '_', ':', ' ', 'L', 'a', 'n', 'g', 'S', 't', 'r', 'i', 'n', 'g']
      (linesOf (ft t))

/-- The lines of a literal. -/
def literalLines (borrowed : Bool) (plain : Char → Bool) (fi : I → Text) (ft : L → Text)
    (x : Literal I L) : List Text :=
  [literalName borrowed ++ [' ', '{'],
    spaces 4 ++ ['v', 'a', 'l', 'u', 'e', ':', ' '] ++ quoted plain x.value ++ [',']] ++
    shifted 4 (closed (typeLines fi ft x.type_)) ++ [['}']]

/-- The lines of a term by itself. -/
def lonelyLines (borrowed : Bool) (plain : Char → Bool) (fi : I → Text) (ft : L → Text) :
    Term I L → List Text
  | .iri i => calledLines ['I', 'r', 'i'] (linesOf (fi i))
  | .literal x =>
    calledLines ['L', 'i', 't', 'e', 'r', 'a', 'l'] (literalLines borrowed plain fi ft x)

/-- The lines of a term that may be a blank node. -/
def localLines (borrowed : Bool) (plain : Char → Bool) (fi : I → Text) (ft : L → Text) :
    LocalTerm Text I L → List Text
  | .anonymous b =>
    calledLines ['A', 'n', 'o', 'n', 'y', 'm', 'o', 'u', 's'] [quoted plain b]
  | .named t => calledLines ['N', 'a', 'm', 'e', 'd'] (lonelyLines borrowed plain fi ft t)

/-- The lines of an identifier. -/
def idLines (plain : Char → Bool) (fi : I → Text) : Id Text I → List Text
  | .blankId b => calledLines ['B', 'l', 'a', 'n', 'k', 'I', 'd'] [quoted plain b]
  | .iri i => calledLines ['I', 'r', 'i'] (linesOf (fi i))

end RdfTypes.Spec
