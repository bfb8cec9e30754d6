import Verif.Model.Debugging

/-!
# `Debug` output of terms

IRIs and language tags have any texts: those of the crates `iref` and `langtag` are not modelled.
-/

namespace RdfTypes

namespace Debugging

variable {I L : Type}

/-- A character in the `Debug` output of a string of std (`literal/mod.rs` 20): `plain` are the
characters that the tables of std say to be printable and not to extend others, which are not
modelled. -/
def char (plain : Char → Bool) (c : Char) : Text :=
  if c = '\x00' then ['\\', '0']
  else if c = '\t' then ['\\', 't']
  else if c = '\r' then ['\\', 'r']
  else if c = '\n' then ['\\', 'n']
  else if c = '\\' then ['\\', '\\']
  else if c = '"' then ['\\', '"']
  else if plain c then [c]
  else '\\' :: 'u' :: '{' :: (Nat.toDigits 16 c.toNat ++ ['}'])

/-- `Debug` of a string of std, of literals `literal/mod.rs` 20 and of blank node identifiers
`blankid.rs` 104-109 and 271-276. -/
def str (plain : Char → Bool) (s : Text) : Printed := fun _ =>
  '"' :: (s.flatMap (char plain) ++ ['"'])

/-- The fields written by `DebugStruct` of std, for `literal/mod.rs` 16. -/
def fields (name : Text) (l : List (Text × Printed)) : Printed := fun alternate =>
  match l with
  | [] => name
  | x :: l =>
    if alternate then
      name ++ ' ' :: '{' :: '\n' ::
        (x :: l).flatMap (fun y => indent true (y.1 ++ ':' :: ' ' :: y.2 true ++ [',', '\n'])) ++
          ['}']
    else
      name ++ ' ' :: '{' :: ' ' :: (x.1 ++ ':' :: ' ' :: x.2 false) ++
        l.flatMap (fun y => ',' :: ' ' :: (y.1 ++ ':' :: ' ' :: y.2 false)) ++ [' ', '}']

/-- The derived `Debug` of `LiteralType`: `literal/type/mod.rs` 15-23; also of `LiteralTypeRef`,
`literal/type/ref.rs` 13-20. -/
def literalType (fi : I → Printed) (ft : L → Printed) : LiteralType I L → Printed
  | .any i => items ['A', 'n', 'y', '('] [fi i] [')']
  | .langString t => items ['L', 'a', 'n', 'g', 'S', 't', 'r', 'i', 'n', 'g', '('] [ft t] [')']

/-- The derived `Debug` of `Literal`, `literal/mod.rs` 16-24, or if `borrowed` of `LiteralRef`,
`literal/ref.rs` 12-21. -/
def literal (borrowed : Bool) (plain : Char → Bool) (fi : I → Printed) (ft : L → Printed)
    (x : Literal I L) : Printed :=
  fields (['L', 'i', 't', 'e', 'r', 'a', 'l'] ++ if borrowed then ['R', 'e', 'f'] else [])
    [(['v', 'a', 'l', 'u', 'e'], str plain x.value),
      (['t', 'y', 'p', 'e', '_'], literalType fi ft x.type_)]

/-- The derived `Debug` of `Term`, `term/mod.rs` 19-28, or if `borrowed` of `TermRef`,
`term/ref.rs` 9-14. -/
def term (borrowed : Bool) (plain : Char → Bool) (fi : I → Printed) (ft : L → Printed) :
    Term I L → Printed
  | .iri i => items ['I', 'r', 'i', '('] [fi i] [')']
  | .literal x =>
    items ['L', 'i', 't', 'e', 'r', 'a', 'l', '('] [literal borrowed plain fi ft x] [')']

/-- The derived `Debug` of `LocalTerm`, `term/local/mod.rs` 16-22, or if `borrowed` of
`LocalTermRef`, `term/local/ref.rs` 7-12. -/
def localTerm (borrowed : Bool) (plain : Char → Bool) (fi : I → Printed) (ft : L → Printed) :
    LocalTerm Text I L → Printed
  | .anonymous b =>
    items ['A', 'n', 'o', 'n', 'y', 'm', 'o', 'u', 's', '('] [str plain b] [')']
  | .named t => items ['N', 'a', 'm', 'e', 'd', '('] [term borrowed plain fi ft t] [')']

/-- The derived `Debug` of `IdRef`: `id/ref.rs` 7-11. -/
def idRef (plain : Char → Bool) (fi : I → Printed) : Id Text I → Printed
  | .blankId b => items ['B', 'l', 'a', 'n', 'k', 'I', 'd', '('] [str plain b] [')']
  | .iri i => items ['I', 'r', 'i', '('] [fi i] [')']

end Debugging

end RdfTypes
