import Verif.Model.Term
import Verif.Model.BlankId

/-!
# Borrowed terms, comparisons and hashes

Model of the borrowed (`ref.rs`) and copy-on-write (`cow.rs`) forms of
`/repo/src/literal/type`, `/repo/src/literal`, `/repo/src/term`, `/repo/src/term/local`
and `/repo/src/id`, of the comparisons between owned and borrowed forms, and of the
`Hash` and `Borrow` implementations.

A borrowed IRI (`&Iri`) and an owned one (`IriBuf`) are the same value of `I`, and
likewise for language tags (`L`): that the crates `iref` and `langtag` compare and hash
the two forms alike is assumed. Borrowed and owned blank node identifiers are distinct
types, as in the crate. Setters through mutable references (`as_type_mut`,
`as_value_mut`) give access to a public field and are not modelled.
-/

namespace RdfTypes

variable {I L : Type}

/-! ## Types -/

/-- `std::borrow::Cow`, as in `term/cow.rs` 10: borrowed or owned. -/
inductive Cow (A B : Type) where
  | borrowed (a : A)
  | owned (b : B)
  deriving DecidableEq, Repr

/-- `LiteralTypeRef`, `literal/type/ref.rs` 16-22. -/
inductive LiteralTypeRef (I L : Type) where
  | any (iri : I)
  | langString (tag : L)
  deriving DecidableEq, Repr

/-- `LiteralRef`, `literal/ref.rs` 15-21. -/
structure LiteralRef (I L : Type) where
  value : Text
  type_ : LiteralTypeRef I L
  deriving DecidableEq, Repr

/-- `TermRef`, `term/ref.rs` 10-14. -/
inductive TermRef (I L : Type) where
  | iri (iri : I)
  | literal (l : LiteralRef I L)
  deriving DecidableEq, Repr

/-- `LocalTermRef`, `term/local/ref.rs` 8-12. -/
inductive LocalTermRef (I L : Type) where
  | anonymous (id : BlankId)
  | named (t : TermRef I L)
  deriving DecidableEq, Repr

/-- `IdRef`, `id/ref.rs` 8-11. -/
inductive IdRef (I : Type) where
  | blankId (id : BlankId)
  | iri (iri : I)
  deriving DecidableEq, Repr

/-- `CowLiteralType`, `literal/type/cow.rs` 13-19. -/
inductive CowLiteralType (I L : Type) where
  | any (iri : Cow I I)
  | langString (tag : Cow L L)
  deriving Repr

/-- `CowLiteral`, `literal/cow.rs` 11-17. -/
structure CowLiteral (I L : Type) where
  value : Cow Text Text
  type_ : CowLiteralType I L
  deriving Repr

/-- `CowTerm`, `term/cow.rs` 9-13. -/
inductive CowTerm (I L : Type) where
  | iri (iri : Cow I I)
  | literal (l : CowLiteral I L)
  deriving Repr

/-- `CowLocalTerm`, `term/local/cow.rs` 6-10. -/
inductive CowLocalTerm (I L : Type) where
  | anonymous (id : Cow BlankId BlankIdBuf)
  | named (t : CowTerm I L)
  deriving Repr

/-- `CowId`, `id/cow.rs` 7-10. -/
inductive CowId (I : Type) where
  | blankId (id : Cow BlankId BlankIdBuf)
  | iri (iri : Cow I I)
  deriving Repr

/-- Equality of `Cow`s (std), used by the derived one of `literal/cow.rs` 8: of the contents.
-/
def Cow.eq {A : Type} [DecidableEq A] : Cow A A → Cow A A → Bool
  | .borrowed a, .borrowed b => a == b
  | .borrowed a, .owned b => a == b
  | .owned a, .borrowed b => a == b
  | .owned a, .owned b => a == b

/-- Comparison of `Cow`s (std), used by the derived one of `literal/cow.rs` 8: of the
contents. -/
def Cow.cmp {A : Type} [Ord A] : Cow A A → Cow A A → Ordering
  | .borrowed a, .borrowed b => compare a b
  | .borrowed a, .owned b => compare a b
  | .owned a, .borrowed b => compare a b
  | .owned a, .owned b => compare a b

/-- `&*cow`, `Deref for Cow` (std), as in `literal/cow.rs` 28. -/
def Cow.get {A : Type} : Cow A A → A
  | .borrowed a => a
  | .owned a => a

/-! ## Literal types -/

namespace LiteralType

/-- `is_lang_string`, `literal/type/mod.rs` 26-28. -/
def isLangString : LiteralType I L → Bool
  | .langString _ => true
  | .any _ => false

/-- `lang_tag`, `literal/type/mod.rs` 30-35. -/
def langTag : LiteralType I L → Option L
  | .langString tag => some tag
  | .any _ => none

/-- `is_iri`, `literal/type/mod.rs` 41-46. -/
def isIri [DecidableEq I] (t : LiteralType I L) (iri : I) : Bool :=
  match t with
  | .any i => i == iri
  | .langString _ => false

/-- `as_ref`, `literal/type/mod.rs` 48-53. -/
def asRef : LiteralType I L → LiteralTypeRef I L
  | .any i => .any i
  | .langString l => .langString l

/-- `as_cow`, `literal/type/mod.rs` 55-60. -/
def asCow : LiteralType I L → CowLiteralType I L
  | .any i => .any (.borrowed i)
  | .langString l => .langString (.borrowed l)

/-- `into_cow`, `literal/type/mod.rs` 62-67. -/
def intoCow : LiteralType I L → CowLiteralType I L
  | .any i => .any (.owned i)
  | .langString l => .langString (.owned l)

/-- `PartialEq<LiteralTypeRef>`, `literal/type/ref.rs` 67-75. -/
def eqRef [DecidableEq I] [DecidableEq L] : LiteralType I L → LiteralTypeRef I L → Bool
  | .any a, .any b => a == b
  | .langString a, .langString b => a == b
  | _, _ => false

/-- `PartialOrd<LiteralTypeRef>`, `literal/type/ref.rs` 88-97. -/
def partialCmpRef [Ord I] [Ord L] : LiteralType I L → LiteralTypeRef I L → Option Ordering
  | .any a, .any b => some (compare a b)
  | .any _, .langString _ => some .lt
  | .langString _, .any _ => some .gt
  | .langString a, .langString b => some (compare a b)

end LiteralType

namespace LiteralTypeRef

/-- `is_lang_string`, `literal/type/ref.rs` 25-27. -/
def isLangString : LiteralTypeRef I L → Bool
  | .langString _ => true
  | .any _ => false

/-- `lang_tag`, `literal/type/ref.rs` 29-34. -/
def langTag : LiteralTypeRef I L → Option L
  | .langString tag => some tag
  | .any _ => none

/-- `is_iri`, `literal/type/ref.rs` 40-45. -/
def isIri [DecidableEq I] (t : LiteralTypeRef I L) (iri : I) : Bool :=
  match t with
  | .any i => i == iri
  | .langString _ => false

/-- `into_owned`, `literal/type/ref.rs` 49-54. -/
def intoOwned : LiteralTypeRef I L → LiteralType I L
  | .any i => .any i
  | .langString l => .langString l

/-- `PartialEq<LiteralType>`, `literal/type/ref.rs` 57-65. -/
def eqOwned [DecidableEq I] [DecidableEq L] : LiteralTypeRef I L → LiteralType I L → Bool
  | .any a, .any b => a == b
  | .langString a, .langString b => a == b
  | _, _ => false

/-- `PartialOrd<LiteralType>`, `literal/type/ref.rs` 77-86. -/
def partialCmpOwned [Ord I] [Ord L] : LiteralTypeRef I L → LiteralType I L → Option Ordering
  | .any a, .any b => some (compare a b)
  | .any _, .langString _ => some .lt
  | .langString _, .any _ => some .gt
  | .langString a, .langString b => some (compare a b)

/-- Derived `Ord`, `literal/type/ref.rs` 13. -/
def cmp [Ord I] [Ord L] : LiteralTypeRef I L → LiteralTypeRef I L → Ordering
  | .any a, .any b => compare a b
  | .any _, .langString _ => .lt
  | .langString _, .any _ => .gt
  | .langString a, .langString b => compare a b

/-- Derived `Ord`, `literal/type/ref.rs` 13. -/
instance [Ord I] [Ord L] : Ord (LiteralTypeRef I L) := ⟨cmp⟩

end LiteralTypeRef

namespace CowLiteralType

/-- `as_ref`, `literal/type/cow.rs` 22-27. -/
def asRef : CowLiteralType I L → LiteralTypeRef I L
  | .any i => .any i.get
  | .langString l => .langString l.get

/-- `into_owned`, `literal/type/cow.rs` 29-34; also `From<CowLiteralType> for LiteralType`,
37-41. -/
def intoOwned : CowLiteralType I L → LiteralType I L
  | .any i => .any i.get
  | .langString l => .langString l.get

/-- `From<LiteralTypeRef>`, `literal/type/cow.rs` 43-50. -/
def ofRef : LiteralTypeRef I L → CowLiteralType I L
  | .any i => .any (.borrowed i)
  | .langString l => .langString (.borrowed l)

/-- Derived `PartialEq`, `literal/type/cow.rs` 10. -/
def eq [DecidableEq I] [DecidableEq L] : CowLiteralType I L → CowLiteralType I L → Bool
  | .any a, .any b => a.eq b
  | .langString a, .langString b => a.eq b
  | _, _ => false

/-- Derived `Ord`, `literal/type/cow.rs` 10. -/
def cmp [Ord I] [Ord L] : CowLiteralType I L → CowLiteralType I L → Ordering
  | .any a, .any b => a.cmp b
  | .any _, .langString _ => .lt
  | .langString _, .any _ => .gt
  | .langString a, .langString b => a.cmp b

end CowLiteralType

/-! ## Literals -/

namespace Literal

/-- `into_parts`, `literal/mod.rs` 58-60. -/
def intoParts (l : Literal I L) : Text × LiteralType I L := (l.value, l.type_)

/-- `as_str`, `literal/mod.rs` 62-64; also `Borrow<str>` 91-95 and `AsRef<str>` 97-101. -/
def asStr (l : Literal I L) : Text := l.value

/-- `is_lang_string`, `literal/mod.rs` 70-72. -/
def isLangString (l : Literal I L) : Bool := l.type_.isLangString

/-- `lang_tag`, `literal/mod.rs` 74-76. -/
def langTag (l : Literal I L) : Option L := l.type_.langTag

/-- `as_ref`, `literal/mod.rs` 78-80. -/
def asRef (l : Literal I L) : LiteralRef I L := ⟨l.value, l.type_.asRef⟩

/-- `as_cow`, `literal/mod.rs` 82-84. -/
def asCow (l : Literal I L) : CowLiteral I L := ⟨.borrowed l.value, l.type_.asCow⟩

/-- `into_cow`, `literal/mod.rs` 86-88. -/
def intoCow (l : Literal I L) : CowLiteral I L := ⟨.owned l.value, l.type_.intoCow⟩

/-- `PartialEq<LiteralRef>`, `literal/ref.rs` 83-87. -/
def eqRef [DecidableEq I] [DecidableEq L] (a : Literal I L) (b : LiteralRef I L) : Bool :=
  a.type_.eqRef b.type_ && a.value == b.value

/-- `PartialOrd<LiteralRef>`, `literal/ref.rs` 101-110. -/
def partialCmpRef [Ord I] [Ord L] (a : Literal I L) (b : LiteralRef I L) : Option Ordering := do
  let t ← a.type_.partialCmpRef b.type_
  return (compare a.value b.value).then t

end Literal

namespace LiteralRef

/-- `into_parts`, `literal/ref.rs` 48-50. -/
def intoParts (l : LiteralRef I L) : Text × LiteralTypeRef I L := (l.value, l.type_)

/-- `as_str`, `literal/ref.rs` 52-54; also `Borrow<str>` 122-126 and `AsRef<str>` 128-132. -/
def asStr (l : LiteralRef I L) : Text := l.value

/-- `is_lang_string`, `literal/ref.rs` 60-62. -/
def isLangString (l : LiteralRef I L) : Bool := l.type_.isLangString

/-- `lang_tag`, `literal/ref.rs` 64-66. -/
def langTag (l : LiteralRef I L) : Option L := l.type_.langTag

/-- `into_cow`, `literal/ref.rs` 68-70: `CowLiteral::new` on a `&str` and a
`LiteralTypeRef`. -/
def intoCow (l : LiteralRef I L) : CowLiteral I L := ⟨.borrowed l.value, .ofRef l.type_⟩

/-- `to_owned`, `literal/ref.rs` 74-76; also `cloned` 78-80. -/
def toOwned (l : LiteralRef I L) : Literal I L := ⟨l.value, l.type_.intoOwned⟩

/-- `PartialEq<Literal>`, `literal/ref.rs` 89-93. -/
def eqOwned [DecidableEq I] [DecidableEq L] (a : LiteralRef I L) (b : Literal I L) : Bool :=
  a.type_.eqOwned b.type_ && a.value == b.value

/-- `Equivalent<Literal>`, `literal/ref.rs` 95-99. -/
def equivalent [DecidableEq I] [DecidableEq L] (a : LiteralRef I L) (key : Literal I L) : Bool :=
  a.eqOwned key

/-- `PartialOrd<Literal>`, `literal/ref.rs` 112-120. -/
def partialCmpOwned [Ord I] [Ord L] (a : LiteralRef I L) (b : Literal I L) : Option Ordering := do
  let t ← a.type_.partialCmpOwned b.type_
  return (compare a.value b.value).then t

/-- Derived `Ord`, `literal/ref.rs` 12: fields in order. -/
def cmp [Ord I] [Ord L] (a b : LiteralRef I L) : Ordering :=
  (compare a.value b.value).then (compare a.type_ b.type_)

/-- Derived `Ord`, `literal/ref.rs` 12. -/
instance [Ord I] [Ord L] : Ord (LiteralRef I L) := ⟨cmp⟩

end LiteralRef

namespace CowLiteral

/-- `as_ref`, `literal/cow.rs` 27-29. -/
def asRef (l : CowLiteral I L) : LiteralRef I L := ⟨l.value.get, l.type_.asRef⟩

/-- `into_owned`, `literal/cow.rs` 31-33: `Literal::new` on a `Cow<str>` and a
`CowLiteralType`. -/
def intoOwned (l : CowLiteral I L) : Literal I L := ⟨l.value.get, l.type_.intoOwned⟩

/-- `From<&Literal>`, `literal/cow.rs` 36-40. -/
def ofLiteral (l : Literal I L) : CowLiteral I L := ⟨.borrowed l.value, .ofRef l.type_.asRef⟩

/-- Derived `PartialEq`, `literal/cow.rs` 8. -/
def eq [DecidableEq I] [DecidableEq L] (a b : CowLiteral I L) : Bool :=
  a.value.eq b.value && a.type_.eq b.type_

/-- Derived `Ord`, `literal/cow.rs` 8. -/
def cmp [Ord I] [Ord L] (a b : CowLiteral I L) : Ordering :=
  (a.value.cmp b.value).then (a.type_.cmp b.type_)

end CowLiteral

/-! ## Terms -/

namespace Term

/-- `is_iri`, `term/mod.rs` 31-33. -/
def isIri : Term I L → Bool
  | .iri _ => true
  | .literal _ => false

/-- `is_literal`, `term/mod.rs` 35-37. -/
def isLiteral : Term I L → Bool
  | .literal _ => true
  | .iri _ => false

/-- `as_literal`, `term/mod.rs` 39-44. -/
def asLiteral : Term I L → Option (LiteralRef I L)
  | .literal l => some l.asRef
  | .iri _ => none

/-- `into_literal`, `term/mod.rs` 46-51. -/
def intoLiteral : Term I L → Option (Literal I L)
  | .literal l => some l
  | .iri _ => none

/-- `try_into_literal`, `term/mod.rs` 53-58. -/
def tryIntoLiteral : Term I L → Except I (Literal I L)
  | .literal l => .ok l
  | .iri i => .error i

/-- `as_iri`, `term/mod.rs` 60-65. -/
def asIri : Term I L → Option I
  | .iri i => some i
  | .literal _ => none

/-- `try_into_iri`, `term/mod.rs` 67-72. -/
def tryIntoIri : Term I L → Except (Term I L) I
  | .iri i => .ok i
  | other => .error other

/-- `into_iri`, `term/mod.rs` 74-76. -/
def intoIri (t : Term I L) : Option I :=
  match t.tryIntoIri with
  | .ok i => some i
  | .error _ => none

/-- `as_ref`, `term/mod.rs` 78-83. -/
def asRef : Term I L → TermRef I L
  | .iri i => .iri i
  | .literal l => .literal l.asRef

/-- `as_cow`, `term/mod.rs` 85-90. -/
def asCow : Term I L → CowTerm I L
  | .iri i => .iri (.borrowed i)
  | .literal l => .literal l.asCow

/-- `into_cow`, `term/mod.rs` 92-97; also `From<Term> for CowTerm`, `term/cow.rs` 24-28. -/
def intoCow : Term I L → CowTerm I L
  | .iri i => .iri (.owned i)
  | .literal l => .literal l.intoCow

end Term

namespace TermRef

/-- `to_owned`, `term/ref.rs` 17-22. -/
def toOwned : TermRef I L → Term I L
  | .iri i => .iri i
  | .literal l => .literal l.toOwned

/-- `PartialEq<Term>`, `term/ref.rs` 25-33. -/
def eqOwned [DecidableEq I] [DecidableEq L] : TermRef I L → Term I L → Bool
  | .iri a, .iri b => a == b
  | .literal a, .literal b => a.eqOwned b
  | _, _ => false

/-- `PartialOrd<Term>`, `term/ref.rs` 35-44. -/
def partialCmpOwned [Ord I] [Ord L] : TermRef I L → Term I L → Option Ordering
  | .iri a, .iri b => some (compare a b)
  | .iri _, .literal _ => some .lt
  | .literal _, .iri _ => some .gt
  | .literal a, .literal b => a.partialCmpOwned b

/-- Derived `Ord`, `term/ref.rs` 9. -/
def cmp [Ord I] [Ord L] : TermRef I L → TermRef I L → Ordering
  | .iri a, .iri b => compare a b
  | .iri _, .literal _ => .lt
  | .literal _, .iri _ => .gt
  | .literal a, .literal b => compare a b

/-- Derived `Ord`, `term/ref.rs` 9. -/
instance [Ord I] [Ord L] : Ord (TermRef I L) := ⟨cmp⟩

end TermRef

/-- `CowTerm::into_owned`, `term/cow.rs` 16-21. -/
def CowTerm.intoOwned : CowTerm I L → Term I L
  | .iri i => .iri i.get
  | .literal l => .literal l.intoOwned

/-! ## Blank node identifiers -/

/-- `PartialEq<BlankId> for BlankIdBuf`, `blankid.rs` 278-282; also for `&BlankId`,
284-288. -/
def BlankIdBuf.eqRef (a : BlankIdBuf) (b : BlankId) : Bool := a.asBlankIdRef == b

/-- `PartialEq<BlankIdBuf> for BlankId`, `blankid.rs` 296-300; also for `&BlankId`,
290-294. -/
def BlankId.eqOwned (a : BlankId) (b : BlankIdBuf) : Bool := a == b.asBlankIdRef

/-- `PartialEq<str> for BlankId`, `blankid.rs` 111-116. -/
def BlankId.eqStr (a : BlankId) (b : Text) : Bool := a.asStr == b

/-! ## Lexical terms -/

/-- `LocalTerm` with its blank node identifiers, `term/local/mod.rs` 19-22. -/
abbrev LexTerm (I L : Type) := LocalTerm BlankIdBuf I L

namespace LocalTerm

/-- `is_anonymous`, `term/local/mod.rs` 33-35; also `is_blank_id` 37-39. -/
def isAnonymous : LexTerm I L → Bool
  | .anonymous _ => true
  | .named _ => false

/-- `as_anonymous`, `term/local/mod.rs` 41-46; also `as_blank_id` 48-50. -/
def asAnonymous : LexTerm I L → Option BlankId
  | .anonymous b => some b.asBlankIdRef
  | .named _ => none

/-- `as_iri`, `term/local/mod.rs` 52-57. -/
def asIri : LexTerm I L → Option I
  | .named t => t.asIri
  | .anonymous _ => none

/-- `as_literal`, `term/local/mod.rs` 59-64. -/
def asLiteral : LexTerm I L → Option (LiteralRef I L)
  | .named t => t.asLiteral
  | .anonymous _ => none

/-- `as_ref`, `term/local/mod.rs` 66-71. -/
def asRef : LexTerm I L → LocalTermRef I L
  | .anonymous b => .anonymous b.asBlankIdRef
  | .named t => .named t.asRef

/-- `as_cow`, `term/local/mod.rs` 73-78. -/
def asCow : LexTerm I L → CowLocalTerm I L
  | .anonymous b => .anonymous (.borrowed b.asBlankIdRef)
  | .named t => .named t.asCow

/-- `into_cow`, `term/local/mod.rs` 80-85; also `From<LocalTerm> for CowLocalTerm`,
`term/local/cow.rs` 12-16. -/
def intoCow : LexTerm I L → CowLocalTerm I L
  | .anonymous b => .anonymous (.owned b)
  | .named t => .named t.intoCow

/-- `iri`, `term/local/mod.rs` 25-27; also `From<IriBuf>`, 88-92. -/
def ofIri (i : I) : LexTerm I L := .named (.iri i)

/-- `literal`, `term/local/mod.rs` 29-31; also `From<Literal>`, 94-98. -/
def ofLiteral (l : Literal I L) : LexTerm I L := .named (.literal l)

/-- `From<Term>`, `term/local/mod.rs` 100-104. -/
def ofTerm (t : Term I L) : LexTerm I L := .named t

/-- `From<BlankIdBuf>`, `term/local/mod.rs` 106-110. -/
def ofBlankId (b : BlankIdBuf) : LexTerm I L := .anonymous b

end LocalTerm

namespace LocalTermRef

/-- `to_owned`, `term/local/ref.rs` 15-20. -/
def toOwned : LocalTermRef I L → LexTerm I L
  | .anonymous b => .anonymous b.toOwned
  | .named t => .named t.toOwned

/-- `PartialEq<LocalTerm>`, `term/local/ref.rs` 23-31. -/
def eqOwned [DecidableEq I] [DecidableEq L] : LocalTermRef I L → LexTerm I L → Bool
  | .anonymous a, .anonymous b => a.eqOwned b
  | .named a, .named b => a.eqOwned b
  | _, _ => false

/-- `PartialOrd<LocalTerm>`, `term/local/ref.rs` 33-42. The owned identifier is
dereferenced to a `BlankId`. -/
def partialCmpOwned [Ord I] [Ord L] : LocalTermRef I L → LexTerm I L → Option Ordering
  | .anonymous a, .anonymous b => some (compare a b.asBlankIdRef)
  | .anonymous _, .named _ => some .lt
  | .named _, .anonymous _ => some .gt
  | .named a, .named b => a.partialCmpOwned b

/-- Derived `Ord`, `term/local/ref.rs` 7. -/
def cmp [Ord I] [Ord L] : LocalTermRef I L → LocalTermRef I L → Ordering
  | .anonymous a, .anonymous b => compare a b
  | .anonymous _, .named _ => .lt
  | .named _, .anonymous _ => .gt
  | .named a, .named b => compare a b

/-- Derived `Ord`, `term/local/ref.rs` 7. -/
instance [Ord I] [Ord L] : Ord (LocalTermRef I L) := ⟨cmp⟩

end LocalTermRef

/-! ## Subjects and graph labels -/

namespace Id

/-- `as_iri`, `id/mod.rs` 18-23. -/
def asIri : Id BlankIdBuf I → Option I
  | .iri i => some i
  | .blankId _ => none

/-- `as_ref`, `id/mod.rs` 25-30. -/
def asRef : Id BlankIdBuf I → IdRef I
  | .blankId b => .blankId b.asBlankIdRef
  | .iri i => .iri i

/-- `as_cow`, `id/mod.rs` 32-37. -/
def asCow : Id BlankIdBuf I → CowId I
  | .blankId b => .blankId (.borrowed b.asBlankIdRef)
  | .iri i => .iri (.borrowed i)

end Id

namespace IdRef

/-- `into_owned`, `id/ref.rs` 18-23; also `to_owned` 14-16. -/
def intoOwned : IdRef I → Id BlankIdBuf I
  | .blankId b => .blankId b.toOwned
  | .iri i => .iri i

end IdRef

/-! ## Lexical statements -/

/-- `RdfQuad`, `quad.rs` 8: the subject and graph label are `Id`s. -/
abbrev LexQuad (I L : Type) := Quad (Id BlankIdBuf I) I (LexTerm I L) (Id BlankIdBuf I)

/-- `RdfQuadRef`, `quad.rs` 11. -/
abbrev LexQuadRef (I L : Type) := Quad (IdRef I) I (LocalTermRef I L) (IdRef I)

/-- `LexicalTriple`, `triple.rs` 6. -/
abbrev LexTriple (I L : Type) := Triple (Id BlankIdBuf I) I (LexTerm I L)

/-- `LexicalTripleRef`, `triple.rs` 9. -/
abbrev LexTripleRef (I L : Type) := Triple (IdRef I) I (LocalTermRef I L)

/-- `as_lexical_quad_ref`, `quad.rs` 84-93. -/
def LexQuad.asLexicalQuadRef (q : LexQuad I L) : LexQuadRef I L :=
  ⟨q.s.asRef, q.p, q.o.asRef, q.g.map Id.asRef⟩

/-- `into_owned`, `quad.rs` 95-104. -/
def LexQuadRef.intoOwned (q : LexQuadRef I L) : LexQuad I L :=
  ⟨q.s.intoOwned, q.p, q.o.toOwned, q.g.map IdRef.intoOwned⟩

/-- `as_lexical_triple_ref`, `triple.rs` 176-180. -/
def LexTriple.asLexicalTripleRef (t : LexTriple I L) : LexTripleRef I L :=
  ⟨t.s.asRef, t.p, t.o.asRef⟩

/-- `into_owned`, `triple.rs` 182-186. -/
def LexTripleRef.intoOwned (t : LexTripleRef I L) : LexTriple I L :=
  ⟨t.s.intoOwned, t.p, t.o.toOwned⟩

/-! ## Hashes

What a value writes to the hasher, as a sequence of writes. Two values hash equally
with every hasher if they write the same sequence. -/

/-- One write to a `Hasher` (std), as in `term/local/mod.rs` 112-119: a string (`str::hash`
writes the bytes and a terminator) or an enum discriminant, or something written by another
crate. -/
inductive Write where
  | str (s : Text)
  | discriminant (n : Nat)
  | other (s : Text)
  deriving DecidableEq, Repr

/-- Types with a `Hash` implementation, derived as in `literal/mod.rs` 16 or written as in
`term/local/mod.rs` 112-119. -/
class Hashed (A : Type) where
  /-- What is written to the hasher. -/
  hash : A → List Write

/-- `str`, `String` (std), used by `literal/mod.rs` 20. -/
instance : Hashed Text := ⟨fun s => [.str s]⟩

/-- Derived, `blankid.rs` 24. -/
instance : Hashed BlankId := ⟨fun b => Hashed.hash b.asStr⟩

/-- Derived, `blankid.rs` 129. -/
instance : Hashed BlankIdBuf := ⟨fun b => Hashed.hash b.str⟩

variable [Hashed I] [Hashed L]

/-- `Cow` (std), used by `literal/cow.rs` 13: the contents. -/
instance {A : Type} [Hashed A] : Hashed (Cow A A) := ⟨fun c => Hashed.hash c.get⟩

/-- Derived, `literal/type/mod.rs` 15. -/
instance : Hashed (LiteralType I L) where
  hash
    | .any i => .discriminant 0 :: Hashed.hash i
    | .langString l => .discriminant 1 :: Hashed.hash l

/-- Derived, `literal/type/ref.rs` 13. -/
instance : Hashed (LiteralTypeRef I L) where
  hash
    | .any i => .discriminant 0 :: Hashed.hash i
    | .langString l => .discriminant 1 :: Hashed.hash l

/-- Derived, `literal/type/cow.rs` 10. -/
instance : Hashed (CowLiteralType I L) where
  hash
    | .any i => .discriminant 0 :: Hashed.hash i
    | .langString l => .discriminant 1 :: Hashed.hash l

/-- Derived, `literal/mod.rs` 16. -/
instance : Hashed (Literal I L) := ⟨fun l => Hashed.hash l.value ++ Hashed.hash l.type_⟩

/-- Derived, `literal/ref.rs` 12. -/
instance : Hashed (LiteralRef I L) := ⟨fun l => Hashed.hash l.value ++ Hashed.hash l.type_⟩

/-- Derived, `literal/cow.rs` 8. -/
instance : Hashed (CowLiteral I L) := ⟨fun l => Hashed.hash l.value ++ Hashed.hash l.type_⟩

/-- `Hash for Term`, `term/mod.rs` 100-107: no discriminant. -/
instance : Hashed (Term I L) where
  hash
    | .iri i => Hashed.hash i
    | .literal l => Hashed.hash l

/-- `Hash for LocalTerm`, `term/local/mod.rs` 112-119: no discriminant. -/
instance : Hashed (LexTerm I L) where
  hash
    | .anonymous b => Hashed.hash b
    | .named t => Hashed.hash t

end RdfTypes
