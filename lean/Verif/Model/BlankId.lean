import Verif.Base.Slab
import Verif.Model.Term

/-!
# Blank node identifiers and their generators

Model of `/repo/src/blankid.rs` and `/repo/src/term/generator/blank.rs`.
-/

namespace RdfTypes

/-- `BlankId`, `blankid.rs` 24-25: a string, with derived comparisons. -/
structure BlankId where
  asStr : Text
  deriving DecidableEq, Repr

/-- `BlankIdBuf`, `blankid.rs` 129-131: an owned string, with derived comparisons. -/
structure BlankIdBuf where
  str : Text
  deriving DecidableEq, Repr

/-- Derived `Ord`, `blankid.rs` 24: the order of strings. -/
instance : Ord BlankId := ⟨fun a b => compare a.asStr b.asStr⟩

/-- Derived `Ord`, `blankid.rs` 129: the order of strings. -/
instance : Ord BlankIdBuf := ⟨fun a b => compare a.str b.str⟩

namespace BlankId

/-- The patterns `lo..=hi` on characters, `blankid.rs` 324 and 333. -/
def range (lo hi : Nat) (c : Char) : Bool := lo ≤ c.toNat && c.toNat ≤ hi

/-- `is_pn_char_base`, `blankid.rs` 323-325. -/
def isPnCharBase (c : Char) : Bool :=
  range 0x41 0x5a c || range 0x61 0x7a c || range 0x00c0 0x00d6 c || range 0x00d8 0x00f6 c ||
  range 0x00f8 0x02ff c || range 0x0370 0x037d c || range 0x037f 0x1fff c ||
  range 0x200c 0x200d c || range 0x2070 0x218f c || range 0x2c00 0x2fef c ||
  range 0x3001 0xd7ff c || range 0xf900 0xfdcf c || range 0xfdf0 0xfffd c ||
  range 0x10000 0xeffff c

/-- `is_pn_char_u`, `blankid.rs` 327-329. -/
def isPnCharU (c : Char) : Bool := isPnCharBase c || (c == '_' || c == ':')

/-- `is_pn_char`, `blankid.rs` 331-334. -/
def isPnChar (c : Char) : Bool :=
  isPnCharU c || (c == '-' || range 0x30 0x39 c || range 0x00b7 0x00b7 c || range 0x0300 0x036f c ||
    range 0x203f 0x2040 c)

/-- The loop of `check`, `blankid.rs` 307-311. -/
def checkRest : Text → Bool
  | [] => true
  | c :: chars => if !isPnChar c then false else checkRest chars

/-- `check`, `blankid.rs` 302-321. -/
def check : Text → Bool
  | '_' :: ':' :: c :: chars => if c.isDigit || isPnCharU c then checkRest chars else false
  | _ => false

/-- `BlankId::new`, `blankid.rs` 30-36; the error is `InvalidBlankId` with the string. -/
def new (s : Text) : Except Text BlankId := if check s then .ok ⟨s⟩ else .error s

/-- `&s[n..]`, with `n` counted in UTF-8 bytes (std), as in `blankid.rs` 57. -/
def sliceFrom : Nat → Text → Res Text
  | 0, s => .ok s
  | _ + 1, [] => .error .badSlice
  | n + 1, c :: s => if c.utf8Size ≤ n + 1 then sliceFrom (n + 1 - c.utf8Size) s else .error .badSlice

/-- `BlankId::suffix`, `blankid.rs` 55-58. -/
def suffix (b : BlankId) : Res Text := sliceFrom 2 b.asStr

/-- `ToOwned`, `blankid.rs` 88-95. -/
def toOwned (b : BlankId) : BlankIdBuf := ⟨b.asStr⟩

end BlankId

/-- Decimal rendering of an unsigned integer by `format!` (std), as in `blankid.rs` 157-175
and `term/generator/blank.rs` 62. -/
def decimal (n : Nat) : Text := Nat.toDigits 10 n

namespace BlankIdBuf

/-- `BlankIdBuf::new`, `blankid.rs` 136-142. -/
def new (s : Text) : Except Text BlankIdBuf := if BlankId.check s then .ok ⟨s⟩ else .error s

/-- `from_u8`, `blankid.rs` 156-158. -/
def fromU8 (i : UInt8) : BlankIdBuf := ⟨'_' :: ':' :: decimal i.toNat⟩

/-- `from_u16`, `blankid.rs` 162-164. -/
def fromU16 (i : UInt16) : BlankIdBuf := ⟨'_' :: ':' :: decimal i.toNat⟩

/-- `from_u32`, `blankid.rs` 168-170. -/
def fromU32 (i : UInt32) : BlankIdBuf := ⟨'_' :: ':' :: decimal i.toNat⟩

/-- `from_u64`, `blankid.rs` 174-176. -/
def fromU64 (i : UInt64) : BlankIdBuf := ⟨'_' :: ':' :: decimal i.toNat⟩

/-- `from_suffix`, `blankid.rs` 180-182. -/
def fromSuffix (suffix : Text) : Except Text BlankIdBuf := new ('_' :: ':' :: suffix)

/-- `as_blank_id_ref`, `blankid.rs` 186-188; also `Deref`, `AsRef<BlankId>` and `Borrow<BlankId>`.
-/
def asBlankIdRef (b : BlankIdBuf) : BlankId := ⟨b.str⟩

/-- `FromStr`, `blankid.rs` 191-197. -/
def fromStr (s : Text) : Except Text BlankIdBuf := new s

end BlankIdBuf

/-- `Blank`, `term/generator/blank.rs` 10-17. -/
structure Blank where
  pre : Text := []
  count : Nat := 0
  deriving DecidableEq, Repr

namespace Blank

/-- `usize::MAX` with 64 bits (std): the overflow of `self.count += 1`,
`term/generator/blank.rs` 63. -/
def usizeMax : Nat := 2 ^ 64 - 1

/-- `new_full`, `term/generator/blank.rs` 44-49; `count` is at most `usize::MAX`. -/
def newFull (pre : Text) (offset : Nat) : Blank := ⟨pre, offset⟩

/-- `new`, `term/generator/blank.rs` 21-23. -/
def new : Blank := newFull [] 0

/-- `new_with_offset`, `term/generator/blank.rs` 30-32. -/
def newWithOffset (offset : Nat) : Blank := newFull [] offset

/-- `new_with_prefix`, `term/generator/blank.rs` 35-37. -/
def newWithPrefix (pre : Text) : Blank := newFull pre 0

/-- `next_blank_id`, `term/generator/blank.rs` 61-65, with overflow checks: `count += 1` on the
largest `usize`
panics. -/
def nextBlankId (g : Blank) : Res (BlankIdBuf × Blank) :=
  let id : BlankIdBuf := ⟨'_' :: ':' :: (g.pre ++ decimal g.count)⟩
  if g.count < usizeMax then .ok (id, { g with count := g.count + 1 }) else .error .overflow

/-- `next_local_term`, `term/generator/blank.rs` 68-72. -/
def nextLocalTerm {I L : Type} (g : Blank) : Res (LocalTerm BlankIdBuf I L × Blank) := do
  let (id, g) ← g.nextBlankId
  .ok (.anonymous id, g)

/-- The identifiers of that many calls to `next_blank_id`, `term/generator/blank.rs` 61-65. -/
def take : Nat → Blank → Res (List BlankIdBuf × Blank)
  | 0, g => .ok ([], g)
  | n + 1, g => do
    let (id, g) ← g.nextBlankId
    let (ids, g) ← take n g
    .ok (id :: ids, g)

end Blank

end RdfTypes
