import Verif.Model.Uuid

/-!
# URNs of UUIDs
-/

namespace RdfTypes.Spec

/-- A digit of a hexadecimal number, or a letter from `a` to `f`. -/
def LowerHex (c : Char) : Prop := ('0' ≤ c ∧ c ≤ '9') ∨ ('a' ≤ c ∧ c ≤ 'f')

/-- That many hexadecimal digits. -/
def HexGroup (n : Nat) (t : Text) : Prop := t.length = n ∧ ∀ c ∈ t, LowerHex c

/-- The form of section 3 of RFC 4122, in lower case. -/
def UuidUrn (t : Text) : Prop :=
  ∃ a b c d e, HexGroup 8 a ∧ HexGroup 4 b ∧ HexGroup 4 c ∧ HexGroup 4 d ∧ HexGroup 12 e ∧
    t = ['u', 'r', 'n', ':', 'u', 'u', 'i', 'd', ':'] ++ a ++ ['-'] ++ b ++ ['-'] ++ c ++ ['-'] ++
      d ++ ['-'] ++ e

/-- The first UUIDs that a source of randomness gives. -/
def draws {ρ : Type} (draw : ρ → UuidValue × ρ) : Nat → ρ → List UuidValue
  | 0, _ => []
  | n + 1, r => (draw r).1 :: draws draw n (draw r).2

/-- The UUID of a call, and the random source after it, by the version. -/
inductive Makes {ρ : Type} (c : UuidCrate ρ) : Uuid → ρ → UuidValue → ρ → Prop
  | v3 (vocabulary : UuidValue) (name : Text) (r : ρ) :
    Makes c (.v3 vocabulary name) r (c.newV3 vocabulary name) r
  | v4 (r : ρ) : Makes c .v4 r (c.newV4 r).1 (c.newV4 r).2
  | v5 (vocabulary : UuidValue) (name : Text) (r : ρ) :
    Makes c (.v5 vocabulary name) r (c.newV5 vocabulary name) r

/-- The value of a hexadecimal digit in lower case. -/
def hexValue (c : Char) : Nat := if c ≤ '9' then c.toNat - 48 else c.toNat - 87

/-- The number written after `urn:uuid:`, hyphens left out. -/
def urnNumber (t : Text) : Nat :=
  ((t.drop 9).filter (· ≠ '-')).foldl (fun n c => 16 * n + hexValue c) 0

/-- The number that bytes are, the most significant one first. -/
def bigEndian (l : List UInt8) : Nat := l.foldl (fun n b => 256 * n + b.toNat) 0

end RdfTypes.Spec
