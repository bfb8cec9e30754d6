import Verif.Model.Term

/-!
# The grammar of blank node labels

The productions quoted in the documentation of `BlankId`.
-/

namespace RdfTypes.Spec

/-- The characters of a class given as ranges of code points. -/
def InClass (ranges : List (Nat × Nat)) (c : Char) : Prop :=
  ∃ r ∈ ranges, r.1 ≤ c.toNat ∧ c.toNat ≤ r.2

/-- Production 157s. -/
def pnCharsBase : List (Nat × Nat) :=
  [(0x41, 0x5A), (0x61, 0x7A), (0xC0, 0xD6), (0xD8, 0xF6), (0xF8, 0x2FF), (0x370, 0x37D),
    (0x37F, 0x1FFF), (0x200C, 0x200D), (0x2070, 0x218F), (0x2C00, 0x2FEF), (0x3001, 0xD7FF),
    (0xF900, 0xFDCF), (0xFDF0, 0xFFFD), (0x10000, 0xEFFFF)]

/-- Production 158s: `_` and `:` are 5F and 3A. -/
def pnCharsU : List (Nat × Nat) := pnCharsBase ++ [(0x5F, 0x5F), (0x3A, 0x3A)]

def digits : List (Nat × Nat) := [(0x30, 0x39)]

/-- Production 160s: `-` is 2D. -/
def pnChars : List (Nat × Nat) :=
  pnCharsU ++ [(0x2D, 0x2D)] ++ digits ++ [(0xB7, 0xB7), (0x300, 0x36F), (0x203F, 0x2040)]

/-- Production 141s: `_:` then `(PN_CHARS_U | [0-9]) ((PN_CHARS | '.')* PN_CHARS)?`. -/
def BlankNodeLabel (s : Text) : Prop :=
  ∃ c rest, s = ['_', ':'] ++ c :: rest ∧ (InClass pnCharsU c ∨ InClass digits c) ∧
    (rest = [] ∨ ∃ mid last, rest = mid ++ [last] ∧ (∀ c ∈ mid, InClass pnChars c ∨ c = '.') ∧
      InClass pnChars last)

/-- Strings of decimal digits. -/
def AllDigits (s : Text) : Prop := ∀ c ∈ s, InClass digits c

end RdfTypes.Spec
