import Verif.Model.Generative

/-!
# UUID generators

Model of `/repo/src/term/generator/uuid.rs`. With its features the file does not compile as written:
it uses `Generator`, `Term` and `IriBuf` without importing them, defines `next` where the trait
has `next_term` (`term/generator/mod.rs` 13-16), and calls unsafe functions outside of `unsafe`.
The model is of what its functions say. The type of the generators with metadata (51-72) is not defined in the crate.
-/

namespace RdfTypes

variable {ρ L : Type}

/-- `uuid::Uuid`, 16 bytes, as in `uuid.rs` 18 and 31. -/
structure UuidValue where
  bytes : List UInt8
  sixteen : bytes.length = 16
  deriving DecidableEq

/-- What is called of the crate `uuid` in `uuid.rs` 43, 45 and 47: `new_v3` and `new_v5` are
functions of their arguments, and `new_v4` draws from a source of randomness, whose state is `ρ`.
Simplification: the name is a string, not its bytes. -/
structure UuidCrate (ρ : Type) where
  newV3 : UuidValue → Text → UuidValue
  newV4 : ρ → UuidValue × ρ
  newV5 : UuidValue → Text → UuidValue

/-- `Uuid`, `uuid.rs` 12-32, with all features. -/
inductive Uuid where
  | v3 (vocabulary : UuidValue) (name : Text)
  | v4
  | v5 (vocabulary : UuidValue) (name : Text)

namespace Uuid

/-- `next_uuid`, `uuid.rs` 40-49. -/
def nextUuid (c : UuidCrate ρ) (g : Uuid) (r : ρ) : UuidValue × ρ :=
  match g with
  | .v3 vocabulary name => (c.newV3 vocabulary name, r)
  | .v4 => c.newV4 r
  | .v5 vocabulary name => (c.newV5 vocabulary name, r)

/-- A byte as two hexadecimal digits in lower case, by `encode_lower` of the crate `uuid`, called
in `uuid.rs` 85. -/
def hexByte (b : UInt8) : Text := [Nat.digitChar (b.toNat / 16), Nat.digitChar (b.toNat % 16)]

/-- `to_urn` and `encode_lower` of the crate `uuid`, called in `uuid.rs` 85: hyphens after the
bytes 4, 6, 8 and 10. -/
def encodeLower (u : UuidValue) : Text :=
  ['u', 'r', 'n', ':', 'u', 'u', 'i', 'd', ':'] ++
    (u.bytes.take 4).flatMap hexByte ++ '-' :: ((u.bytes.drop 4).take 2).flatMap hexByte ++
    '-' :: ((u.bytes.drop 6).take 2).flatMap hexByte ++
    '-' :: ((u.bytes.drop 8).take 2).flatMap hexByte ++ '-' :: (u.bytes.drop 10).flatMap hexByte

/-- `next`, `uuid.rs` 82-88. The generator is left as it was. `Urn::LENGTH` is 45 in the crate
`uuid`. Simplification: the buffer is of characters, all of them one byte. -/
def next (c : UuidCrate ρ) : Generator (Uuid × ρ) (Term Text L) := fun (g, r) =>
  let buffer : Text := List.replicate 45 '\x00'
  let (uuid, r) := g.nextUuid c r
  let encoded := encodeLower uuid
  if buffer.length < encoded.length then .error .badSlice
  else
    let buffer := encoded ++ buffer.drop encoded.length
    let buffer := buffer.take encoded.length
    .ok (.iri buffer, g, r)

/-- The terms of that many calls to `next`, `uuid.rs` 82-88. -/
def take (c : UuidCrate ρ) : Nat → Uuid × ρ → Res (List (Term Text L) × Uuid × ρ)
  | 0, s => .ok ([], s)
  | n + 1, s => do
    let (t, s) ← next c s
    let (ts, s) ← take c n s
    .ok (t :: ts, s)

end Uuid

end RdfTypes
