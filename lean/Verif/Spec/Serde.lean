import Verif.Model.Serde
import Verif.Spec.Set

/-!
# What serialisation must preserve
-/

namespace RdfTypes.Spec

variable {S D T : Type}

/-- The values written are read back, and the absence of a value is not written as a
value. -/
def Faithful (write : T → Value) (read : Value → Option T) (x : T) : Prop :=
  read (write x) = some x ∧ write x ≠ .null

/-- IRIs and language tags are read back from their texts, and an IRI begins with a
letter (RFC 3987: `scheme = ALPHA *( ALPHA / DIGIT / "+" / "-" / "." )`). -/
structure WellNamed {I L : Type} (n : Names I L) : Prop where
  iri : ∀ i, n.iri (n.iriText i) = some i
  tag : ∀ t, n.tag (n.tagText t) = some t
  scheme : ∀ s i, n.iri s = some i → ∃ c rest, s = c :: rest ∧ c.isAlpha = true

/-- A reachable container, whose statements are read as written, announces the number
of elements it writes, which are its statements in ascending order; reading them gives
an equal container, without panic. Reading any sequence gives the set of its elements,
or an error if one of them cannot be read. -/
def Serialises [Ord S] (c : Container S D) (Reach : D → (S → Prop) → Prop) : Prop :=
  ∀ (write : S → Value) (read : Value → Option S),
    (∀ e : S → S → Bool, (∀ x y, e x y = true ↔ x = y) → ∀ d A, Reach d A →
      (∀ x, A x → read (write x) = some x) →
      ∃ xs d', Lists xs A ∧ c.serialize write d = .ok (xs.length, xs.map write) ∧
        c.deserialize read (.seq (xs.map write)) = .ok (some d') ∧ c.eq c e d' d = .ok true) ∧
    (∀ (vs : List Value) (xs : List S), vs.map read = xs.map some →
      ∃ d, c.deserialize read (.seq vs) = .ok (some d) ∧
        ∀ x, ∃ b, c.contains d x = .ok b ∧ (b = true ↔ x ∈ xs)) ∧
    (∀ vs : List Value, (∃ v ∈ vs, read v = none) → c.deserialize read (.seq vs) = .ok none) ∧
    (∀ v, (∀ vs, v ≠ .seq vs) → c.deserialize read v = .ok none)

end RdfTypes.Spec
