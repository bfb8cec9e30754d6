import Verif.Spec.Uuid
import Verif.Model.Display
import Verif.Proof.Uuid

/-!
# C97: UUID generators
-/

namespace RdfTypes.Property

open Spec

variable {ρ L : Type}

/-- Every call gives an IRI of the form of the RFC, which is displayed without escapes and whose
digits are those of the UUID that the version makes; it never panics and leaves the generator as
it was. -/
theorem C97_urn (c : UuidCrate ρ) (g : Uuid) (r : ρ) :
    ∃ t u r', (Uuid.next c (g, r) : Res (Term Text L × _)) = .ok (.iri t, g, r') ∧
      Makes c g r u r' ∧ UuidUrn t ∧ urnNumber t = bigEndian u.bytes ∧
      Display.iri t = ['<'] ++ t ++ ['>'] :=
  ⟨_, _, _, Uuid.next_eq c g r, Uuid.nextUuid_makes c g r, Uuid.encodeLower_urn _,
    Uuid.encodeLower_number _, Uuid.iri_plain (Uuid.urn_plain (Uuid.encodeLower_urn _))⟩

/-- Two calls, of any generators, give the same term exactly if they make the same UUID. -/
theorem C97_apart {ρ' : Type} (c : UuidCrate ρ) (c' : UuidCrate ρ') (g g' : Uuid) (r r₂ : ρ)
    (r' r₂' : ρ') (t t' : Term Text L) (s : Uuid × ρ) (s' : Uuid × ρ') (u u' : UuidValue)
    (h : Uuid.next c (g, r) = .ok (t, s)) (h' : Uuid.next c' (g', r') = .ok (t', s'))
    (hu : Makes c g r u r₂) (hu' : Makes c' g' r' u' r₂') : t = t' ↔ u = u' := by
  rw [Uuid.makes_eq hu, Uuid.makes_eq hu']
  rw [Uuid.next_eq] at h h'
  cases h
  cases h'
  constructor
  · intro e
    injection e with e
    exact Uuid.encodeLower_inj e
  · intro e
    rw [e]

/-- With version 4 the terms of any number of calls are distinct exactly if the UUIDs drawn are. -/
theorem C97_random (c : UuidCrate ρ) (n : Nat) (r : ρ) :
    ∃ ts r', (Uuid.take c n (.v4, r) : Res (List (Term Text L) × _)) = .ok (ts, .v4, r') ∧
      ts.length = n ∧ (ts.Nodup ↔ (draws c.newV4 n r).Nodup) := by
  obtain ⟨r', h⟩ := Uuid.take_v4 (L := L) c n r
  refine ⟨_, r', h, ?_, ?_⟩
  · rw [List.length_map]
    clear h
    induction n generalizing r with
    | zero => rfl
    | succ n ih => simp [draws, ih]
  · rw [List.Nodup, List.pairwise_map]
    exact ⟨fun h => h.imp fun hn e => hn (by rw [e]), fun h => h.imp fun hn e =>
      hn (Uuid.encodeLower_inj (by injection e))⟩

/-- With versions 3 and 5 all calls give one and the same term, so that no two are distinct. -/
theorem C97_repeats (c : UuidCrate ρ) (vocabulary : UuidValue) (name : Text) (n : Nat) (r : ρ) :
    ∀ g ∈ [Uuid.v3 vocabulary name, Uuid.v5 vocabulary name],
      ∃ t, (Uuid.take c n (g, r) : Res (List (Term Text L) × _)) = .ok (List.replicate n t, g, r) ∧
        (2 ≤ n → ¬ (List.replicate n t).Nodup) := by
  have two : ∀ t : Term Text L, 2 ≤ n → ¬ (List.replicate n t).Nodup := by
    intro t hn h
    obtain ⟨m, rfl⟩ : ∃ m, n = m + 2 := ⟨n - 2, by omega⟩
    simp [List.replicate_succ] at h
  intro g hg
  simp only [List.mem_cons, List.not_mem_nil, or_false] at hg
  rcases hg with rfl | rfl
  · exact ⟨_, Uuid.take_fixed (fun _ => rfl) n r, two _⟩
  · exact ⟨_, Uuid.take_fixed (fun _ => rfl) n r, two _⟩

/-- So an interpretation with such a generator makes one and the same "new" resource each time:
the call leaves it as it was. -/
theorem C97_new_resource (c : UuidCrate ρ) (vocabulary : UuidValue) (name : Text) (r : ρ) :
    ∀ g ∈ [Uuid.v3 vocabulary name, Uuid.v5 vocabulary name],
      ∃ t, WithGenerator.newResource (unitInterpretation Text L) (Uuid.next c) (.new () (g, r)) =
        .ok (t, .new () (g, r)) := by
  intro g hg
  simp only [List.mem_cons, List.not_mem_nil, or_false] at hg
  rcases hg with rfl | rfl <;>
    exact ⟨_, by simp only [WithGenerator.newResource, WithGenerator.new, Uuid.next_eq, bind,
      Except.bind]; rfl⟩

/-- A source of randomness that counts in the last byte, and other functions. -/
def countingCrate : UuidCrate Nat where
  newV3 _ name := ⟨List.replicate 15 7 ++ [UInt8.ofNat name.length], by simp⟩
  newV4 n := (⟨List.replicate 15 0xAB ++ [UInt8.ofNat n], by simp⟩, n + 1)
  newV5 _ name := ⟨List.replicate 15 9 ++ [UInt8.ofNat name.length], by simp⟩

/-- The URN of a UUID. -/
example : (Uuid.next countingCrate (.v4, 18) : Res (Term Text Text × _)).map (·.1) =
    .ok (.iri "urn:uuid:abababab-abab-abab-abab-ababababab12".toList) := by
  decide +kernel

/-- Distinct terms of version 4, equal ones of version 3. -/
example : (draws countingCrate.newV4 5 0).Nodup ∧
    (Uuid.take countingCrate 2 (.v3 ⟨List.replicate 16 0, by simp⟩ ['a'], 0) :
      Res (List (Term Text Text) × _)).map (·.1) =
    .ok [.iri "urn:uuid:07070707-0707-0707-0707-070707070701".toList,
      .iri "urn:uuid:07070707-0707-0707-0707-070707070701".toList] := by
  decide +kernel

end RdfTypes.Property
