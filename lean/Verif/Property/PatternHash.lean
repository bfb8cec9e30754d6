import Verif.Model.PatternHash
import Verif.Spec.Container
import Verif.Spec.Pattern
import Verif.Proof.PatternHash
import Verif.Property.PatternForms

/-!
# C100: hashes of patterns
-/

namespace RdfTypes.Property

open Spec

variable {R V : Type}

/-- What patterns write to a hasher can be told apart, whatever follows, if this holds of terms
and variables: of canonical patterns, of the parts taken from them, and of patterns as written. -/
theorem C100_apart (h : R → List HashWrite) (hh : SelfDelimiting h) :
    SelfDelimiting (PatHash.quadPattern h) ∧ SelfDelimiting (PatHash.triplePattern h) ∧
    (SelfDelimiting (PatHash.subject h) ∧ SelfDelimiting (PatHash.predicate h) ∧
      SelfDelimiting (PatHash.object h) ∧ SelfDelimiting (PatHash.graph h)) ∧
    ∀ hx : V → List HashWrite, SelfDelimiting hx →
      SelfDelimiting (Quad.hashWrites (PatHash.resourceOrVar h hx)) ∧
      SelfDelimiting (Triple.hashWrites (PatHash.resourceOrVar h hx)) :=
  ⟨Proof.PatternHash.quadPattern_sd hh, Proof.PatternHash.triplePattern_sd hh,
    ⟨Proof.PatternHash.subject_sd hh, Proof.PatternHash.predicate_sd hh,
      Proof.PatternHash.object_sd hh, Proof.PatternHash.graph_sd hh⟩,
    fun _ hhx => ⟨Proof.PatternHash.quad_sd (Proof.PatternHash.resourceOrVar_sd hh hhx),
      Proof.PatternHash.triple_sd (Proof.PatternHash.resourceOrVar_sd hh hhx)⟩⟩

/-- So canonical patterns write the same exactly if they match the same statements, and the
canonical forms of two patterns exactly if these have the same instances, if there are two
terms. -/
theorem C100_matches [DecidableEq V] (h : R → List HashWrite) (hh : SelfDelimiting h) {u v : R}
    (huv : u ≠ v) :
    (∀ p q : CanonicalQuadPattern R, PatHash.quadPattern h p = PatHash.quadPattern h q ↔
      ∀ x, matchesQuad p x ↔ matchesQuad q x) ∧
    (∀ p q : CanonicalTriplePattern R, PatHash.triplePattern h p = PatHash.triplePattern h q ↔
      ∀ x, matchesTriple p x ↔ matchesTriple q x) ∧
    (∀ a b : QuadPattern R V, PatHash.quadPattern h (.fromPattern a) =
      PatHash.quadPattern h (.fromPattern b) ↔ ∀ x, instanceOfQuad a x ↔ instanceOfQuad b x) ∧
    ∀ a b : TriplePattern R V, PatHash.triplePattern h (.fromPattern a) =
      PatHash.triplePattern h (.fromPattern b) ↔
      ∀ x, instanceOfTriple a x ↔ instanceOfTriple b x := by
  obtain ⟨h1, h2, -⟩ := C100_apart (V := V) h hh
  have g1 : ∀ p q, PatHash.quadPattern h p = PatHash.quadPattern h q ↔ p = q := fun p q =>
    ⟨fun e => (h1 p q [] [] (congrArg (· ++ []) e)).1, fun e => by rw [e]⟩
  have g2 : ∀ p q, PatHash.triplePattern h p = PatHash.triplePattern h q ↔ p = q := fun p q =>
    ⟨fun e => (h2 p q [] [] (congrArg (· ++ []) e)).1, fun e => by rw [e]⟩
  obtain ⟨k1, k2, k3, k4⟩ := C69_same_statements (X := V) huv
  exact ⟨fun p q => (g1 p q).trans ⟨fun e x => by rw [e], k2 p q⟩,
    fun p q => (g2 p q).trans ⟨fun e x => by rw [e], k1 p q⟩,
    fun a b => (g1 _ _).trans (k4 a b), fun a b => (g2 _ _).trans (k3 a b)⟩

/-- If terms of two types write the same, so do a canonical pattern and the one with its terms
exchanged for these, such as a pattern of terms and one of references. -/
theorem C100_exchanged {W : Type} (h : R → List HashWrite) (h' : W → List HashWrite) (f : W → R)
    (same : ∀ w, h (f w) = h' w) (p : CanonicalQuadPattern W) :
    PatHash.quadPattern h (p.map f) = PatHash.quadPattern h' p := by
  rw [Proof.PatternHash.quadPattern_map, show h ∘ f = h' from funext same]

/-- Numbers write themselves, and this can be told. -/
example : SelfDelimiting (fun n : Nat => [HashWrite.usize n]) ∧ (0 : Nat) ≠ 1 ∧
    PatHash.quadPattern (fun n : Nat => [HashWrite.usize n])
      (.fromPattern (⟨.var 0, .resource 7, .var 0, none⟩ : QuadPattern Nat Nat)) =
      [.isize 0, .isize 2, .usize 7, .isize 1, .isize 2, .isize 0] :=
  ⟨fun x y l l' e => by simpa using e, by decide, by decide +kernel⟩

/-- Patterns of strings and of their lengths, written as lengths. -/
example : PatHash.quadPattern (fun n : Nat => [HashWrite.usize n])
      ((.givenSubject "ab" (.anyPredicate (.anyObject .anyGraph)) :
        CanonicalQuadPattern String).map String.length) =
    PatHash.quadPattern (fun s : String => [HashWrite.usize s.length])
      (.givenSubject "ab" (.anyPredicate (.anyObject .anyGraph))) := by
  decide +kernel

end RdfTypes.Property
