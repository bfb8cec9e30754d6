import Verif.Spec.Term

/-!
# Owned and borrowed terms: lemmas
-/

set_option linter.unusedSectionVars false
set_option linter.unusedSimpArgs false

namespace RdfTypes

open Spec Spec.RdfTerm

variable {I L : Type}

theorem Cow.get_eq {A : Type} (c : Cow A A) : c.get = content c := by cases c <;> rfl

theorem Cow.eq_iff {A : Type} [DecidableEq A] (a b : Cow A A) :
    a.eq b = true ↔ content a = content b := by
  cases a <;> cases b <;> simp [Cow.eq, content]

theorem Cow.cmp_eq {A : Type} [Ord A] (a b : Cow A A) :
    a.cmp b = compare (content a) (content b) := by
  cases a <;> cases b <;> rfl

instance : Std.TransOrd BlankIdBuf := by
  have : (compare : BlankIdBuf → BlankIdBuf → Ordering) = compareOn BlankIdBuf.str := rfl
  unfold Std.TransOrd
  rw [this]
  infer_instance

instance : Std.LawfulEqOrd BlankIdBuf where
  compare_self {a} := by
    show compare a.str a.str = .eq
    simp [Std.ReflCmp.compare_self]
  eq_of_compare {a b} h := by
    have : a.str = b.str := Std.LawfulEqCmp.eq_of_compare (cmp := compare) h
    cases a
    cases b
    simp_all

instance : Std.TransOrd BlankId := by
  have : (compare : BlankId → BlankId → Ordering) = compareOn BlankId.asStr := rfl
  unfold Std.TransOrd
  rw [this]
  infer_instance

instance : Std.LawfulEqOrd BlankId where
  compare_self {a} := by
    show compare a.asStr a.asStr = .eq
    simp [Std.ReflCmp.compare_self]
  eq_of_compare {a b} h := by
    have : a.asStr = b.asStr := Std.LawfulEqCmp.eq_of_compare (cmp := compare) h
    cases a
    cases b
    simp_all

theorem ofLiteral_inj (a b : Literal I L) : ofLiteral a = ofLiteral b ↔ a = b := by
  obtain ⟨v, t⟩ := a
  obtain ⟨w, u⟩ := b
  cases t <;> cases u <;> simp [ofLiteral]

theorem ofTerm_inj (a b : Term I L) : ofTerm a = ofTerm b ↔ a = b := by
  cases a with
  | iri i =>
    cases b with
    | iri j => simp [ofTerm]
    | literal l =>
      obtain ⟨v, t⟩ := l
      cases t <;> simp [ofTerm, ofLiteral]
  | literal l =>
    cases b with
    | iri j =>
      obtain ⟨v, t⟩ := l
      cases t <;> simp [ofTerm, ofLiteral]
    | literal m => simp [ofTerm, ofLiteral_inj]

theorem ofLocal_inj (a b : LexTerm I L) : ofLocal a = ofLocal b ↔ a = b := by
  cases a with
  | anonymous i =>
    cases b with
    | anonymous j =>
      cases i
      cases j
      simp [ofLocal]
    | named t =>
      rcases t with j | ⟨v, t⟩
      · simp [ofLocal, ofTerm]
      · cases t <;> simp [ofLocal, ofTerm, ofLiteral]
  | named t =>
    cases b with
    | anonymous j =>
      rcases t with j | ⟨v, t⟩
      · simp [ofLocal, ofTerm]
      · cases t <;> simp [ofLocal, ofTerm, ofLiteral]
    | named u => simp [ofLocal, ofTerm_inj]

section order

variable [Ord I] [Ord L]

theorem literal_order (a b : Literal I L) : compare a b = order (ofLiteral a) (ofLiteral b) := by
  obtain ⟨v, t⟩ := a
  obtain ⟨w, u⟩ := b
  cases t <;> cases u <;> rfl

theorem literalRef_order (a b : LiteralRef I L) :
    compare a b = order (ofLiteralRef a) (ofLiteralRef b) := by
  obtain ⟨v, t⟩ := a
  obtain ⟨w, u⟩ := b
  cases t <;> cases u <;> rfl

theorem literal_partialCmpRef (a : Literal I L) (b : LiteralRef I L) :
    a.partialCmpRef b = some (order (ofLiteral a) (ofLiteralRef b)) := by
  obtain ⟨v, t⟩ := a
  obtain ⟨w, u⟩ := b
  cases t <;> cases u <;> rfl

theorem literalRef_partialCmpOwned (a : LiteralRef I L) (b : Literal I L) :
    a.partialCmpOwned b = some (order (ofLiteralRef a) (ofLiteral b)) := by
  obtain ⟨v, t⟩ := a
  obtain ⟨w, u⟩ := b
  cases t <;> cases u <;> rfl

theorem cowLiteral_cmp (a b : CowLiteral I L) :
    a.cmp b = order (ofCowLiteral a) (ofCowLiteral b) := by
  obtain ⟨v, t⟩ := a
  obtain ⟨w, u⟩ := b
  cases t <;> cases u <;>
    simp only [CowLiteral.cmp, CowLiteralType.cmp, Cow.cmp_eq] <;> rfl

theorem term_order (a b : Term I L) : compare a b = order (ofTerm a) (ofTerm b) := by
  rcases a with i | ⟨v, t⟩ <;> rcases b with j | ⟨w, u⟩
  · rfl
  · cases u <;> rfl
  · cases t <;> rfl
  · exact literal_order _ _

theorem termRef_order (a b : TermRef I L) : compare a b = order (ofTermRef a) (ofTermRef b) := by
  rcases a with i | ⟨v, t⟩ <;> rcases b with j | ⟨w, u⟩
  · rfl
  · cases u <;> rfl
  · cases t <;> rfl
  · exact literalRef_order _ _

theorem termRef_partialCmpOwned (a : TermRef I L) (b : Term I L) :
    a.partialCmpOwned b = some (order (ofTermRef a) (ofTerm b)) := by
  rcases a with i | ⟨v, t⟩ <;> rcases b with j | ⟨w, u⟩
  · rfl
  · cases u <;> rfl
  · cases t <;> rfl
  · exact literalRef_partialCmpOwned _ _

theorem then_eq_self (o : Ordering) : o.then .eq = o := by cases o <;> rfl

theorem blank_order (a b : Text) : order (.blank a : RdfTerm I L) (.blank b) = compare a b := by
  show Ordering.then .eq ((compare a b).then .eq) = _
  simp

theorem local_order (a b : LexTerm I L) : compare a b = order (ofLocal a) (ofLocal b) := by
  cases a with
  | anonymous x =>
    cases b with
    | anonymous y => exact (blank_order _ _).symm
    | named u =>
      rcases u with j | ⟨w, u⟩
      · rfl
      · cases u <;> rfl
  | named t =>
    cases b with
    | anonymous y =>
      rcases t with i | ⟨v, t⟩
      · rfl
      · cases t <;> rfl
    | named u => exact term_order t u

theorem localRef_order (a b : LocalTermRef I L) :
    compare a b = order (ofLocalRef a) (ofLocalRef b) := by
  cases a with
  | anonymous x =>
    cases b with
    | anonymous y => exact (blank_order _ _).symm
    | named u =>
      rcases u with j | ⟨w, u⟩
      · rfl
      · cases u <;> rfl
  | named t =>
    cases b with
    | anonymous y =>
      rcases t with i | ⟨v, t⟩
      · rfl
      · cases t <;> rfl
    | named u => exact termRef_order t u

theorem localRef_partialCmpOwned (a : LocalTermRef I L) (b : LexTerm I L) :
    a.partialCmpOwned b = some (order (ofLocalRef a) (ofLocal b)) := by
  cases a with
  | anonymous x =>
    cases b with
    | anonymous y => exact congrArg some (blank_order _ _).symm
    | named u =>
      rcases u with j | ⟨w, u⟩
      · rfl
      · cases u <;> rfl
  | named t =>
    cases b with
    | anonymous y =>
      rcases t with i | ⟨v, t⟩
      · rfl
      · cases t <;> rfl
    | named u => exact termRef_partialCmpOwned t u

end order

section eq

variable [DecidableEq I] [DecidableEq L]

theorem literal_eqRef (a : Literal I L) (b : LiteralRef I L) :
    a.eqRef b = true ↔ ofLiteral a = ofLiteralRef b := by
  obtain ⟨v, t⟩ := a
  obtain ⟨w, u⟩ := b
  cases t <;> cases u <;>
    simp [Literal.eqRef, LiteralType.eqRef, ofLiteral, ofLiteralRef, and_comm]

theorem literalRef_eqOwned (a : LiteralRef I L) (b : Literal I L) :
    a.eqOwned b = true ↔ ofLiteralRef a = ofLiteral b := by
  obtain ⟨v, t⟩ := a
  obtain ⟨w, u⟩ := b
  cases t <;> cases u <;>
    simp [LiteralRef.eqOwned, LiteralTypeRef.eqOwned, ofLiteral, ofLiteralRef, and_comm]

theorem cowLiteral_eq (a b : CowLiteral I L) :
    a.eq b = true ↔ ofCowLiteral a = ofCowLiteral b := by
  obtain ⟨v, t⟩ := a
  obtain ⟨w, u⟩ := b
  cases t <;> cases u <;>
    simp [CowLiteral.eq, CowLiteralType.eq, Cow.eq_iff, ofCowLiteral]

theorem termRef_eqOwned (a : TermRef I L) (b : Term I L) :
    a.eqOwned b = true ↔ ofTermRef a = ofTerm b := by
  rcases a with i | ⟨v, t⟩ <;> rcases b with j | ⟨w, u⟩
  · simp [TermRef.eqOwned, ofTermRef, ofTerm]
  · cases u <;> simp [TermRef.eqOwned, ofTermRef, ofTerm, ofLiteral]
  · cases t <;> simp [TermRef.eqOwned, ofTermRef, ofTerm, ofLiteralRef]
  · exact literalRef_eqOwned _ _

theorem localRef_eqOwned (a : LocalTermRef I L) (b : LexTerm I L) :
    a.eqOwned b = true ↔ ofLocalRef a = ofLocal b := by
  cases a with
  | anonymous x =>
    cases x
    cases b with
    | anonymous y =>
      simp [LocalTermRef.eqOwned, ofLocalRef, ofLocal, BlankId.eqOwned, BlankIdBuf.asBlankIdRef]
    | named u =>
      rcases u with j | ⟨w, u⟩
      · simp [LocalTermRef.eqOwned, ofLocalRef, ofLocal, ofTerm]
      · cases u <;> simp [LocalTermRef.eqOwned, ofLocalRef, ofLocal, ofTerm, ofLiteral]
  | named t =>
    cases b with
    | anonymous y =>
      rcases t with i | ⟨v, t⟩
      · simp [LocalTermRef.eqOwned, ofLocalRef, ofLocal, ofTermRef]
      · cases t <;> simp [LocalTermRef.eqOwned, ofLocalRef, ofLocal, ofTermRef, ofLiteralRef]
    | named u => exact termRef_eqOwned t u

end eq

end RdfTypes
