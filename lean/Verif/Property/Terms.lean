import Verif.Proof.TermRef

/-!
# Properties C51, C52, C53

Comparisons of statements and terms, conversions between owned and borrowed terms,
hashes.
-/

set_option linter.unusedSectionVars false
set_option linter.unusedSimpArgs false

namespace RdfTypes.Property

open Spec Spec.RdfTerm

variable {I L : Type}

/-! ## C51 -/

section C51

variable {S P O G S' P' O' G' : Type}

/-- Equality of statements is componentwise. -/
theorem C51_equality (es : S → S' → Bool) (ep : P → P' → Bool) (eo : O → O' → Bool)
    (eg : G → G' → Bool) :
    (∀ (a : Quad S P O G) (b : Quad S' P' O' G'), a.eqWith es ep eo eg b = true ↔
      es a.s b.s = true ∧ ep a.p b.p = true ∧ eo a.o b.o = true ∧
        ((a.g = none ∧ b.g = none) ∨ ∃ x y, a.g = some x ∧ b.g = some y ∧ eg x y = true)) ∧
    (∀ (a : Triple S P O) (b : Triple S' P' O'), a.eqWith es ep eo b = true ↔
      es a.s b.s = true ∧ ep a.p b.p = true ∧ eo a.o b.o = true) := by
  constructor
  · intro a b
    obtain ⟨s, p, o, g⟩ := a
    obtain ⟨s', p', o', g'⟩ := b
    cases g <;> cases g' <;> simp [Quad.eqWith, and_assoc]
  · intro a b
    simp [Triple.eqWith, and_assoc]

/-- Two quads differing in the graph only are equal if and only if the labels are. -/
example : (⟨1, 2, 3, some 4⟩ : Quad Nat).eqWith (S' := Nat) (P' := Nat) (O' := Nat) (G' := Nat)
      (· == ·) (· == ·) (· == ·) (· == ·) ⟨1, 2, 3, none⟩ = false ∧
    (⟨1, 2, 3, some 4⟩ : Quad Nat).eqWith (S' := Nat) (P' := Nat) (O' := Nat) (G' := Nat)
      (· == ·) (· == ·) (· == ·) (· == ·) ⟨1, 2, 3, some 4⟩ = true := by decide

/-- The partial comparison of statements is that of the first components that are not
equal, in the order subject, predicate, object, graph; an incomparable component counts
as a difference. -/
theorem C51_lexicographic (cs : S → S' → Option Ordering) (cp : P → P' → Option Ordering)
    (co : O → O' → Option Ordering) (cg : G → G' → Option Ordering) :
    (∀ (a : Quad S P O G) (b : Quad S' P' O' G'), a.partialCmpWith cs cp co cg b =
      firstDifference [cs a.s b.s, cp a.p b.p, co a.o b.o, graphOrder cg a.g b.g]) ∧
    (∀ (a : Triple S P O) (b : Triple S' P' O'), a.partialCmpWith cs cp co b =
      firstDifference [cs a.s b.s, cp a.p b.p, co a.o b.o]) := by
  constructor
  · intro a b
    obtain ⟨s, p, o, g⟩ := a
    obtain ⟨s', p', o', g'⟩ := b
    have last : ∀ x : Option Ordering, firstDifference [x] = x := by
      intro x
      rcases x with _ | _ | _ | _ <;> rfl
    have step : ∀ (x : Option Ordering) l, firstDifference (x :: l) =
        match x with
        | some .eq => firstDifference l
        | c => c := by
      intro x l
      rcases x with _ | _ | _ | _ <;> rfl
    rw [step, step, step, last]
    simp only [Quad.partialCmpWith]
    cases g <;> cases g' <;> rfl
  · intro a b
    simp only [Triple.partialCmpWith]
    rcases cs a.s b.s with _ | _ | _ | _ <;> try rfl
    rcases cp a.p b.p with _ | _ | _ | _ <;> try rfl
    rcases co a.o b.o with _ | _ | _ | _ <;> rfl

example : (⟨1, 2, 3, none⟩ : Quad Nat).partialCmpWith (fun a b => some (compare a b))
    (fun _ _ => none) (fun a b => some (compare a b)) (fun a b => some (compare a b))
    (⟨1, 5, 4, none⟩ : Quad Nat) = none :=
  (C51_lexicographic _ _ _ _).1 _ _

/-- Between quads with the same subject, predicate and object, the one in the default
graph is the smaller. -/
theorem C51_default_graph_first (cs : S → S' → Option Ordering) (cp : P → P' → Option Ordering)
    (co : O → O' → Option Ordering) (cg : G → G' → Option Ordering) (a : Quad S P O G)
    (b : Quad S' P' O' G') (hs : cs a.s b.s = some .eq) (hp : cp a.p b.p = some .eq)
    (ho : co a.o b.o = some .eq) :
    (∀ y, a.g = none → b.g = some y → a.partialCmpWith cs cp co cg b = some .lt) ∧
    (∀ x, a.g = some x → b.g = none → a.partialCmpWith cs cp co cg b = some .gt) ∧
    (a.g = none → b.g = none → a.partialCmpWith cs cp co cg b = some .eq) := by
  refine ⟨?_, ?_, ?_⟩ <;> intros <;> simp_all [Quad.partialCmpWith]

example : (⟨1, 2, 3, none⟩ : Quad Nat).partialCmpWith (S' := Nat) (P' := Nat) (O' := Nat)
    (G' := Nat) (fun a b => some (compare a b)) (fun a b => some (compare a b))
    (fun a b => some (compare a b)) (fun a b => some (compare a b)) ⟨1, 2, 3, some 0⟩ =
      some .lt := by decide

/-- The partial comparison agrees with the total one. -/
theorem C51_agrees [Ord S] [Ord P] [Ord O] [Ord G] :
    (∀ a b : Quad S P O G, a.partialCmpWith (fun x y => some (compare x y))
      (fun x y => some (compare x y)) (fun x y => some (compare x y))
      (fun x y => some (compare x y)) b = some (compare a b)) ∧
    (∀ a b : Triple S P O, a.partialCmpWith (fun x y => some (compare x y))
      (fun x y => some (compare x y)) (fun x y => some (compare x y)) b =
        some (compare a b)) := by
  constructor
  · intro a b
    simp only [Quad.partialCmpWith, Quad.compare_def]
    cases compare a.s b.s <;> try rfl
    cases compare a.p b.p <;> try rfl
    cases compare a.o b.o <;> try rfl
    cases a.g <;> cases b.g <;> rfl
  · intro a b
    simp only [Triple.partialCmpWith, Triple.compare_def]
    cases compare a.s b.s <;> try rfl
    cases compare a.p b.p <;> rfl

example : (⟨1, 2, 3⟩ : Triple Nat).partialCmpWith (fun a b => some (compare a b))
    (fun a b => some (compare a b)) (fun a b => some (compare a b)) ⟨1, 3, 2⟩ =
      some (compare (⟨1, 2, 3⟩ : Triple Nat) ⟨1, 3, 2⟩) :=
  (C51_agrees (G := Nat)).2 _ _

/-- A total order consistent with equality. -/
structure LawfulOrder {A : Type} (cmp : A → A → Ordering) : Prop where
  eq_iff : ∀ a b, cmp a b = .eq ↔ a = b
  swap : ∀ a b, cmp b a = (cmp a b).swap
  trans : ∀ a b c, cmp a b = .lt → cmp b c = .lt → cmp a c = .lt

theorem LawfulOrder.of_lawful {A : Type} [Ord A] [Std.TransOrd A] [Std.LawfulEqOrd A] :
    LawfulOrder (compare : A → A → Ordering) where
  eq_iff a b := ⟨Std.LawfulEqCmp.eq_of_compare, fun h => by simp [h, Std.ReflCmp.compare_self]⟩
  swap a b := by rw [Std.OrientedCmp.eq_swap (cmp := compare) (a := b)]
  trans a b c h1 h2 := Std.TransCmp.lt_trans h1 h2

/-- The comparison of statements is a total order, equal only on equal statements, if the
component comparisons are. -/
theorem C51_total [Ord S] [Ord P] [Ord O] [Ord G]
    (hs : LawfulOrder (compare : S → S → Ordering)) (hp : LawfulOrder (compare : P → P → Ordering))
    (ho : LawfulOrder (compare : O → O → Ordering)) (hg : LawfulOrder (compare : G → G → Ordering)) :
    LawfulOrder (compare : Quad S P O G → Quad S P O G → Ordering) ∧
    LawfulOrder (compare : Triple S P O → Triple S P O → Ordering) := by
  have lawful : ∀ {A : Type} [Ord A], LawfulOrder (compare : A → A → Ordering) →
      Std.TransOrd A ∧ Std.LawfulEqOrd A := by
    intro A _ h
    have hsw : ∀ a b : A, compare a b = (compare b a).swap := fun a b => h.swap b a
    have o : Std.OrientedOrd A := ⟨fun {a b} => hsw a b⟩
    have r : Std.ReflOrd A := ⟨fun {a} => (h.eq_iff a a).2 rfl⟩
    refine ⟨⟨?_⟩, ⟨?_⟩⟩
    · intro a b c h1 h2
      cases e1 : compare a b
      · cases e2 : compare b c
        · rw [h.trans a b c e1 e2]; rfl
        · rw [(h.eq_iff b c).1 e2] at e1; rw [e1]; rfl
        · rw [e2] at h2; cases h2
      · rw [(h.eq_iff a b).1 e1]; exact h2
      · rw [e1] at h1; cases h1
    · intro a b hab
      exact (h.eq_iff a b).1 hab
  obtain ⟨_, _⟩ := lawful hs
  obtain ⟨_, _⟩ := lawful hp
  obtain ⟨_, _⟩ := lawful ho
  obtain ⟨_, _⟩ := lawful hg
  exact ⟨.of_lawful, .of_lawful⟩

/-- The components may be lexical terms, compared as strings. -/
example : LawfulOrder (compare : Quad (LocalTerm BlankIdBuf Text Text) →
    Quad (LocalTerm BlankIdBuf Text Text) → Ordering) :=
  (C51_total .of_lawful .of_lawful .of_lawful .of_lawful).1

end C51

/-! ## C52 -/

section C52

variable [DecidableEq I] [DecidableEq L]

/-- Comparing an owned value with a borrowed one, or two copy-on-write values, tells
whether they are the same term; so does the equality of owned values. -/
theorem C52_equality :
    (∀ (a : LiteralType I L) b, a.eqRef b = true ↔ ofLiteralType a = ofLiteralTypeRef b) ∧
    (∀ (a : LiteralTypeRef I L) b, a.eqOwned b = true ↔ ofLiteralTypeRef a = ofLiteralType b) ∧
    (∀ (a b : CowLiteralType I L), a.eq b = true ↔ ofCowLiteralType a = ofCowLiteralType b) ∧
    (∀ (a : Literal I L) b, a.eqRef b = true ↔ ofLiteral a = ofLiteralRef b) ∧
    (∀ (a : LiteralRef I L) b, a.eqOwned b = true ↔ ofLiteralRef a = ofLiteral b) ∧
    (∀ (a : LiteralRef I L) b, a.equivalent b = true ↔ ofLiteralRef a = ofLiteral b) ∧
    (∀ (a b : CowLiteral I L), a.eq b = true ↔ ofCowLiteral a = ofCowLiteral b) ∧
    (∀ (a : TermRef I L) b, a.eqOwned b = true ↔ ofTermRef a = ofTerm b) ∧
    (∀ (a : BlankIdBuf) (b : BlankId), a.eqRef b = true ↔ a.str = b.asStr) ∧
    (∀ (a : BlankId) (b : BlankIdBuf), a.eqOwned b = true ↔ a.asStr = b.str) ∧
    (∀ (a : BlankId) (b : Text), a.eqStr b = true ↔ a.asStr = b) ∧
    (∀ (a : LocalTermRef I L) b, a.eqOwned b = true ↔ ofLocalRef a = ofLocal b) ∧
    (∀ a b : Literal I L, a = b ↔ ofLiteral a = ofLiteral b) ∧
    (∀ a b : Term I L, a = b ↔ ofTerm a = ofTerm b) ∧
    (∀ a b : LexTerm I L, a = b ↔ ofLocal a = ofLocal b) := by
  refine ⟨?_, ?_, ?_, literal_eqRef, literalRef_eqOwned, literalRef_eqOwned, cowLiteral_eq,
    termRef_eqOwned, ?_, ?_, ?_, localRef_eqOwned, fun a b => (ofLiteral_inj a b).symm,
    fun a b => (ofTerm_inj a b).symm, fun a b => (ofLocal_inj a b).symm⟩
  · intro a b
    cases a <;> cases b <;> simp [LiteralType.eqRef, ofLiteralType, ofLiteralTypeRef]
  · intro a b
    cases a <;> cases b <;> simp [LiteralTypeRef.eqOwned, ofLiteralType, ofLiteralTypeRef]
  · intro a b
    cases a <;> cases b <;> simp [CowLiteralType.eq, ofCowLiteralType, Cow.eq_iff]
  · intro a b
    cases a
    cases b
    simp [BlankIdBuf.eqRef, BlankIdBuf.asBlankIdRef]
  · intro a b
    cases a
    cases b
    simp [BlankId.eqOwned, BlankIdBuf.asBlankIdRef]
  · intro a b
    simp [BlankId.eqStr]

/-- Same value, different type: not the same. -/
example :
    (⟨"1".toList, .langString 5⟩ : Literal Nat Nat).eqRef ⟨"1".toList, .any 5⟩ = false ∧
    (⟨"1".toList, .any 5⟩ : Literal Nat Nat).eqRef ⟨"1".toList, .any 5⟩ = true := by decide

/-- All comparisons, between owned values, between borrowed ones and across, are the
order of the terms they hold. -/
theorem C52_order [Ord I] [Ord L] :
    (∀ (a b : LiteralType I L), compare a b = typeOrder (ofLiteralType a) (ofLiteralType b)) ∧
    (∀ (a : LiteralType I L) b,
      a.partialCmpRef b = some (typeOrder (ofLiteralType a) (ofLiteralTypeRef b))) ∧
    (∀ (a : LiteralTypeRef I L) b,
      a.partialCmpOwned b = some (typeOrder (ofLiteralTypeRef a) (ofLiteralType b))) ∧
    (∀ (a b : LiteralTypeRef I L),
      compare a b = typeOrder (ofLiteralTypeRef a) (ofLiteralTypeRef b)) ∧
    (∀ (a b : CowLiteralType I L),
      a.cmp b = typeOrder (ofCowLiteralType a) (ofCowLiteralType b)) ∧
    (∀ (a b : Literal I L), compare a b = order (ofLiteral a) (ofLiteral b)) ∧
    (∀ (a : Literal I L) b, a.partialCmpRef b = some (order (ofLiteral a) (ofLiteralRef b))) ∧
    (∀ (a : LiteralRef I L) b,
      a.partialCmpOwned b = some (order (ofLiteralRef a) (ofLiteral b))) ∧
    (∀ (a b : LiteralRef I L), compare a b = order (ofLiteralRef a) (ofLiteralRef b)) ∧
    (∀ (a b : CowLiteral I L), a.cmp b = order (ofCowLiteral a) (ofCowLiteral b)) ∧
    (∀ (a b : Term I L), compare a b = order (ofTerm a) (ofTerm b)) ∧
    (∀ (a : TermRef I L) b, a.partialCmpOwned b = some (order (ofTermRef a) (ofTerm b))) ∧
    (∀ (a b : TermRef I L), compare a b = order (ofTermRef a) (ofTermRef b)) ∧
    (∀ (a b : LexTerm I L), compare a b = order (ofLocal a) (ofLocal b)) ∧
    (∀ (a : LocalTermRef I L) b,
      a.partialCmpOwned b = some (order (ofLocalRef a) (ofLocal b))) ∧
    (∀ (a b : LocalTermRef I L), compare a b = order (ofLocalRef a) (ofLocalRef b)) := by
  refine ⟨?_, ?_, ?_, ?_, ?_, literal_order, literal_partialCmpRef, literalRef_partialCmpOwned,
    literalRef_order, cowLiteral_cmp, term_order, termRef_partialCmpOwned, termRef_order,
    local_order, localRef_partialCmpOwned, localRef_order⟩
  · intro a b
    cases a <;> cases b <;> rfl
  · intro a b
    cases a <;> cases b <;> rfl
  · intro a b
    cases a <;> cases b <;> rfl
  · intro a b
    cases a <;> cases b <;> rfl
  · intro a b
    cases a <;> cases b <;> simp [CowLiteralType.cmp, Cow.cmp_eq, ofCowLiteralType, typeOrder]

/-- A larger value beats a smaller type. -/
example : (⟨"2".toList, .any 0⟩ : Literal Nat Nat).partialCmpRef ⟨"1".toList, .langString 5⟩ =
      some .gt ∧
    (.anonymous ⟨"_:z".toList⟩ : LocalTermRef Nat Nat).partialCmpOwned (.named (.iri 0)) =
      some .lt := by decide

/-- The accessors succeed on exactly the values of their kind and return their content. -/
theorem C52_accessors :
    (∀ t : Term I L, (t.isIri = true ↔ ∃ i, ofTerm t = .iri i) ∧
      (t.isLiteral = true ↔ ∃ l, ofTerm t = ofLiteral l) ∧
      (∀ i, t.asIri = some i ↔ ofTerm t = .iri i) ∧
      (∀ i, t.intoIri = some i ↔ ofTerm t = .iri i) ∧
      (∀ i, t.tryIntoIri = .ok i ↔ ofTerm t = .iri i) ∧
      (∀ u, t.tryIntoIri = .error u ↔ u = t ∧ ∃ l, ofTerm t = ofLiteral l) ∧
      (∀ l, t.asLiteral = some l ↔ ofTerm t = ofLiteralRef l) ∧
      (∀ l, t.intoLiteral = some l ↔ ofTerm t = ofLiteral l) ∧
      (∀ l, t.tryIntoLiteral = .ok l ↔ ofTerm t = ofLiteral l) ∧
      (∀ i, t.tryIntoLiteral = .error i ↔ ofTerm t = .iri i)) ∧
    (∀ t : LexTerm I L, (t.isAnonymous = true ↔ ∃ b, ofLocal t = .blank b) ∧
      (∀ b, t.asAnonymous = some b ↔ ofLocal t = .blank b.asStr) ∧
      (∀ i, t.asIri = some i ↔ ofLocal t = .iri i) ∧
      (∀ l, t.asLiteral = some l ↔ ofLocal t = ofLiteralRef l)) ∧
    (∀ (t : Id BlankIdBuf I) i, t.asIri = some i ↔ (ofId t : RdfTerm I L) = .iri i) ∧
    (∀ l : Literal I L, (∃ i, ofLiteral l = .typed l.asStr i ∧ l.isLangString = false ∧
        l.langTag = none ∧ ∀ j, l.type_.isIri j = true ↔ j = i) ∨
      (∃ t, ofLiteral l = .tagged l.asStr t ∧ l.isLangString = true ∧ l.langTag = some t ∧
        ∀ j, l.type_.isIri j = false)) ∧
    (∀ l : LiteralRef I L, (∃ i, ofLiteralRef l = .typed l.asStr i ∧ l.isLangString = false ∧
        l.langTag = none ∧ ∀ j, l.type_.isIri j = true ↔ j = i) ∨
      (∃ t, ofLiteralRef l = .tagged l.asStr t ∧ l.isLangString = true ∧ l.langTag = some t ∧
        ∀ j, l.type_.isIri j = false)) := by
  refine ⟨?_, ?_, ?_, ?_, ?_⟩
  · intro t
    rcases t with i | ⟨v, ty⟩
    · refine ⟨?_, ?_, ?_, ?_, ?_, ?_, ?_, ?_, ?_, ?_⟩ <;>
        first
        | (rintro ⟨w, _ | _⟩ <;> simp [Term.asLiteral, Term.intoLiteral, Term.tryIntoLiteral,
            ofTerm, ofLiteral, ofLiteralRef])
        | skip
      · simp [Term.isIri, ofTerm]
      · simp only [Term.isLiteral, Bool.false_eq_true, false_iff, not_exists, ofTerm]
        rintro ⟨w, _ | _⟩ <;> simp [ofLiteral]
      · simp [Term.asIri, ofTerm]
      · simp [Term.intoIri, Term.tryIntoIri, ofTerm]
      · simp [Term.tryIntoIri, ofTerm]
      · intro u
        simp only [Term.tryIntoIri, reduceCtorEq, false_iff, not_and, not_exists, ofTerm]
        rintro - ⟨w, _ | _⟩ <;> simp [ofLiteral]
      · simp [Term.tryIntoLiteral, ofTerm]
    · refine ⟨?_, ?_, ?_, ?_, ?_, ?_, ?_, ?_, ?_, ?_⟩
      · cases ty <;> simp [Term.isIri, ofTerm, ofLiteral]
      · simp only [Term.isLiteral, true_iff]
        exact ⟨_, rfl⟩
      · cases ty <;> simp [Term.asIri, ofTerm, ofLiteral]
      · cases ty <;> simp [Term.intoIri, Term.tryIntoIri, ofTerm, ofLiteral]
      · cases ty <;> simp [Term.tryIntoIri, ofTerm, ofLiteral]
      · intro u
        simp only [Term.tryIntoIri, Except.error.injEq]
        exact ⟨fun h => ⟨h.symm, _, rfl⟩, fun h => h.1.symm⟩
      · rintro ⟨w, u⟩
        cases ty <;> cases u <;>
          simp [Term.asLiteral, Literal.asRef, LiteralType.asRef, ofTerm, ofLiteral, ofLiteralRef]
      · intro l
        simp only [Term.intoLiteral, ofTerm, Option.some.injEq, ofLiteral_inj]
      · intro l
        simp only [Term.tryIntoLiteral, ofTerm, Except.ok.injEq, ofLiteral_inj]
      · cases ty <;> simp [Term.tryIntoLiteral, ofTerm, ofLiteral]
  · intro t
    rcases t with ⟨b⟩ | i | ⟨v, ty⟩
    · refine ⟨by simp [LocalTerm.isAnonymous, ofLocal], ?_, by simp [LocalTerm.asIri, ofLocal], ?_⟩
      · rintro ⟨c⟩
        simp [LocalTerm.asAnonymous, ofLocal, BlankIdBuf.asBlankIdRef]
      · rintro ⟨w, _ | _⟩ <;> simp [LocalTerm.asLiteral, ofLocal, ofLiteralRef]
    · refine ⟨by simp [LocalTerm.isAnonymous, ofLocal, ofTerm], ?_,
        by simp [LocalTerm.asIri, Term.asIri, ofLocal, ofTerm], ?_⟩
      · rintro ⟨c⟩
        simp [LocalTerm.asAnonymous, ofLocal, ofTerm]
      · rintro ⟨w, _ | _⟩ <;>
          simp [LocalTerm.asLiteral, Term.asLiteral, ofLocal, ofTerm, ofLiteralRef]
    · refine ⟨?_, ?_, ?_, ?_⟩
      · cases ty <;> simp [LocalTerm.isAnonymous, ofLocal, ofTerm, ofLiteral]
      · rintro ⟨c⟩
        cases ty <;> simp [LocalTerm.asAnonymous, ofLocal, ofTerm, ofLiteral]
      · cases ty <;> simp [LocalTerm.asIri, Term.asIri, ofLocal, ofTerm, ofLiteral]
      · rintro ⟨w, u⟩
        cases ty <;> cases u <;>
          simp [LocalTerm.asLiteral, Term.asLiteral, Literal.asRef, LiteralType.asRef, ofLocal,
            ofTerm, ofLiteral, ofLiteralRef]
  · intro t i
    cases t <;> simp [Id.asIri, ofId]
  · rintro ⟨v, ty⟩
    cases ty with
    | any i =>
      left
      refine ⟨i, rfl, rfl, rfl, ?_⟩
      intro j
      simp only [LiteralType.isIri, beq_iff_eq]
      exact eq_comm
    | langString t => exact .inr ⟨t, rfl, rfl, rfl, fun _ => rfl⟩
  · rintro ⟨v, ty⟩
    cases ty with
    | any i =>
      left
      refine ⟨i, rfl, rfl, rfl, ?_⟩
      intro j
      simp only [LiteralTypeRef.isIri, beq_iff_eq]
      exact eq_comm
    | langString t => exact .inr ⟨t, rfl, rfl, rfl, fun _ => rfl⟩

example : (Term.literal ⟨"a".toList, .any 1⟩ : Term Nat Nat).tryIntoIri =
      .error (.literal ⟨"a".toList, .any 1⟩) ∧
    (Term.iri 3 : Term Nat Nat).tryIntoLiteral = .error 3 ∧
    (LocalTerm.named (.literal ⟨"a".toList, .langString 1⟩) : LexTerm Nat Nat).asLiteral =
      some ⟨"a".toList, .langString 1⟩ := by decide

/-- Every conversion between the forms of a term keeps the term. -/
theorem C52_conversions :
    (∀ t : LiteralType I L, ofLiteralTypeRef t.asRef = ofLiteralType t ∧
      ofCowLiteralType t.asCow = ofLiteralType t ∧ ofCowLiteralType t.intoCow = ofLiteralType t) ∧
    (∀ t : LiteralTypeRef I L, ofLiteralType t.intoOwned = ofLiteralTypeRef t ∧
      ofCowLiteralType (.ofRef t) = ofLiteralTypeRef t) ∧
    (∀ t : CowLiteralType I L, ofLiteralTypeRef t.asRef = ofCowLiteralType t ∧
      ofLiteralType t.intoOwned = ofCowLiteralType t) ∧
    (∀ l : Literal I L, ofLiteralRef l.asRef = ofLiteral l ∧ ofCowLiteral l.asCow = ofLiteral l ∧
      ofCowLiteral l.intoCow = ofLiteral l ∧ ofCowLiteral (.ofLiteral l) = ofLiteral l ∧
      ofLiteral ⟨l.intoParts.1, l.intoParts.2⟩ = ofLiteral l) ∧
    (∀ l : LiteralRef I L, ofLiteral l.toOwned = ofLiteralRef l ∧
      ofCowLiteral l.intoCow = ofLiteralRef l ∧
      ofLiteralRef ⟨l.intoParts.1, l.intoParts.2⟩ = ofLiteralRef l) ∧
    (∀ l : CowLiteral I L, ofLiteralRef l.asRef = ofCowLiteral l ∧
      ofLiteral l.intoOwned = ofCowLiteral l) ∧
    (∀ t : Term I L, ofTermRef t.asRef = ofTerm t ∧ ofCowTerm t.asCow = ofTerm t ∧
      ofCowTerm t.intoCow = ofTerm t) ∧
    (∀ t : TermRef I L, ofTerm t.toOwned = ofTermRef t) ∧
    (∀ t : CowTerm I L, ofTerm t.intoOwned = ofCowTerm t) ∧
    (∀ t : LexTerm I L, ofLocalRef t.asRef = ofLocal t ∧ ofCowLocal t.asCow = ofLocal t ∧
      ofCowLocal t.intoCow = ofLocal t) ∧
    (∀ t : LocalTermRef I L, ofLocal t.toOwned = ofLocalRef t) ∧
    (∀ t : Id BlankIdBuf I, (ofIdRef t.asRef : RdfTerm I L) = ofId t ∧
      (ofCowId t.asCow : RdfTerm I L) = ofId t) ∧
    (∀ t : IdRef I, (ofId t.intoOwned : RdfTerm I L) = ofIdRef t) ∧
    (∀ i : I, (ofLocal (.ofIri i) : RdfTerm I L) = .iri i) ∧
    (∀ l : Literal I L, ofLocal (.ofLiteral l) = ofLiteral l) ∧
    (∀ t : Term I L, ofLocal (.ofTerm t) = ofTerm t) ∧
    (∀ b : BlankIdBuf, (ofLocal (.ofBlankId b) : RdfTerm I L) = .blank b.str) := by
  have c : ∀ {A : Type} (x : Cow A A), x.get = content x := Cow.get_eq
  refine ⟨?_, ?_, ?_, ?_, ?_, ?_, ?_, ?_, ?_, ?_, ?_, ?_, ?_, fun _ => rfl, fun _ => rfl,
    fun _ => rfl, fun _ => rfl⟩
  · intro t
    cases t <;> exact ⟨rfl, rfl, rfl⟩
  · intro t
    cases t <;> exact ⟨rfl, rfl⟩
  · intro t
    cases t <;> simp [CowLiteralType.asRef, CowLiteralType.intoOwned, ofLiteralTypeRef,
      ofLiteralType, ofCowLiteralType, c]
  · rintro ⟨v, t⟩
    cases t <;> exact ⟨rfl, rfl, rfl, rfl, rfl⟩
  · rintro ⟨v, t⟩
    cases t <;> exact ⟨rfl, rfl, rfl⟩
  · rintro ⟨v, t⟩
    cases t <;> simp [CowLiteral.asRef, CowLiteral.intoOwned, CowLiteralType.asRef,
      CowLiteralType.intoOwned, ofLiteralRef, ofLiteral, ofCowLiteral, c]
  · rintro (i | ⟨v, t⟩)
    · exact ⟨rfl, rfl, rfl⟩
    · cases t <;> exact ⟨rfl, rfl, rfl⟩
  · rintro (i | ⟨v, t⟩)
    · rfl
    · cases t <;> rfl
  · rintro (i | ⟨v, t⟩)
    · simp [CowTerm.intoOwned, ofTerm, ofCowTerm, c]
    · cases t <;> simp [CowTerm.intoOwned, CowLiteral.intoOwned, CowLiteralType.intoOwned,
        ofTerm, ofCowTerm, ofLiteral, ofCowLiteral, c]
  · rintro (b | i | ⟨v, t⟩)
    · exact ⟨rfl, rfl, rfl⟩
    · exact ⟨rfl, rfl, rfl⟩
    · cases t <;> exact ⟨rfl, rfl, rfl⟩
  · rintro (b | i | ⟨v, t⟩)
    · rfl
    · rfl
    · cases t <;> rfl
  · rintro (b | i) <;> exact ⟨rfl, rfl⟩
  · rintro (b | i) <;> rfl

example : ofCowTerm (Term.literal ⟨"a".toList, .langString 1⟩ : Term Nat Nat).intoCow =
    .tagged "a".toList 1 :=
  (C52_conversions.2.2.2.2.2.2.1 (.literal ⟨"a".toList, .langString 1⟩)).2.2

/-- Conversions to a borrowed or copy-on-write form and back round-trip, on terms and on
lexical statements. -/
theorem C52_round_trips :
    (∀ t : LiteralType I L, t.asRef.intoOwned = t ∧ t.asCow.intoOwned = t ∧
      t.intoCow.intoOwned = t) ∧
    (∀ t : LiteralTypeRef I L, t.intoOwned.asRef = t ∧ (CowLiteralType.ofRef t).asRef = t) ∧
    (∀ l : Literal I L, l.asRef.toOwned = l ∧ l.asCow.intoOwned = l ∧ l.intoCow.intoOwned = l ∧
      (CowLiteral.ofLiteral l).intoOwned = l) ∧
    (∀ l : LiteralRef I L, l.toOwned.asRef = l ∧ l.intoCow.asRef = l) ∧
    (∀ t : Term I L, t.asRef.toOwned = t ∧ t.asCow.intoOwned = t ∧ t.intoCow.intoOwned = t) ∧
    (∀ t : TermRef I L, t.toOwned.asRef = t) ∧
    (∀ b : BlankIdBuf, b.asBlankIdRef.toOwned = b) ∧
    (∀ b : BlankId, b.toOwned.asBlankIdRef = b) ∧
    (∀ t : LexTerm I L, t.asRef.toOwned = t) ∧
    (∀ t : LocalTermRef I L, t.toOwned.asRef = t) ∧
    (∀ t : Id BlankIdBuf I, t.asRef.intoOwned = t) ∧
    (∀ t : IdRef I, t.intoOwned.asRef = t) ∧
    (∀ q : LexQuad I L, LexQuadRef.intoOwned (LexQuad.asLexicalQuadRef q) = q) ∧
    (∀ q : LexQuadRef I L, LexQuad.asLexicalQuadRef (LexQuadRef.intoOwned q) = q) ∧
    (∀ t : LexTriple I L, LexTripleRef.intoOwned (LexTriple.asLexicalTripleRef t) = t) ∧
    (∀ t : LexTripleRef I L, LexTriple.asLexicalTripleRef (LexTripleRef.intoOwned t) = t) := by
  have hl : ∀ t : LexTerm I L, t.asRef.toOwned = t := by
    rintro (b | i | ⟨v, t⟩)
    · rfl
    · rfl
    · cases t <;> rfl
  have hl' : ∀ t : LocalTermRef I L, t.toOwned.asRef = t := by
    rintro (b | i | ⟨v, t⟩)
    · rfl
    · rfl
    · cases t <;> rfl
  have hi : ∀ t : Id BlankIdBuf I, t.asRef.intoOwned = t := by rintro (b | i) <;> rfl
  have hi' : ∀ t : IdRef I, t.intoOwned.asRef = t := by rintro (b | i) <;> rfl
  refine ⟨?_, ?_, ?_, ?_, ?_, ?_, fun _ => rfl, fun _ => rfl, hl, hl', hi, hi', ?_, ?_, ?_, ?_⟩
  · intro t
    cases t <;> exact ⟨rfl, rfl, rfl⟩
  · intro t
    cases t <;> exact ⟨rfl, rfl⟩
  · rintro ⟨v, t⟩
    cases t <;> exact ⟨rfl, rfl, rfl, rfl⟩
  · rintro ⟨v, t⟩
    cases t <;> exact ⟨rfl, rfl⟩
  · rintro (i | ⟨v, t⟩)
    · exact ⟨rfl, rfl, rfl⟩
    · cases t <;> exact ⟨rfl, rfl, rfl⟩
  · rintro (i | ⟨v, t⟩)
    · rfl
    · cases t <;> rfl
  · rintro ⟨s, p, o, g⟩
    cases g <;> simp [LexQuadRef.intoOwned, LexQuad.asLexicalQuadRef, hi, hl]
  · rintro ⟨s, p, o, g⟩
    cases g <;> simp [LexQuadRef.intoOwned, LexQuad.asLexicalQuadRef, hi', hl']
  · rintro ⟨s, p, o⟩
    simp [LexTripleRef.intoOwned, LexTriple.asLexicalTripleRef, hi, hl]
  · rintro ⟨s, p, o⟩
    simp [LexTripleRef.intoOwned, LexTriple.asLexicalTripleRef, hi', hl']

example : LexQuadRef.intoOwned (LexQuad.asLexicalQuadRef
      (⟨.blankId ⟨"_:a".toList⟩, 5, .named (.literal ⟨"a".toList, .langString 1⟩), some (.iri 6)⟩ :
        LexQuad Nat Nat)) =
    ⟨.blankId ⟨"_:a".toList⟩, 5, .named (.literal ⟨"a".toList, .langString 1⟩), some (.iri 6)⟩ :=
  C52_round_trips.2.2.2.2.2.2.2.2.2.2.2.2.1 _

/-- Taking the copy-on-write form of a reference copies nothing, and that of a value handed
over borrows nothing. -/
theorem C52_copies :
    (∀ t : LiteralType I L, true ∉ typeOwns t.asCow ∧ false ∉ typeOwns t.intoCow) ∧
    (∀ t : LiteralTypeRef I L, true ∉ typeOwns (CowLiteralType.ofRef t)) ∧
    (∀ l : Literal I L, true ∉ literalOwns l.asCow ∧ false ∉ literalOwns l.intoCow ∧
      true ∉ literalOwns (CowLiteral.ofLiteral l)) ∧
    (∀ l : LiteralRef I L, true ∉ literalOwns l.intoCow) ∧
    (∀ t : Term I L, true ∉ termOwns t.asCow ∧ false ∉ termOwns t.intoCow) ∧
    (∀ t : LexTerm I L, true ∉ localOwns t.asCow ∧ false ∉ localOwns t.intoCow) ∧
    (∀ t : Id BlankIdBuf I, true ∉ idOwns t.asCow) := by
  have h1 : ∀ t : LiteralType I L, typeOwns t.asCow = [false] ∧ typeOwns t.intoCow = [true] := by
    rintro (i | t) <;> exact ⟨rfl, rfl⟩
  have h2 : ∀ t : LiteralTypeRef I L, typeOwns (CowLiteralType.ofRef t) = [false] := by
    rintro (i | t) <;> rfl
  have h3 : ∀ l : Literal I L, literalOwns l.asCow = [false, false] ∧
      literalOwns l.intoCow = [true, true] ∧
      literalOwns (CowLiteral.ofLiteral l) = [false, false] := by
    rintro ⟨v, i | t⟩ <;> exact ⟨rfl, rfl, rfl⟩
  have h4 : ∀ t : Term I L, true ∉ termOwns t.asCow ∧ false ∉ termOwns t.intoCow := by
    rintro (i | l)
    · exact ⟨by simp [termOwns, Term.asCow, owns], by simp [termOwns, Term.intoCow, owns]⟩
    · exact ⟨by simp [termOwns, Term.asCow, h3], by simp [termOwns, Term.intoCow, h3]⟩
  refine ⟨fun t => by simp [h1], fun t => by simp [h2], fun l => by simp [h3], ?_, h4, ?_, ?_⟩
  · rintro ⟨v, i | t⟩ <;> simp [literalOwns, typeOwns, LiteralRef.intoCow, CowLiteralType.ofRef, owns]
  · rintro (b | t)
    · exact ⟨by show true ∉ [false]; simp, by show false ∉ [true]; simp⟩
    · exact h4 t
  · rintro (b | i) <;> simp [idOwns, Id.asCow, owns]

example : literalOwns (CowLiteral.ofLiteral (⟨['v'], .any ['i']⟩ : Literal Text Text)) =
    [false, false] := rfl

end C52

/-! ## C53 -/

section C53

variable [Hashed I] [Hashed L]

/-- Values holding the same term hash equally, in whatever form: a map of owned literals
can be searched with borrowed ones. -/
theorem C53_hash_partial [DecidableEq I] [DecidableEq L] :
    (∀ (a : Literal I L) (b : LiteralRef I L), a.eqRef b = true →
      Hashed.hash a = Hashed.hash b) ∧
    (∀ (a : LiteralRef I L) (b : Literal I L), a.equivalent b = true →
      Hashed.hash a = Hashed.hash b) ∧
    (∀ (a : LiteralType I L) (b : LiteralTypeRef I L), a.eqRef b = true →
      Hashed.hash a = Hashed.hash b) ∧
    (∀ (a b : CowLiteral I L), a.eq b = true → Hashed.hash a = Hashed.hash b) ∧
    (∀ (a b : CowLiteralType I L), a.eq b = true → Hashed.hash a = Hashed.hash b) ∧
    (∀ (a : Literal I L) (b : CowLiteral I L), ofLiteral a = ofCowLiteral b →
      Hashed.hash a = Hashed.hash b) ∧
    (∀ (a : BlankIdBuf) (b : BlankId), a.eqRef b = true → Hashed.hash a = Hashed.hash b) ∧
    (∀ a b : Term I L, ofTerm a = ofTerm b → Hashed.hash a = Hashed.hash b) ∧
    (∀ a b : LexTerm I L, ofLocal a = ofLocal b → Hashed.hash a = Hashed.hash b) := by
  have hc : ∀ {A : Type} [Hashed A] (a : Cow A A), Hashed.hash a = Hashed.hash (content a) := by
    intro A _ a
    cases a <;> rfl
  have ty : ∀ (a : LiteralType I L) (b : LiteralTypeRef I L), a.eqRef b = true →
      Hashed.hash a = Hashed.hash b := by
    intro a b h
    cases a <;> cases b <;> simp_all [LiteralType.eqRef, Hashed.hash]
  have cty : ∀ (a b : CowLiteralType I L), a.eq b = true → Hashed.hash a = Hashed.hash b := by
    intro a b h
    have e : ∀ x : CowLiteralType I L, Hashed.hash x = match x with
      | .any i => .discriminant 0 :: Hashed.hash (content i)
      | .langString l => .discriminant 1 :: Hashed.hash (content l) := by
      intro x
      cases x <;> simp only [← hc] <;> rfl
    rw [e, e]
    cases a <;> cases b <;> simp_all [CowLiteralType.eq, Cow.eq_iff]
  refine ⟨?_, ?_, ty, ?_, cty, ?_, ?_, fun a b h => by rw [(ofTerm_inj a b).1 h],
    fun a b h => by rw [(ofLocal_inj a b).1 h]⟩
  · intro a b h
    rw [Literal.eqRef, Bool.and_eq_true, beq_iff_eq] at h
    show Hashed.hash a.value ++ Hashed.hash a.type_ = Hashed.hash b.value ++ Hashed.hash b.type_
    rw [ty _ _ h.1, h.2]
  · intro a b h
    obtain ⟨v, t⟩ := a
    obtain ⟨w, u⟩ := b
    cases t <;> cases u <;>
      simp_all [LiteralRef.equivalent, LiteralRef.eqOwned, LiteralTypeRef.eqOwned, Hashed.hash]
  · intro a b h
    rw [CowLiteral.eq, Bool.and_eq_true, Cow.eq_iff] at h
    show Hashed.hash a.value ++ Hashed.hash a.type_ = Hashed.hash b.value ++ Hashed.hash b.type_
    rw [cty _ _ h.2, hc, h.1, ← hc]
  · rintro ⟨v, t⟩ ⟨w, u⟩ h
    show Hashed.hash v ++ Hashed.hash t = Hashed.hash w ++ Hashed.hash u
    rw [hc w]
    cases t <;> cases u <;> simp only [ofLiteral, ofCowLiteral, RdfTerm.typed.injEq, reduceCtorEq,
      RdfTerm.tagged.injEq] at h
    · rw [h.1, h.2]
      rename_i i
      show _ ++ (Write.discriminant 0 :: _) = _ ++ (Write.discriminant 0 :: Hashed.hash i)
      rw [hc i]
    · rw [h.1, h.2]
      rename_i i
      show _ ++ (Write.discriminant 1 :: _) = _ ++ (Write.discriminant 1 :: Hashed.hash i)
      rw [hc i]
  · intro a b h
    obtain ⟨s⟩ := a
    obtain ⟨t⟩ := b
    have : s = t := by simpa [BlankIdBuf.eqRef, BlankIdBuf.asBlankIdRef] using h
    rw [this]
    rfl

example : Hashed.hash (⟨"a".toList, .any "i".toList⟩ : Literal Text Text) =
    [.str "a".toList, .discriminant 0, .str "i".toList] := by decide

/-- The hash of a literal tells value, kind of type and type apart. -/
example : Hashed.hash (⟨"a".toList, .any "i".toList⟩ : Literal Text Text) ≠
    Hashed.hash (⟨"a".toList, .langString "i".toList⟩ : Literal Text Text) := by decide

/-- A term hashes as what it holds, whichever way it is wrapped. -/
theorem C53_hash_parts :
    (∀ i : I, Hashed.hash (Term.iri i : Term I L) = Hashed.hash i) ∧
    (∀ l : Literal I L, Hashed.hash (Term.literal l) = Hashed.hash l) ∧
    (∀ t : Term I L, Hashed.hash (LocalTerm.named t : LexTerm I L) = Hashed.hash t) ∧
    (∀ b : BlankIdBuf, Hashed.hash (LocalTerm.anonymous b : LexTerm I L) = Hashed.hash b.str) :=
  ⟨fun _ => rfl, fun _ => rfl, fun _ => rfl, fun _ => rfl⟩

example : Hashed.hash (LocalTerm.anonymous ⟨"_:a".toList⟩ : LexTerm Text Text) =
    Hashed.hash "_:a".toList :=
  C53_hash_parts.2.2.2 ⟨"_:a".toList⟩

/-- What is written to the hasher tells literals apart, in each form, if it tells IRIs and
language tags apart. -/
theorem C53_hash_distinct (hi : ∀ i j : I, Hashed.hash i = Hashed.hash j → i = j)
    (hl : ∀ i j : L, Hashed.hash i = Hashed.hash j → i = j) :
    (∀ a b : Literal I L, Hashed.hash a = Hashed.hash b → ofLiteral a = ofLiteral b) ∧
    (∀ a b : LiteralRef I L, Hashed.hash a = Hashed.hash b → ofLiteralRef a = ofLiteralRef b) ∧
    (∀ a b : CowLiteral I L, Hashed.hash a = Hashed.hash b → ofCowLiteral a = ofCowLiteral b) := by
  refine ⟨?_, ?_, ?_⟩
  · rintro ⟨v, i | i⟩ ⟨w, j | j⟩ h <;>
      simp only [Hashed.hash, List.singleton_append, List.cons.injEq, Write.str.injEq,
        Write.discriminant.injEq, reduceCtorEq, false_and, and_false, true_and,
        Nat.zero_ne_one, Nat.one_ne_zero] at h
    · rw [h.1, hi _ _ h.2]
    · rw [h.1, hl _ _ h.2]
  · rintro ⟨v, i | i⟩ ⟨w, j | j⟩ h <;>
      simp only [Hashed.hash, List.singleton_append, List.cons.injEq, Write.str.injEq,
        Write.discriminant.injEq, reduceCtorEq, false_and, and_false, true_and,
        Nat.zero_ne_one, Nat.one_ne_zero] at h
    · rw [h.1, hi _ _ h.2]
    · rw [h.1, hl _ _ h.2]
  · have g : ∀ {A : Type} (c : Cow A A), c.get = content c := by
      intro A c; cases c <;> rfl
    rintro ⟨v, i | i⟩ ⟨w, j | j⟩ h <;>
      simp only [Hashed.hash, List.singleton_append, List.cons.injEq, Write.str.injEq,
        Write.discriminant.injEq, reduceCtorEq, false_and, and_false, true_and,
        Nat.zero_ne_one, Nat.one_ne_zero, g] at h
    · simp only [ofCowLiteral, h.1, hi _ _ h.2]
    · simp only [ofCowLiteral, h.1, hl _ _ h.2]

/-- The hypotheses hold of texts. -/
example : ∀ i j : Text, Hashed.hash i = Hashed.hash j → i = j := by
  intro i j h
  simpa [Hashed.hash] using h

/-- Blank node identifiers can be looked up by their borrowed form and by their string. -/
theorem C53_blank_ids_partial :
    BorrowConsistent BlankIdBuf.asBlankIdRef ∧ BorrowConsistent BlankIdBuf.str ∧
      BorrowConsistent BlankId.asStr := by
  refine ⟨⟨?_, fun _ _ => rfl, fun _ => rfl⟩, ⟨?_, fun _ _ => rfl, fun _ => rfl⟩,
    ⟨?_, fun _ _ => rfl, fun _ => rfl⟩⟩ <;>
  · rintro ⟨x⟩ ⟨y⟩
    simp [BlankIdBuf.asBlankIdRef]

example : BlankIdBuf.asBlankIdRef ⟨"_:a".toList⟩ ≠ BlankIdBuf.asBlankIdRef ⟨"_:b".toList⟩ := by
  decide

/-- The claim is false for literals: both `Borrow<str>` implementations confuse literals
of equal values, order them as equal and hash them differently from their value. -/
theorem C53_false :
    ¬ BorrowConsistent (Literal.asStr : Literal Text Text → Text) ∧
    ¬ BorrowConsistent (LiteralRef.asStr : LiteralRef Text Text → Text) := by
  constructor
  · intro h
    have := (h.eq ⟨"1".toList, .any "a".toList⟩ ⟨"1".toList, .any "b".toList⟩).1 rfl
    exact absurd this (by decide)
  · intro h
    have := (h.eq ⟨"1".toList, .any "a".toList⟩ ⟨"1".toList, .any "b".toList⟩).1 rfl
    exact absurd this (by decide)

/-- No literal hashes as the string it borrows as, so that a lookup by value in a hash map
of literals looks in the wrong place. -/
theorem C53_literal_hash : (∀ l : Literal I L, Hashed.hash l.asStr ≠ Hashed.hash l) ∧
    (∀ l : LiteralRef I L, Hashed.hash l.asStr ≠ Hashed.hash l) := by
  constructor
  · rintro ⟨v, t⟩ h
    have : Hashed.hash t = [] := by simpa [Hashed.hash, Literal.asStr] using h
    cases t <;> exact absurd this (by simp [Hashed.hash])
  · rintro ⟨v, t⟩ h
    have : Hashed.hash t = [] := by simpa [Hashed.hash, LiteralRef.asStr] using h
    cases t <;> exact absurd this (by simp [Hashed.hash])

example : Hashed.hash (⟨"a".toList, .any "i".toList⟩ : Literal Text Text).asStr ≠
    Hashed.hash (⟨"a".toList, .any "i".toList⟩ : Literal Text Text) :=
  C53_literal_hash.1 _

end C53

end RdfTypes.Property
