import Verif.Proof.PatternForms

/-!
# Forms of patterns

C68: what binding a position does to the pattern; C69: canonical patterns are canonical.
-/

set_option linter.unusedSimpArgs false

namespace RdfTypes.Property

open Spec Proof

variable {T X : Type}

/-! ## C68 -/

section C68

open CanonicalTriplePattern TPat

attribute [local simp] fromPattern AnySubject.fromPattern
  GivenSubject.fromPattern AnySubjectAnyPredicate.fromPattern
  AnySubjectGivenPredicate.fromPattern GivenSubjectAnyPredicate.fromPattern
  GivenSubjectGivenPredicate.fromPattern
  setSubject setPredicate setObject AnySubject.setPredicate AnySubject.setObject
  GivenSubject.setPredicate GivenSubject.setObject AnySubjectAnyPredicate.setObject
  AnySubjectGivenPredicate.setObject GivenSubjectAnyPredicate.setObject
  GivenSubjectGivenPredicate.setObject substituteTriple substitute
  fromOptionTriple AnySubject.fromOptionTriple GivenSubject.fromOptionTriple
  AnySubjectAnyPredicate.fromOption AnySubjectGivenPredicate.fromOption

/-- C68: `set_subject` puts the term in all the places of the variable that is the
subject, or in the place of the subject if that is a term. -/
theorem C68_set_subject [DecidableEq X] (pat : TriplePattern T X) (t : T) :
    (∀ y, pat.s = .var y →
      ((fromPattern pat).setSubject t).2 = fromPattern (substituteTriple y t pat)) ∧
    (∀ t', pat.s = .resource t' →
      ((fromPattern pat).setSubject t).2 = fromPattern (⟨.resource t, pat.p, pat.o⟩ : TriplePattern T X)) := by
  obtain ⟨ps, pp, po⟩ := pat
  rcases ps with _ | x <;> rcases pp with _ | y <;> rcases po with _ | z <;> simp <;> grind

/-- C68: `set_predicate` likewise for the predicate, but it frees an object that was to be
equal to the subject. -/
theorem C68_set_predicate [DecidableEq X] (pat : TriplePattern T X) (t : T) :
    (∀ y, pat.p = .var y → (∀ x, x ≠ y → ¬ (pat.s = .var x ∧ pat.o = .var x)) →
      ((fromPattern pat).setPredicate t).2 = fromPattern (substituteTriple y t pat)) ∧
    (∀ y x, pat.p = .var y → x ≠ y → pat.s = .var x → pat.o = .var x →
      ((fromPattern pat).setPredicate t).2 = fromOptionTriple ⟨none, some t, none⟩) ∧
    (∀ t', pat.p = .resource t' →
      ((fromPattern pat).setPredicate t).2 = fromPattern (⟨pat.s, .resource t, pat.o⟩ : TriplePattern T X)) := by
  obtain ⟨ps, pp, po⟩ := pat
  rcases ps with _ | x <;> rcases pp with _ | y <;> rcases po with _ | z <;> simp <;> grind

/-- C68: `set_object` likewise for the object, but it frees a subject that was to be
equal to the object, if the predicate is a term. -/
theorem C68_set_object [DecidableEq X] (pat : TriplePattern T X) (t : T) :
    (∀ y, pat.o = .var y → ¬ (pat.s = .var y ∧ ∃ p, pat.p = .resource p) →
      ((fromPattern pat).setObject t).2 = fromPattern (substituteTriple y t pat)) ∧
    (∀ y p, pat.o = .var y → pat.s = .var y → pat.p = .resource p →
      ((fromPattern pat).setObject t).2 = fromOptionTriple ⟨none, some p, some t⟩) ∧
    (∀ t', pat.o = .resource t' →
      ((fromPattern pat).setObject t).2 = fromPattern (⟨pat.s, pat.p, .resource t⟩ : TriplePattern T X)) := by
  obtain ⟨ps, pp, po⟩ := pat
  rcases ps with _ | x <;> rcases pp with _ | y <;> rcases po with _ | z <;> simp <;> grind

/-- C68: the setters of the parts of a pattern report the former value of the position,
but for an object that was to be equal to the predicate, reported as free where setting it
also sets the predicate. -/
theorem C68_reports (t : T) :
    (∀ x : AnySubject T, (x.setPredicate t).1 = x.predicate) ∧
    (∀ x : GivenSubject T, (x.setPredicate t).1 = x.predicate) ∧
    (∀ x : AnySubject T, x.object ≠ .sameAsPredicate → (x.setObject t).1 = x.object) ∧
    (∀ x : GivenSubject T, x.object ≠ .sameAsPredicate → (x.setObject t).1 = x.object) ∧
    (∀ x : AnySubject T, x.object = .sameAsPredicate → (x.setObject t).1 = .any) ∧
    (∀ x : GivenSubject T, x.object = .sameAsPredicate → (x.setObject t).1 = .any) := by
  refine ⟨?_, ?_, ?_, ?_, ?_, ?_⟩
  · rintro ((_ | _ | _ | _) | (_ | _ | _) | ⟨_, (_ | _ | _)⟩) <;> rfl
  · rintro ((_ | _ | _) | ⟨_, (_ | _)⟩) <;> rfl
  · rintro ((_ | _ | _ | _) | (_ | _ | _) | ⟨_, (_ | _ | _)⟩) h <;> first | rfl | exact absurd rfl h
  · rintro ((_ | _ | _) | ⟨_, (_ | _)⟩) h <;> first | rfl | exact absurd rfl h
  · rintro ((_ | _ | _ | _) | (_ | _ | _) | ⟨_, (_ | _ | _)⟩) h <;> first | rfl | cases h
  · rintro ((_ | _ | _) | ⟨_, (_ | _)⟩) h <;> first | rfl | cases h

/-- On `?0 ?1 ?0` the predicate 5 gives `_ 5 _`; on `?0 ?1 ?1` it gives `_ 5 5`. -/
example :
    ((fromPattern (⟨.var 0, .var 1, .var 0⟩ : TriplePattern Nat Nat)).setPredicate 5).2 =
      fromOptionTriple ⟨none, some 5, none⟩ ∧
    ((fromPattern (⟨.var 0, .var 1, .var 1⟩ : TriplePattern Nat Nat)).setPredicate 5).2 =
      fromPattern (⟨.var 0, .resource 5, .resource 5⟩ : TriplePattern Nat Nat) :=
  ⟨(C68_set_predicate _ 5).2.1 1 0 rfl (by decide) rfl rfl,
    (C68_set_predicate _ 5).1 1 rfl (by rintro x hx ⟨h, h'⟩; simp_all)⟩

/-- On `?0 7 ?0` the object 5 gives `_ 7 5`; the subject 5 gives `5 7 5`. -/
example :
    ((fromPattern (⟨.var 0, .resource 7, .var 0⟩ : TriplePattern Nat Nat)).setObject 5).2 =
      fromOptionTriple ⟨none, some 7, some 5⟩ ∧
    ((fromPattern (⟨.var 0, .resource 7, .var 0⟩ : TriplePattern Nat Nat)).setSubject 5).2 =
      fromPattern (⟨.resource 5, .resource 7, .resource 5⟩ : TriplePattern Nat Nat) :=
  ⟨(C68_set_object _ 5).2.1 0 7 rfl rfl rfl, (C68_set_subject _ 5).1 0 rfl⟩

end C68

/-! ## C69 -/

/-- C69: if there are two terms, canonical patterns that match the same statements are
equal, so that patterns with the same instances have the same canonical form. -/
theorem C69_same_statements [DecidableEq X] {u v : T} (huv : u ≠ v) :
    (∀ x y : CanonicalTriplePattern T, (∀ t, matchesTriple x t ↔ matchesTriple y t) → x = y) ∧
    (∀ x y : CanonicalQuadPattern T, (∀ q, matchesQuad x q ↔ matchesQuad y q) → x = y) ∧
    (∀ a b : TriplePattern T X, CanonicalTriplePattern.fromPattern a = .fromPattern b ↔
      ∀ t, instanceOfTriple a t ↔ instanceOfTriple b t) ∧
    (∀ a b : QuadPattern T X, CanonicalQuadPattern.fromPattern a = .fromPattern b ↔
      ∀ q, instanceOfQuad a q ↔ instanceOfQuad b q) := by
  refine ⟨fun x y h => triple_form_eq huv h, fun x y h => quad_form_eq huv h, fun a b => ⟨?_, ?_⟩,
    fun a b => ⟨?_, ?_⟩⟩
  · intro h t
    rw [← fromPattern_triple, ← fromPattern_triple, h]
  · intro h
    refine triple_form_eq huv fun t => ?_
    rw [fromPattern_triple, fromPattern_triple, h]
  · intro h t
    rw [← fromPattern_quad, ← fromPattern_quad, h]
  · intro h
    refine quad_form_eq huv fun t => ?_
    rw [fromPattern_quad, fromPattern_quad, h]

/-- C69: two patterns have the same canonical form exactly if they are equal up to the names
of their variables. -/
theorem C69_same_up_to_names [DecidableEq X] :
    (∀ a b : TriplePattern T X, CanonicalTriplePattern.fromPattern a = .fromPattern b ↔
      ∃ ρ τ : X → X, renameTriple ρ a = b ∧ renameTriple τ b = a) ∧
    (∀ a b : QuadPattern T X, CanonicalQuadPattern.fromPattern a = .fromPattern b ↔
      ∃ ρ τ : X → X, renameQuad ρ a = b ∧ renameQuad τ b = a) := by
  have hq : ∀ a b : QuadPattern T X, CanonicalQuadPattern.fromPattern a = .fromPattern b ↔
      ∃ ρ τ : X → X, renameQuad ρ a = b ∧ renameQuad τ b = a := by
    intro a b
    constructor
    · intro h
      by_cases hx : Nonempty X
      · obtain ⟨x⟩ := hx
        obtain ⟨ρ, hρ⟩ := rename_of_forms x h
        obtain ⟨τ, hτ⟩ := rename_of_forms x h.symm
        exact ⟨ρ, τ, hρ, hτ⟩
      · have n : ∀ (ρ : X → X) (c : ResourceOrVar T X), renameVar ρ c = c := by
          rintro ρ (c | x)
          · rfl
          · exact absurd ⟨x⟩ hx
        have id_ : ∀ (ρ : X → X) (c : QuadPattern T X), renameQuad ρ c = c := by
          rintro ρ ⟨s, p, o, _ | g⟩ <;> simp [renameQuad, n]
        have w : writeQuad (.fromPattern a) = writeQuad (.fromPattern b) := by rw [h]
        rw [← rename_position, ← rename_position] at w
        have inj : ∀ {c d : ResourceOrVar T X} {f g : X → Nat},
            renameVar f c = renameVar g d → c = d := by
          rintro (c | x) (d | y) f g hc
          · simpa [renameVar] using hc
          · exact absurd ⟨y⟩ hx
          · exact absurd ⟨x⟩ hx
          · exact absurd ⟨x⟩ hx
        obtain ⟨s, p, o, g⟩ := a
        obtain ⟨s', p', o', g'⟩ := b
        simp only [renameQuad, Quad.mk.injEq] at w
        obtain ⟨w1, w2, w3, w4⟩ := w
        have hg : g = g' := by
          cases g <;> cases g' <;> simp_all only [Option.map_some, Option.map_none, reduceCtorEq,
            Option.some.injEq]
          exact inj w4
        have hab : (⟨s, p, o, g⟩ : QuadPattern T X) = ⟨s', p', o', g'⟩ := by
          rw [inj w1, inj w2, inj w3, hg]
        exact ⟨id, id, by rw [id_, hab], by rw [id_, hab]⟩
    · rintro ⟨ρ, τ, rfl, h⟩
      exact (forms_of_rename h).symm
  refine ⟨fun a b => ?_, hq⟩
  rw [forms_default, hq]
  have k : ∀ (ρ : X → X) (c d : TriplePattern T X),
      renameQuad ρ (⟨c.s, c.p, c.o, none⟩ : QuadPattern T X) = ⟨d.s, d.p, d.o, none⟩ ↔
        renameTriple ρ c = d := by
    rintro ρ ⟨s, p, o⟩ ⟨s', p', o'⟩
    simp [renameQuad, renameTriple]
  simp only [k]

/-- C69: every canonical pattern is the canonical form of some pattern. -/
theorem C69_all_forms :
    (∀ x : CanonicalTriplePattern T, ∃ pat : TriplePattern T Nat, .fromPattern pat = x) ∧
    (∀ x : CanonicalQuadPattern T, ∃ pat : QuadPattern T Nat, .fromPattern pat = x) :=
  ⟨fun x => ⟨_, fromPattern_writeTriple x⟩, fun x => ⟨_, fromPattern_writeQuad x⟩⟩

/-- With one term only, different canonical patterns match the same triples. -/
example : (∀ t : Triple Unit, matchesTriple (.fromTriple ⟨(), (), ()⟩) t ↔
      matchesTriple (.fromOptionTriple ⟨none, none, none⟩) t) ∧
    (CanonicalTriplePattern.fromTriple ⟨(), (), ()⟩ : CanonicalTriplePattern Unit) ≠
      .fromOptionTriple ⟨none, none, none⟩ := by
  refine ⟨fun t => ?_, by intro h; cases h⟩
  simp [CanonicalTriplePattern.fromTriple, CanonicalTriplePattern.fromOptionTriple,
    TPat.AnySubject.fromOptionTriple, TPat.AnySubjectAnyPredicate.fromOption, matchesTriple]

/-- `?0 ?1 ?0` and `?4 ?2 ?4` are equal up to names, `?0 ?1 ?0` and `?0 ?1 ?2` are not. -/
example : (∃ ρ τ : Nat → Nat, renameTriple ρ (⟨.var 0, .var 1, .var 0⟩ : TriplePattern Nat Nat) =
      ⟨.var 4, .var 2, .var 4⟩ ∧
      renameTriple τ (⟨.var 4, .var 2, .var 4⟩ : TriplePattern Nat Nat) = ⟨.var 0, .var 1, .var 0⟩) ∧
    ¬ ∃ ρ τ : Nat → Nat, renameTriple ρ (⟨.var 0, .var 1, .var 0⟩ : TriplePattern Nat Nat) =
      ⟨.var 0, .var 1, .var 2⟩ ∧
      renameTriple τ (⟨.var 0, .var 1, .var 2⟩ : TriplePattern Nat Nat) = ⟨.var 0, .var 1, .var 0⟩ := by
  rw [← C69_same_up_to_names.1, ← C69_same_up_to_names.1]
  exact ⟨rfl, fun h => by cases h⟩

/-- A pattern that only says that subject and object are the same is told from the free one by
their statements. -/
example : ¬ ∀ t : Triple Nat,
    matchesTriple (.anySubject (.anyPredicate .sameAsSubject)) t ↔
      matchesTriple (.anySubject (.anyPredicate .anyObject)) t := fun h =>
  absurd ((C69_same_statements (X := Nat) (u := 0) (v := 1) (by decide)).1 _ _ h) (by simp)

end RdfTypes.Property
