import Verif.Spec.Interpretation
import Verif.Proof.TermRef

/-!
# Lemmas on interpretations
-/

set_option linter.unusedSectionVars false
set_option linter.unusedSimpArgs false

namespace RdfTypes

open Spec RdfTerm

variable {σ γ R I L T : Type}

/-! ## Iterators -/

theorem items_literals (ls : List (CowLiteral I L)) :
    Items TermsOf.next (⟨[], ls⟩ : TermsOf I L) (ls.map .literal) := by
  induction ls with
  | nil => exact .done rfl
  | cons l ls ih => exact .more rfl ih

theorem items_terms (is : List (Cow I I)) (ls : List (CowLiteral I L)) :
    Items TermsOf.next ⟨is, ls⟩ (is.map .iri ++ ls.map .literal) := by
  induction is with
  | nil => exact items_literals ls
  | cons i is ih => exact .more rfl ih

theorem items_blanks (bs : List (Cow BlankId BlankIdBuf)) (t : TermsOf I L)
    (h : t.next = (none, t)) :
    Items LocalTermsOf.next ⟨t, bs⟩ (bs.map .anonymous) := by
  induction bs with
  | nil => exact .done (s' := ⟨t, []⟩) (by simp [LocalTermsOf.next, h, nextOf])
  | cons b bs ih => exact .more (by simp only [LocalTermsOf.next, h, nextOf]) ih

theorem items_local (is : List (Cow I I)) (ls : List (CowLiteral I L))
    (bs : List (Cow BlankId BlankIdBuf)) :
    Items LocalTermsOf.next ⟨⟨is, ls⟩, bs⟩
      (is.map (fun i => .named (.iri i)) ++ ls.map (fun l => .named (.literal l)) ++
        bs.map .anonymous) := by
  induction is with
  | nil =>
    induction ls with
    | nil => exact items_blanks bs ⟨[], []⟩ rfl
    | cons l ls ih => exact .more rfl ih
  | cons i is ih => exact .more rfl ih

/-- The items are determined. -/
theorem items_unique {S A : Type} {next : S → Option A × S} {s : S} {l l' : List A}
    (h : Items next s l) (h' : Items next s l') : l = l' := by
  induction h generalizing l' with
  | done e =>
    cases h' with
    | done _ => rfl
    | more e' _ => rw [e] at e'; cases e'
  | more e _ ih =>
    cases h' with
    | done e' => rw [e] at e'; cases e'
    | more e' h' =>
      rw [e] at e'
      cases e'
      rw [ih h']

/-! ## Calls -/

section calls

variable {call : σ → Access R I L → Res (Answer R I L × σ)}
  {callC : WithGenerator γ σ → Access R I L → Res (Answer R I L × WithGenerator γ σ)}
  {newC : WithGenerator γ σ → Res (R × WithGenerator γ σ)}
  {next : Generator γ T} {insert : T → Access R I L}

/-- The calls on the composed interpretation are calls on the underlying one. -/
theorem calls_simulate
    (hcall : ∀ s g a, callC ⟨s, g⟩ a = do
      let (x, s') ← call s a
      .ok (x, ⟨s', g⟩))
    (hnew : ∀ s g, (newC ⟨s, g⟩).map (fun (r, s) => (Answer.resource r, s)) = do
      let (t, g') ← next g
      let (x, s') ← call s (insert t)
      .ok (x, ⟨s', g'⟩))
    (l : List (Option (Access R I L))) (s : σ) (g : γ) (out : List (Answer R I L)) (s' : σ)
    (g' : γ) :
    calls callC newC l ⟨s, g⟩ = .ok (out, ⟨s', g'⟩) ↔
      ∃ as, scripted next insert l g = .ok (as, g') ∧ accesses call as s = .ok (out, s') := by
  induction l generalizing s g out with
  | nil =>
    simp only [calls, scripted, Except.ok.injEq, Prod.mk.injEq, WithGenerator.mk.injEq]
    constructor
    · rintro ⟨rfl, rfl, rfl⟩
      exact ⟨[], ⟨rfl, rfl⟩, rfl⟩
    · rintro ⟨as, ⟨rfl, rfl⟩, h⟩
      simp only [accesses, Except.ok.injEq, Prod.mk.injEq] at h
      exact ⟨h.1, h.2, rfl⟩
  | cons o l ih =>
    cases o with
    | some a =>
      simp only [calls, scripted, hcall]
      cases hc : call s a with
      | error e =>
        simp only [bind, Except.bind, reduceCtorEq, false_iff, not_exists, not_and]
        intro as h1 h2
        cases hs : scripted next insert l g with
        | error e => simp [hs] at h1
        | ok p =>
          simp only [hs, Except.ok.injEq, Prod.mk.injEq] at h1
          obtain ⟨rfl, -⟩ := h1
          simp [accesses, hc, bind, Except.bind] at h2
      | ok p =>
        obtain ⟨x, s1⟩ := p
        simp only [bind, Except.bind]
        constructor
        · intro h
          cases hr : calls callC newC l ⟨s1, g⟩ with
          | error e => simp [hr] at h
          | ok p =>
            obtain ⟨xs, s2, g2⟩ := p
            simp only [hr, Except.ok.injEq, Prod.mk.injEq, WithGenerator.mk.injEq] at h
            obtain ⟨rfl, rfl, rfl⟩ := h
            obtain ⟨as, h1, h2⟩ := (ih s1 g xs).1 hr
            refine ⟨a :: as, by simp [h1], ?_⟩
            simp [accesses, hc, h2, bind, Except.bind]
        · rintro ⟨as, h1, h2⟩
          cases hs : scripted next insert l g with
          | error e => simp [hs] at h1
          | ok p =>
            obtain ⟨as', g2⟩ := p
            simp only [hs, Except.ok.injEq, Prod.mk.injEq] at h1
            obtain ⟨rfl, rfl⟩ := h1
            simp only [accesses, hc, bind, Except.bind] at h2
            cases hr : accesses call as' s1 with
            | error e => simp [hr] at h2
            | ok p =>
              obtain ⟨xs, s2⟩ := p
              simp only [hr, Except.ok.injEq, Prod.mk.injEq] at h2
              obtain ⟨rfl, rfl⟩ := h2
              rw [(ih s1 g xs).2 ⟨as', hs, hr⟩]
    | none =>
      have hn := hnew s g
      simp only [calls, scripted]
      cases hg : next g with
      | error e =>
        simp only [hg, bind, Except.bind] at hn
        cases hw : newC ⟨s, g⟩ with
        | error e => simp [bind, Except.bind]
        | ok p => simp [hw, Except.map] at hn
      | ok p =>
        obtain ⟨t, g1⟩ := p
        simp only [hg, bind, Except.bind] at hn
        cases hc : call s (insert t) with
        | error e =>
          simp only [hc] at hn
          cases hw : newC ⟨s, g⟩ with
          | ok p => simp [hw, Except.map] at hn
          | error e =>
            simp only [bind, Except.bind, reduceCtorEq, false_iff, not_exists, not_and]
            intro as h1 h2
            cases hs : scripted next insert l g1 with
            | error e => simp [hs] at h1
            | ok p =>
              simp only [hs, Except.ok.injEq, Prod.mk.injEq] at h1
              obtain ⟨rfl, -⟩ := h1
              simp [accesses, hc, bind, Except.bind] at h2
        | ok p =>
          obtain ⟨x, s1⟩ := p
          simp only [hc] at hn
          cases hw : newC ⟨s, g⟩ with
          | error e => simp [hw, Except.map] at hn
          | ok p =>
            obtain ⟨r, w⟩ := p
            simp only [hw, Except.map, Except.ok.injEq, Prod.mk.injEq] at hn
            obtain ⟨rfl, rfl⟩ := hn
            simp only [bind, Except.bind]
            constructor
            · intro h
              cases hr : calls callC newC l ⟨s1, g1⟩ with
              | error e => simp [hr] at h
              | ok p =>
                obtain ⟨xs, s2, g2⟩ := p
                simp only [hr, Except.ok.injEq, Prod.mk.injEq, WithGenerator.mk.injEq] at h
                obtain ⟨rfl, rfl, rfl⟩ := h
                obtain ⟨as, h1, h2⟩ := (ih s1 g1 xs).1 hr
                refine ⟨insert t :: as, by simp [h1], ?_⟩
                simp [accesses, hc, h2, bind, Except.bind]
            · rintro ⟨as, h1, h2⟩
              cases hs : scripted next insert l g1 with
              | error e => simp [hs] at h1
              | ok p =>
                obtain ⟨as', g2⟩ := p
                simp only [hs, Except.ok.injEq, Prod.mk.injEq] at h1
                obtain ⟨rfl, rfl⟩ := h1
                simp only [accesses, hc, bind, Except.bind] at h2
                cases hr : accesses call as' s1 with
                | error e => simp [hr] at h2
                | ok p =>
                  obtain ⟨xs, s2⟩ := p
                  simp only [hr, Except.ok.injEq, Prod.mk.injEq] at h2
                  obtain ⟨rfl, rfl⟩ := h2
                  rw [(ih s1 g1 xs).2 ⟨as', hs, hr⟩]

/-- Calls on an interpretation that follows a denotation, with a generator in the state. -/
theorem calls_created {σ' : Type} {call : σ' → Access R I L → Res (Answer R I L × σ')}
    {new : σ' → Res (R × σ')} {den : Denotation σ' R I L} {gen : σ' → γ} {of : T → RdfTerm I L}
    (hcall : ∀ s a, ∃ x s', call s a = .ok (x, s') ∧ gen s' = gen s ∧
      ∀ u r, den s u = some r → den s' u = some r)
    (hnew : ∀ s t g, next (gen s) = .ok (t, g) → ∃ r s', new s = .ok (r, s') ∧ gen s' = g ∧
      Adds den s (of t) r s')
    (l : List (Option (Access R I L))) (s : σ') (ts : List T) (g' : γ)
    (h : times next (l.countP Option.isNone) (gen s) = .ok (ts, g')) :
    ∃ out s', calls call new l s = .ok (out, s') ∧ gen s' = g' ∧
      (created l out).map some = ts.map (fun t => den s' (of t)) ∧
      ∀ u r, den s u = some r → den s' u = some r := by
  induction l generalizing s ts with
  | nil =>
    simp only [List.countP_nil, times, Except.ok.injEq, Prod.mk.injEq] at h
    obtain ⟨rfl, rfl⟩ := h
    exact ⟨[], s, rfl, rfl, rfl, fun _ _ h => h⟩
  | cons o l ih =>
    cases o with
    | some a =>
      obtain ⟨x, s1, h1, h2, h3⟩ := hcall s a
      rw [List.countP_cons_of_neg (by simp)] at h
      rw [← h2] at h
      obtain ⟨out, s', e1, e2, e3, e4⟩ := ih s1 ts h
      refine ⟨x :: out, s', ?_, e2, ?_, fun u r hu => e4 u r (h3 u r hu)⟩
      · simp [calls, h1, e1, bind, Except.bind]
      · simpa [created] using e3
    | none =>
      rw [List.countP_cons_of_pos (by simp)] at h
      simp only [times, bind, Except.bind] at h
      cases hg : next (gen s) with
      | error e => simp [hg] at h
      | ok p =>
        obtain ⟨t, g⟩ := p
        simp only [hg] at h
        cases ht : times next (l.countP Option.isNone) g with
        | error e => simp [ht] at h
        | ok p =>
          obtain ⟨ts', g2⟩ := p
          simp only [ht, Except.ok.injEq, Prod.mk.injEq] at h
          obtain ⟨rfl, rfl⟩ := h
          obtain ⟨r, s1, h1, rfl, h2, h3⟩ := hnew s t g hg
          obtain ⟨out, s', e1, e2, e3, e4⟩ := ih s1 ts' ht
          refine ⟨.resource r :: out, s', ?_, e2, ?_, fun u r hu => e4 u r (h3 u r hu)⟩
          · simp [calls, h1, e1, bind, Except.bind]
          · simp [created, e3, e4 _ _ h2]

end calls

/-! ## Terms and their copies -/

theorem ofCowTerm_intoCow (t : Term I L) : ofCowTerm t.intoCow = ofTerm t := by
  rcases t with i | ⟨v, i | l⟩ <;> rfl

theorem ofCowLocal_intoCow (t : LexTerm I L) : ofCowLocal t.intoCow = ofLocal t := by
  rcases t with b | i | ⟨v, i | l⟩ <;> rfl

theorem follows_insertTerm {m : InterpretationMut σ R I L} {den : Denotation σ R I L}
    (h : Follows m den) (s : σ) (c : CowTerm I L) :
    ∃ r s', m.insertTerm s c = .ok (r, s') ∧ Adds den s (ofCowTerm c) r s' := by
  cases c with
  | iri i => exact h.insertIri s i
  | literal l => exact h.insertLiteral s l

theorem follows_insertLocalTerm {m : LocalInterpretationMut σ R I L} {den : Denotation σ R I L}
    (h : FollowsLocal m den) (s : σ) (c : CowLocalTerm I L) :
    ∃ r s', m.insertLocalTerm s c = .ok (r, s') ∧ Adds den s (ofCowLocal c) r s' := by
  cases c with
  | anonymous b => exact h.insertBlankId s b
  | named t => exact follows_insertTerm h.toFollows s t

/-- One call. -/
theorem basics_call {m : Basics σ R I L} {den : Denotation σ R I L} (h : Follows m.insert den)
    (s : σ) (a : Access R I L) : ∃ x s', m.call s a = .ok (x, s') ∧
      ∀ u r, den s u = some r → den s' u = some r := by
  have ins : ∀ {p : Res (R × σ)} {t}, (∃ r s', p = .ok (r, s') ∧ Adds den s t r s') →
      ∃ x s', (p.map fun (r, s) => ((.resource r : Answer R I L), s)) = .ok (x, s') ∧
        ∀ u r, den s u = some r → den s' u = some r := by
    rintro p t ⟨r, s', rfl, -, h⟩
    exact ⟨_, s', rfl, h⟩
  cases a with
  | insertIri c => exact ins (h.insertIri s c)
  | insertLiteral c => exact ins (h.insertLiteral s c)
  | insertTerm c => exact ins (follows_insertTerm h s c)
  | _ => exact ⟨_, s, rfl, fun _ _ h => h⟩

theorem locals_call {m : Locals σ R I L} {den : Denotation σ R I L} (h : Follows m.insert den)
    (s : σ) (a : Access R I L) : ∃ x s', m.call s a = .ok (x, s') ∧
      ∀ u r, den s u = some r → den s' u = some r := by
  have ins : ∀ {p : Res (R × σ)} {t}, (∃ r s', p = .ok (r, s') ∧ Adds den s t r s') →
      ∃ x s', (p.map fun (r, s) => ((.resource r : Answer R I L), s)) = .ok (x, s') ∧
        ∀ u r, den s u = some r → den s' u = some r := by
    rintro p t ⟨r, s', rfl, -, h⟩
    exact ⟨_, s', rfl, h⟩
  cases a with
  | insertIri c => exact ins (h.insertIri s c)
  | insertLiteral c => exact ins (h.insertLiteral s c)
  | insertTerm c => exact ins (follows_insertTerm h s c)
  | _ => exact ⟨_, s, rfl, fun _ _ h => h⟩

theorem everything_call {m : Everything σ R I L} {den : Denotation σ R I L}
    (h : FollowsLocal m.insert den) (s : σ) (a : Access R I L) :
    ∃ x s', m.call s a = .ok (x, s') ∧ ∀ u r, den s u = some r → den s' u = some r := by
  have ins : ∀ {p : Res (R × σ)} {t}, (∃ r s', p = .ok (r, s') ∧ Adds den s t r s') →
      ∃ x s', (p.map fun (r, s) => ((.resource r : Answer R I L), s)) = .ok (x, s') ∧
        ∀ u r, den s u = some r → den s' u = some r := by
    rintro p t ⟨r, s', rfl, -, h⟩
    exact ⟨_, s', rfl, h⟩
  have key := locals_call (m := ⟨m.look, m.insert.toInterpretationMut, m.list⟩) h.toFollows s a
  cases a with
  | insertBlankId c => exact ins (h.insertBlankId s c)
  | insertLocalTerm c => exact ins (follows_insertLocalTerm h s c)
  | insertId c =>
    cases c with
    | blankId b => exact ins (h.insertBlankId s b)
    | iri i => exact ins (h.insertIri s i)
  | _ => exact key

/-! ## Calls on the composed interpretations -/

theorem withGenerator_call (m : Basics σ R I L) (s : σ) (g : γ) (a : Access R I L) :
    Basics.call ⟨WithGenerator.interpretationMut m.insert, WithGenerator.lookup m.list⟩
      (⟨s, g⟩ : WithGenerator γ σ) a = (do
        let (x, s') ← m.call s a
        .ok (x, ⟨s', g⟩)) := by
  cases a with
  | insertIri c =>
    simp only [Basics.call, WithGenerator.interpretationMut]
    cases m.insert.insertIri s c <;> rfl
  | insertLiteral c =>
    simp only [Basics.call, WithGenerator.interpretationMut]
    cases m.insert.insertLiteral s c <;> rfl
  | insertTerm c =>
    cases c with
    | iri c =>
      simp only [Basics.call, InterpretationMut.insertTerm, WithGenerator.interpretationMut]
      cases m.insert.insertIri s c <;> rfl
    | literal c =>
      simp only [Basics.call, InterpretationMut.insertTerm, WithGenerator.interpretationMut]
      cases m.insert.insertLiteral s c <;> rfl
  | term t => cases t <;> rfl
  | _ => rfl

theorem withLocalGenerator_call (m : Everything σ R I L) (s : σ) (g : γ) (a : Access R I L) :
    Everything.call ⟨WithLocalGenerator.localInterpretation m.look,
      WithLocalGenerator.localInterpretationMut m.insert, WithLocalGenerator.lookup m.list⟩
      (⟨s, g⟩ : WithGenerator γ σ) a = (do
        let (x, s') ← m.call s a
        .ok (x, ⟨s', g⟩)) := by
  cases a with
  | insertIri c =>
    simp only [Everything.call, Locals.call, WithLocalGenerator.localInterpretationMut]
    cases m.insert.insertIri s c <;> rfl
  | insertLiteral c =>
    simp only [Everything.call, Locals.call, WithLocalGenerator.localInterpretationMut]
    cases m.insert.insertLiteral s c <;> rfl
  | insertTerm c =>
    cases c with
    | iri c =>
      simp only [Everything.call, Locals.call, InterpretationMut.insertTerm,
        WithLocalGenerator.localInterpretationMut]
      cases m.insert.insertIri s c <;> rfl
    | literal c =>
      simp only [Everything.call, Locals.call, InterpretationMut.insertTerm,
        WithLocalGenerator.localInterpretationMut]
      cases m.insert.insertLiteral s c <;> rfl
  | insertBlankId c =>
    simp only [Everything.call, WithLocalGenerator.localInterpretationMut]
    cases m.insert.insertBlankId s c <;> rfl
  | insertLocalTerm c =>
    rcases c with c | c | c
    · simp only [Everything.call, LocalInterpretationMut.insertLocalTerm,
        WithLocalGenerator.localInterpretationMut]
      cases m.insert.insertBlankId s c <;> rfl
    · simp only [Everything.call, LocalInterpretationMut.insertLocalTerm,
        InterpretationMut.insertTerm, WithLocalGenerator.localInterpretationMut]
      cases m.insert.insertIri s c <;> rfl
    · simp only [Everything.call, LocalInterpretationMut.insertLocalTerm,
        InterpretationMut.insertTerm, WithLocalGenerator.localInterpretationMut]
      cases m.insert.insertLiteral s c <;> rfl
  | insertId c =>
    cases c with
    | blankId c =>
      simp only [Everything.call, LocalInterpretationMut.insertId,
        WithLocalGenerator.localInterpretationMut]
      cases m.insert.insertBlankId s c <;> rfl
    | iri c =>
      simp only [Everything.call, LocalInterpretationMut.insertId,
        WithLocalGenerator.localInterpretationMut]
      cases m.insert.insertIri s c <;> rfl
  | term t => cases t <;> rfl
  | localTerm t => rcases t with b | t | t <;> rfl
  | id i => cases i <;> rfl
  | _ => rfl

end RdfTypes
