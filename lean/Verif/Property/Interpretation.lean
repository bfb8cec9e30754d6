import Verif.Proof.Generative
import Verif.Property.BlankId
import Verif.Property.Display

/-!
# Properties C54 and C55

What the interpretations of the crate say of terms, and which resources they create.
-/

set_option linter.unusedSectionVars false
set_option linter.unusedSimpArgs false

namespace RdfTypes.Property

open Spec RdfTerm

variable {σ γ R I L : Type}

/-! ## C54 -/

/-- The term seen as a resource of the lexical interpretations. -/
def asResource : RdfTerm I L → LexTerm I L
  | .blank b => .anonymous ⟨b⟩
  | .iri i => .named (.iri i)
  | .typed v i => .named (.literal ⟨v, .any i⟩)
  | .tagged v l => .named (.literal ⟨v, .langString l⟩)

/-- C54 for `()`. A term is interpreted as one resource, the one inserted for it in
whatever form; listing the terms of the resource gives back that term only; and the
resources are those so obtained and the anonymous ones. -/
theorem C54_unit (I L : Type) :
    (∀ t : TermRef I L, ∃ r, (unitInterpretation I L).term () t = some r ∧
      ofLocal r = ofTermRef t ∧
      (∀ c, ofCowTerm c = ofTermRef t → (unitInterpretation I L).insertTerm () c = .ok (r, ())) ∧
      ∃ c, Items TermsOf.next ((unitLookup I L).termsOf () r) [c] ∧ ofCowTerm c = ofTermRef t) ∧
    (∀ r, (unitLookup I L).isAnonymous () r = false →
      ∃ t, (unitInterpretation I L).term () t = some r) := by
  constructor
  · intro t
    rcases t with i | ⟨v, i | l⟩
    · refine ⟨.named (.iri i), rfl, rfl, ?_, _, .more rfl (.done rfl), rfl⟩
      rintro (c | ⟨v, c | c⟩) h
      · cases c <;> cases h <;> rfl
      · cases h
      · cases h
    · refine ⟨.named (.literal ⟨v, .any i⟩), rfl, rfl, ?_, _, .more rfl (.done rfl), rfl⟩
      rintro (c | ⟨v, c | c⟩) h
      · cases h
      · cases v <;> cases c <;> cases h <;> rfl
      · cases h
    · refine ⟨.named (.literal ⟨v, .langString l⟩), rfl, rfl, ?_, _, .more rfl (.done rfl), rfl⟩
      rintro (c | ⟨v, c | c⟩) h
      · cases h
      · cases h
      · cases v <;> cases c <;> cases h <;> rfl
  · intro r h
    rcases r with b | i | ⟨v, i | l⟩
    · cases h
    · exact ⟨.iri i, rfl⟩
    · exact ⟨.literal ⟨v, .any i⟩, rfl⟩
    · exact ⟨.literal ⟨v, .langString l⟩, rfl⟩

/-- A literal through the unit interpretation. -/
example : (unitInterpretation Text Text).term () (.literal ⟨['v'], .langString ['e', 'n']⟩) =
    some (.named (.literal ⟨['v'], .langString ['e', 'n']⟩)) := rfl

/-- The same, with blank nodes, for `LocalGeneratorInterpretation`; every resource is the
interpretation of a term. -/
theorem C54_local (γ I L : Type) (s : LocalGeneratorInterpretation γ) :
    (∀ t : LocalTermRef I L, ∃ r,
      (LocalGeneratorInterpretation.localInterpretation γ I L).localTerm s t = some r ∧
      ofLocal r = ofLocalRef t ∧
      ∃ c, Items LocalTermsOf.next ((LocalGeneratorInterpretation.lookup γ I L).localTermsOf s r)
        [c] ∧ ofCowLocal c = ofLocalRef t) ∧
    (∀ r, ∃ t, (LocalGeneratorInterpretation.localInterpretation γ I L).localTerm s t = some r) ∧
    (∀ i : IdRef I, ∃ r, (LocalGeneratorInterpretation.localInterpretation γ I L).id s i = some r ∧
      ofLocal r = ofIdRef i) ∧
    (∀ (t : TermRef I L) c, ofCowTerm c = ofTermRef t →
      ∃ r, (LocalGeneratorInterpretation.localInterpretation γ I L).term s t = some r ∧
        (LocalGeneratorInterpretation.interpretationMut γ I L).term s t = some r ∧
        (LocalGeneratorInterpretation.interpretationMut γ I L).insertTerm s c = .ok (r, s)) := by
  refine ⟨?_, ?_, ?_, ?_⟩
  · rintro (b | i | ⟨v, i | l⟩)
    · exact ⟨.anonymous b.toOwned, rfl, rfl, _, .more rfl (.done rfl), rfl⟩
    · exact ⟨.named (.iri i), rfl, rfl, _, .more rfl (.done rfl), rfl⟩
    · exact ⟨.named (.literal ⟨v, .any i⟩), rfl, rfl, _, .more rfl (.done rfl), rfl⟩
    · exact ⟨.named (.literal ⟨v, .langString l⟩), rfl, rfl, _, .more rfl (.done rfl), rfl⟩
  · rintro (b | i | ⟨v, i | l⟩)
    · exact ⟨.anonymous ⟨b.str⟩, rfl⟩
    · exact ⟨.named (.iri i), rfl⟩
    · exact ⟨.named (.literal ⟨v, .any i⟩), rfl⟩
    · exact ⟨.named (.literal ⟨v, .langString l⟩), rfl⟩
  · rintro (b | i)
    · exact ⟨_, rfl, rfl⟩
    · exact ⟨_, rfl, rfl⟩
  · rintro (i | ⟨v, i | l⟩) (c | ⟨v, c | c⟩) h
    · cases c <;> cases h <;> exact ⟨_, rfl, rfl, rfl⟩
    · cases h
    · cases h
    · cases h
    · cases v <;> cases c <;> cases h <;> exact ⟨_, rfl, rfl, rfl⟩
    · cases h
    · cases h
    · cases h
    · cases v <;> cases c <;> cases h <;> exact ⟨_, rfl, rfl, rfl⟩

example : ∃ r, (LocalGeneratorInterpretation.localInterpretation Unit Text Text).localTerm ⟨()⟩
      (.anonymous ⟨"_:a".toList⟩) = some r ∧ ofLocal r = .blank "_:a".toList := by
  obtain ⟨r, h1, h2, -⟩ := (C54_local Unit Text Text ⟨()⟩).1 (.anonymous ⟨"_:a".toList⟩)
  exact ⟨r, h1, h2⟩

/-- Of the IRIs, literals and blank node identifiers of a resource only one list has an
item, and it has only one; the two implementations agree; the resources without IRI and
literal are the blank nodes. -/
theorem C54_kinds (γ I L : Type) (s : LocalGeneratorInterpretation γ) (r : LexTerm I L) :
    let m := LocalGeneratorInterpretation.lookup γ I L
    (m.irisOf s r).length + (m.literalsOf s r).length + (m.blankIdsOf s r).length = 1 ∧
    (∀ i, i ∈ (m.irisOf s r).map content ↔ ofLocal r = .iri i) ∧
    (∀ t, t ∈ (m.literalsOf s r).map ofCowLiteral ↔
      ofLocal r = t ∧ (∀ i, t ≠ .iri i) ∧ ∀ b, t ≠ .blank b) ∧
    (∀ b, b ∈ (m.blankIdsOf s r).map cowLabel ↔ ofLocal r = .blank b) ∧
    ((unitLookup I L).irisOf () r).map content = (m.irisOf s r).map content ∧
    ((unitLookup I L).literalsOf () r).map ofCowLiteral = (m.literalsOf s r).map ofCowLiteral ∧
    m.isAnonymous s r = (unitLookup I L).isAnonymous () r ∧
    (m.isAnonymous s r = true ↔ ∃ b, ofLocal r = .blank b) := by
  rcases r with b | i | ⟨v, i | l⟩ <;>
    simp [LocalGeneratorInterpretation.lookup, unitLookup, LocalTerm.asIri, LocalTerm.asLiteral,
      LocalTerm.asAnonymous, Term.asIri, Term.asLiteral, ofLocal, ofTerm, ofLiteral, content,
      ofCowLiteral, cowLabel, Literal.asRef, LiteralType.asRef, LiteralRef.intoCow,
      CowLiteralType.ofRef, Literal.asCow, LiteralType.asCow, BlankIdBuf.asBlankIdRef,
      ReverseLookup.isAnonymous, ReverseLookup.termsOf, TermsOf.next, nextOf, eq_comm]
  all_goals
    intro t
    constructor
    · rintro rfl; simp
    · rintro ⟨h, -⟩; exact h

example (i : Nat) : i ∈ ((LocalGeneratorInterpretation.lookup Unit Nat Nat).irisOf ⟨()⟩
      (.named (.iri 5))).map content ↔ (.iri 5 : RdfTerm Nat Nat) = .iri i :=
  (C54_kinds Unit Nat Nat ⟨()⟩ (.named (.iri 5))).2.1 i

/-- The terms of a resource in any reverse interpretation: its IRIs, then its literals,
then its blank node identifiers; anonymous resources are those without IRI and literal.
The two models of reverse interpretations agree. -/
theorem C54_listing (m : ReverseLocalLookup σ R I L) (s : σ) (r : R) :
    (∃ l, Items TermsOf.next (m.termsOf s r) l ∧
      l = (m.irisOf s r).map .iri ++ (m.literalsOf s r).map .literal ∧
      l.map CowTerm.intoOwned = (m.contents s).termsOf r) ∧
    Items LocalTermsOf.next (m.localTermsOf s r)
      ((m.irisOf s r).map (fun i => .named (.iri i)) ++
        (m.literalsOf s r).map (fun l => .named (.literal l)) ++
        (m.blankIdsOf s r).map .anonymous) ∧
    (m.isAnonymous s r = true ↔ m.irisOf s r = [] ∧ m.literalsOf s r = []) ∧
    m.isAnonymous s r = (m.contents s).isAnonymous r := by
  refine ⟨⟨_, items_terms _ _, rfl, ?_⟩, items_local _ _ _, ?_, ?_⟩
  · simp [ReverseInterpretation.termsOf, ReverseLookup.contents]
    rfl
  · simp only [ReverseLookup.isAnonymous, ReverseLookup.termsOf, TermsOf.next]
    cases m.irisOf s r <;> cases m.literalsOf s r <;> simp [nextOf]
  · simp only [ReverseLookup.isAnonymous, ReverseLookup.termsOf, TermsOf.next,
      ReverseInterpretation.isAnonymous, ReverseInterpretation.termsOf, ReverseLookup.contents]
    cases m.irisOf s r <;> cases m.literalsOf s r <;> simp [nextOf]

/-- A resource with an IRI, a literal and a blank node identifier. -/
example : Items LocalTermsOf.next (ReverseLocalLookup.localTermsOf
      (⟨⟨fun _ r => [.owned r], fun _ _ => [⟨.owned ['a'], .any (.owned 7)⟩]⟩,
        fun _ _ => [.owned ⟨"_:a".toList⟩]⟩ : ReverseLocalLookup Unit Nat Nat Nat) () 5)
    [.named (.iri (.owned 5)), .named (.literal ⟨.owned ['a'], .any (.owned 7)⟩),
      .anonymous (.owned ⟨"_:a".toList⟩)] :=
  (C54_listing (⟨⟨fun _ r => [.owned r], fun _ _ => [⟨.owned ['a'], .any (.owned 7)⟩]⟩,
    fun _ _ => [.owned ⟨"_:a".toList⟩]⟩ : ReverseLocalLookup Unit Nat Nat Nat) () 5).2.1

/-- The unit interpretation is the one used for isomorphism. -/
theorem C54_lexical (I L : Type) : (unitLookup I L).contents () = lexical BlankIdBuf I L := by
  unfold ReverseLookup.contents lexical unitLookup
  congr 1
  · funext r
    rcases r with b | i | ⟨v, i | l⟩ <;> rfl
  · funext r
    rcases r with b | i | ⟨v, i | l⟩ <;> rfl

example : ((unitLookup Nat Nat).contents ()).termsOf (.named (.iri 5)) =
    (lexical BlankIdBuf Nat Nat).termsOf (.named (.iri 5)) := by
  rw [C54_lexical]

/-! ## C55 -/

/-- A `WithGenerator` answers as the underlying interpretation, in which each
`new_resource` is the insertion of the next generated term; and it panics if that does. -/
theorem C55_as_underlying (m : Basics σ R I L) (next : Generator γ (Term I L))
    (l : List (Option (Access R I L))) (s : σ) (g : γ) (out : List (Answer R I L)) (s' : σ)
    (g' : γ) :
    calls (Basics.call ⟨WithGenerator.interpretationMut m.insert, WithGenerator.lookup m.list⟩)
        (WithGenerator.newResource m.insert next) l (.new s g) = .ok (out, ⟨s', g'⟩) ↔
      ∃ as, scripted next (fun t => .insertTerm t.intoCow) l g = .ok (as, g') ∧
        accesses m.call as s = .ok (out, s') := by
  refine calls_simulate (withGenerator_call m) ?_ l s g out s' g'
  intro s g
  simp only [WithGenerator.newResource, Basics.call]
  cases next g with
  | error e => rfl
  | ok p =>
    simp only [bind, Except.bind]
    cases m.insert.insertTerm s p.1.intoCow <;> rfl

/-- `into_parts` gives back the underlying interpretation as these calls leave it, and the
generator as it is after the terms it was asked for. -/
theorem C55_into_parts (m : Basics σ R I L) (next : Generator γ (Term I L))
    (l : List (Option (Access R I L))) (s : σ) (g : γ) (out : List (Answer R I L))
    (w : WithGenerator γ σ)
    (h : calls (Basics.call ⟨WithGenerator.interpretationMut m.insert, WithGenerator.lookup m.list⟩)
        (WithGenerator.newResource m.insert next) l (.new s g) = .ok (out, w)) :
    ∃ as, scripted next (fun t => .insertTerm t.intoCow) l g = .ok (as, w.intoParts.2) ∧
      accesses m.call as s = .ok (out, w.intoParts.1) :=
  (C55_as_underlying m next l s g out w.interpretation w.generator).1 h

/-- The same for `WithLocalGenerator`. -/
theorem C55_as_underlying_local (m : Everything σ R I L) (next : Generator γ (LexTerm I L))
    (l : List (Option (Access R I L))) (s : σ) (g : γ) (out : List (Answer R I L)) (s' : σ)
    (g' : γ) :
    calls (Everything.call ⟨WithLocalGenerator.localInterpretation m.look,
          WithLocalGenerator.localInterpretationMut m.insert, WithLocalGenerator.lookup m.list⟩)
        (WithLocalGenerator.newResource m.insert next) l (.new s g) = .ok (out, ⟨s', g'⟩) ↔
      ∃ as, scripted next (fun t => .insertLocalTerm t.intoCow) l g = .ok (as, g') ∧
        accesses m.call as s = .ok (out, s') := by
  refine calls_simulate (withLocalGenerator_call m) ?_ l s g out s' g'
  intro s g
  simp only [WithLocalGenerator.newResource, Everything.call]
  cases next g with
  | error e => rfl
  | ok p =>
    simp only [bind, Except.bind]
    cases m.insert.insertLocalTerm s p.1.intoCow <;> rfl

/-- Distinct terms with distinct resources. -/
private theorem nodup_created {T : Type} {den : RdfTerm I L → Option R} {of : T → RdfTerm I L}
    (hd : ∀ t u r, den t = some r → den u = some r → t = u) {ts : List T} {rs : List R}
    (h : rs.map some = ts.map fun t => den (of t)) (hn : (ts.map of).Nodup) : rs.Nodup := by
  induction ts generalizing rs with
  | nil =>
    simp only [List.map_nil, List.map_eq_nil_iff] at h
    subst h
    exact List.nodup_nil
  | cons t ts ih =>
    cases rs with
    | nil => cases h
    | cons r rs =>
      simp only [List.map_cons, List.cons.injEq] at h
      rw [List.map_cons, List.nodup_cons] at hn
      rw [List.nodup_cons]
      refine ⟨?_, ih h.2 hn.2⟩
      intro hr
      have : some r ∈ rs.map some := List.mem_map_of_mem hr
      rw [h.2] at this
      obtain ⟨u, hu, e⟩ := List.mem_map.1 this
      apply hn.1
      rw [hd _ _ r h.1.symm e]
      exact List.mem_map_of_mem hu

/-- C55 for `WithGenerator` on an interpretation that follows a denotation. In any sequence
of calls, the resources created are those denoted by the generated terms, in order, no
other answer is changed by it, and if these terms and their resources are distinct, so are
the resources created. -/
theorem C55_created (m : Basics σ R I L) (den : Denotation σ R I L) (h : Follows m.insert den)
    (next : Generator γ (Term I L)) (l : List (Option (Access R I L))) (s : σ) (g g' : γ)
    (ts : List (Term I L)) (ht : times next (l.countP Option.isNone) g = .ok (ts, g')) :
    ∃ out s', calls
        (Basics.call ⟨WithGenerator.interpretationMut m.insert, WithGenerator.lookup m.list⟩)
        (WithGenerator.newResource m.insert next) l (.new s g) = .ok (out, ⟨s', g'⟩) ∧
      (created l out).map some = ts.map (fun t => den s' (ofTerm t)) ∧
      (∀ u r, den s u = some r → den s' u = some r) ∧
      (NoSynonyms den → ts.Nodup → (created l out).Nodup) := by
  have hc : ∀ (s : WithGenerator γ σ) (a : Access R I L), ∃ x s', Basics.call
        ⟨WithGenerator.interpretationMut m.insert, WithGenerator.lookup m.list⟩ s a = .ok (x, s') ∧
      s'.generator = s.generator ∧
      ∀ u r, den s.interpretation u = some r → den s'.interpretation u = some r := by
    rintro ⟨s, g⟩ a
    obtain ⟨x, s', e, hm⟩ := basics_call h s a
    exact ⟨x, ⟨s', g⟩, by rw [withGenerator_call, e]; rfl, rfl, hm⟩
  have hn : ∀ (s : WithGenerator γ σ) t g, next s.generator = .ok (t, g) →
      ∃ r s', WithGenerator.newResource m.insert next s = .ok (r, s') ∧ s'.generator = g ∧
        Adds (fun s : WithGenerator γ σ => den s.interpretation) s (ofTerm t) r s' := by
    rintro ⟨s, g⟩ t g1 hg
    obtain ⟨r, s', e, ha⟩ := follows_insertTerm h s t.intoCow
    rw [ofCowTerm_intoCow] at ha
    refine ⟨r, ⟨s', g1⟩, ?_, rfl, ha⟩
    simp only at hg
    simp [WithGenerator.newResource, hg, e, bind, Except.bind]
  obtain ⟨out, ⟨s', g2⟩, e1, e2, e3, e4⟩ := calls_created hc hn l (.new s g) ts g' ht
  cases e2
  refine ⟨out, s', e1, e3, e4, fun hs hn => nodup_created (hs s') e3 ?_⟩
  exact List.Pairwise.map _ (fun a b hab e => hab ((ofTerm_inj a b).1 e)) hn

/-- The same for `WithLocalGenerator`. -/
theorem C55_created_local (m : Everything σ R I L) (den : Denotation σ R I L)
    (h : FollowsLocal m.insert den) (next : Generator γ (LexTerm I L))
    (l : List (Option (Access R I L))) (s : σ) (g g' : γ) (ts : List (LexTerm I L))
    (ht : times next (l.countP Option.isNone) g = .ok (ts, g')) :
    ∃ out s', calls
        (Everything.call ⟨WithLocalGenerator.localInterpretation m.look,
          WithLocalGenerator.localInterpretationMut m.insert, WithLocalGenerator.lookup m.list⟩)
        (WithLocalGenerator.newResource m.insert next) l (.new s g) = .ok (out, ⟨s', g'⟩) ∧
      (created l out).map some = ts.map (fun t => den s' (ofLocal t)) ∧
      (∀ u r, den s u = some r → den s' u = some r) ∧
      (NoSynonyms den → ts.Nodup → (created l out).Nodup) := by
  have hc : ∀ (s : WithGenerator γ σ) (a : Access R I L), ∃ x s', Everything.call
        ⟨WithLocalGenerator.localInterpretation m.look,
          WithLocalGenerator.localInterpretationMut m.insert, WithLocalGenerator.lookup m.list⟩
        s a = .ok (x, s') ∧ s'.generator = s.generator ∧
      ∀ u r, den s.interpretation u = some r → den s'.interpretation u = some r := by
    rintro ⟨s, g⟩ a
    obtain ⟨x, s', e, hm⟩ := everything_call h s a
    exact ⟨x, ⟨s', g⟩, by rw [withLocalGenerator_call, e]; rfl, rfl, hm⟩
  have hn : ∀ (s : WithGenerator γ σ) t g, next s.generator = .ok (t, g) →
      ∃ r s', WithLocalGenerator.newResource m.insert next s = .ok (r, s') ∧ s'.generator = g ∧
        Adds (fun s : WithGenerator γ σ => den s.interpretation) s (ofLocal t) r s' := by
    rintro ⟨s, g⟩ t g1 hg
    obtain ⟨r, s', e, ha⟩ := follows_insertLocalTerm h s t.intoCow
    rw [ofCowLocal_intoCow] at ha
    refine ⟨r, ⟨s', g1⟩, ?_, rfl, ha⟩
    simp only at hg
    simp [WithLocalGenerator.newResource, hg, e, bind, Except.bind]
  obtain ⟨out, ⟨s', g2⟩, e1, e2, e3, e4⟩ := calls_created hc hn l (.new s g) ts g' ht
  cases e2
  refine ⟨out, s', e1, e3, e4, fun hs hn => nodup_created (hs s') e3 ?_⟩
  exact List.Pairwise.map _ (fun a b hab e => hab ((ofLocal_inj a b).1 e)) hn

/-- What a blank node generator gives, in the terms of `C45_distinct`. -/
private theorem times_blank (n : Nat) (g : Blank) :
    times (Blank.nextLocalTerm (I := I) (L := L)) n g =
      (g.take n).map fun (ids, g) => (ids.map .anonymous, g) := by
  induction n generalizing g with
  | zero => rfl
  | succ n ih =>
    simp only [times, Blank.nextLocalTerm, Blank.take, bind, Except.bind]
    cases g.nextBlankId with
    | error e => rfl
    | ok p =>
      simp only [ih]
      cases p.2.take n <;> rfl

private theorem anonymous_nodup {ids : List BlankIdBuf} (h : ids.Nodup) :
    (ids.map (.anonymous : BlankIdBuf → LexTerm I L)).Nodup :=
  List.Pairwise.map _ (fun _ _ hab e => hab (by cases e; rfl)) h

/-- A `Blank` generator with any interpretation in which no two terms denote one resource:
in any sequence of calls that does not exhaust the counter, the resources created are
distinct, and denoted by blank nodes with the prefix and consecutive numbers. -/
theorem C55_blank (m : Everything σ R I L) (den : Denotation σ R I L)
    (h : FollowsLocal m.insert den) (hs : NoSynonyms den) (l : List (Option (Access R I L)))
    (s : σ) (pre : Text) (offset : Nat)
    (ho : offset + l.countP Option.isNone ≤ Blank.usizeMax) :
    ∃ out s', calls
        (Everything.call ⟨WithLocalGenerator.localInterpretation m.look,
          WithLocalGenerator.localInterpretationMut m.insert, WithLocalGenerator.lookup m.list⟩)
        (WithLocalGenerator.newResource m.insert Blank.nextLocalTerm) l
        (.new s (Blank.newFull pre offset)) =
          .ok (out, ⟨s', Blank.newFull pre (offset + l.countP Option.isNone)⟩) ∧
      (created l out).length = l.countP Option.isNone ∧ (created l out).Nodup ∧
      ∀ k r, (created l out)[k]? = some r →
        den s' (.blank (['_', ':'] ++ pre ++ decimal (offset + k))) = some r := by
  obtain ⟨ids, g, h1, h2, h3, rfl, h4⟩ := (C45_distinct pre offset (l.countP Option.isNone)).1 ho
  have ht : times (Blank.nextLocalTerm (I := I) (L := L)) (l.countP Option.isNone)
      (Blank.newFull pre offset) = .ok (ids.map .anonymous,
        Blank.newFull pre (offset + l.countP Option.isNone)) := by
    rw [times_blank, h1]
    rfl
  obtain ⟨out, s', e1, e2, -, e4⟩ := C55_created_local m den h _ l s _ _ _ ht
  have hlen : (created l out).length = l.countP Option.isNone := by
    have := congrArg List.length e2
    simpa [h2] using this
  refine ⟨out, s', e1, hlen, e4 hs (anonymous_nodup h3), ?_⟩
  intro k r hr
  have hk : k < l.countP Option.isNone := by
    rw [← hlen]
    exact (List.getElem?_eq_some_iff.1 hr).1
  obtain ⟨b, hb, hbs⟩ := h4 k hk
  have := congrArg (fun x => x[k]?) e2
  simp only [List.getElem?_map, hr, hb, Option.map_some, Option.some.injEq] at this
  rw [← hbs]
  exact this.symm

/-- The unit interpretation and `LocalGeneratorInterpretation` follow a denotation without
synonyms: that of terms by themselves. -/
theorem C55_lexical (γ I L : Type) :
    (∃ den, Follows (unitInterpretation I L) den ∧ NoSynonyms den ∧
      ∀ t, (∀ b, t ≠ .blank b) → den () t = some (asResource t)) ∧
    (∃ den, Follows (LocalGeneratorInterpretation.interpretationMut γ I L) den ∧ NoSynonyms den ∧
      (∀ s b, (LocalGeneratorInterpretation.localInterpretation γ I L).blankId s b =
        den s (.blank b.asStr)) ∧
      ∀ s t, den s t = some (asResource t)) := by
  have inj : ∀ t u : RdfTerm I L, asResource t = asResource u → t = u := by
    intro t u h
    cases t <;> cases u <;> cases h <;> rfl
  constructor
  · refine ⟨fun _ t => match t with | .blank _ => none | t => some (asResource t), ?_, ?_, ?_⟩
    · refine ⟨fun _ _ => rfl, ?_, ?_, ?_⟩
      · rintro _ ⟨v, i | l⟩ <;> rfl
      · rintro s (c | c) <;> exact ⟨_, s, rfl, rfl, fun _ _ h => h⟩
      · rintro s ⟨v, (c | c) | (c | c)⟩ <;> cases v <;> exact ⟨_, s, rfl, rfl, fun _ _ h => h⟩
    · intro s t u r ht hu
      apply inj
      cases t <;> cases u <;> simp_all
    · intro t ht
      cases t with
      | blank b => exact absurd rfl (ht b)
      | _ => rfl
  · refine ⟨fun _ t => some (asResource t), ?_, ?_, fun _ _ => rfl, fun _ _ => rfl⟩
    · refine ⟨fun _ _ => rfl, ?_, ?_, ?_⟩
      · rintro _ ⟨v, i | l⟩ <;> rfl
      · rintro s (c | c) <;> exact ⟨_, s, rfl, rfl, fun _ _ h => h⟩
      · rintro s ⟨v, (c | c) | (c | c)⟩ <;> cases v <;> exact ⟨_, s, rfl, rfl, fun _ _ h => h⟩
    · intro s t u r ht hu
      exact inj t u (by simp_all)

example : ∃ den, Follows (unitInterpretation Nat Nat) den ∧
    den () (.iri 5) = some (.named (.iri 5)) := by
  obtain ⟨⟨den, h1, -, h2⟩, -⟩ := C55_lexical Unit Nat Nat
  exact ⟨den, h1, h2 (.iri 5) nofun⟩

/-- `LocalGeneratorInterpretation` with a `Blank` generator: in any sequence of calls that
does not exhaust the counter, the resources created are distinct blank nodes with the
prefix and consecutive numbers. -/
theorem C55_lexical_blank (l : List (Option (Access (LexTerm I L) I L))) (pre : Text)
    (offset : Nat) (ho : offset + l.countP Option.isNone ≤ Blank.usizeMax) :
    ∃ out, calls
        (Locals.call ⟨LocalGeneratorInterpretation.localInterpretation Blank I L,
          LocalGeneratorInterpretation.interpretationMut Blank I L,
          LocalGeneratorInterpretation.lookup Blank I L⟩)
        (LocalGeneratorInterpretation.newResource Blank.nextLocalTerm) l
        ⟨Blank.newFull pre offset⟩ =
          .ok (out, ⟨Blank.newFull pre (offset + l.countP Option.isNone)⟩) ∧
      (created l out).length = l.countP Option.isNone ∧ (created l out).Nodup ∧
      ∀ k r, (created l out)[k]? = some r →
        ofLocal r = .blank (['_', ':'] ++ pre ++ decimal (offset + k)) := by
  obtain ⟨ids, g, h1, h2, h3, rfl, h4⟩ := (C45_distinct pre offset (l.countP Option.isNone)).1 ho
  have ht : times (Blank.nextLocalTerm (I := I) (L := L)) (l.countP Option.isNone)
      (Blank.newFull pre offset) = .ok (ids.map .anonymous,
        Blank.newFull pre (offset + l.countP Option.isNone)) := by
    rw [times_blank, h1]
    rfl
  have hc : ∀ (s : LocalGeneratorInterpretation Blank) (a : Access (LexTerm I L) I L), ∃ x s',
      Locals.call ⟨LocalGeneratorInterpretation.localInterpretation Blank I L,
        LocalGeneratorInterpretation.interpretationMut Blank I L,
        LocalGeneratorInterpretation.lookup Blank I L⟩ s a = .ok (x, s') ∧
      s'.generator = s.generator ∧
      ∀ u r, (fun _ t => some (asResource t) : Denotation _ _ I L) s u = some r →
        (fun _ t => some (asResource t) : Denotation _ _ I L) s' u = some r := by
    intro s a
    rcases a with _ | _ | _ | _ | _ | _ | _ | _ | (_ | _) | _ | _ | _ | _ | _ | _ | _ <;>
      exact ⟨_, s, rfl, rfl, fun _ _ h => h⟩
  have hn : ∀ (s : LocalGeneratorInterpretation Blank) (t : LexTerm I L) g,
      Blank.nextLocalTerm s.generator = .ok (t, g) →
      ∃ r s', LocalGeneratorInterpretation.newResource Blank.nextLocalTerm s = .ok (r, s') ∧
        s'.generator = g ∧
        Adds (fun _ t => some (asResource t) : Denotation _ _ I L) s (ofLocal t) r s' := by
    intro s t g hg
    refine ⟨t, ⟨g⟩, ?_, rfl, ?_, fun _ _ h => h⟩
    · simp [LocalGeneratorInterpretation.newResource, hg, bind, Except.bind]
    · rcases t with b | i | ⟨v, i | l⟩ <;> rfl
  obtain ⟨out, ⟨s'⟩, e1, e2, e3, -⟩ := calls_created hc hn l ⟨Blank.newFull pre offset⟩ _ _ ht
  cases e2
  have e3 : created l out = ids.map .anonymous := by
    have := congrArg (List.map (Option.getD · (.anonymous ⟨[]⟩))) e3
    simpa [Function.comp_def, asResource, ofLocal] using this
  refine ⟨out, e1, by rw [e3]; simp [h2], by rw [e3]; exact anonymous_nodup h3, ?_⟩
  intro k r hr
  have hk : k < l.countP Option.isNone := by
    have := (List.getElem?_eq_some_iff.1 hr).1
    simpa [e3, h2] using this
  obtain ⟨b, hb, hbs⟩ := h4 k hk
  rw [e3, List.getElem?_map, hb] at hr
  cases hr
  rw [← hbs]
  rfl

example : ∃ out, calls
      (Locals.call ⟨LocalGeneratorInterpretation.localInterpretation Blank Nat Nat,
        LocalGeneratorInterpretation.interpretationMut Blank Nat Nat,
        LocalGeneratorInterpretation.lookup Blank Nat Nat⟩)
      (LocalGeneratorInterpretation.newResource Blank.nextLocalTerm)
      [none, some (.insertIri (.owned 7)), none] ⟨Blank.newFull ['b'] 4⟩ =
        .ok (out, ⟨Blank.newFull ['b'] 6⟩) ∧
    (created [none, some (.insertIri (.owned 7)), none] out).Nodup := by
  obtain ⟨out, e, -, h, -⟩ := C55_lexical_blank (I := Nat) (L := Nat)
    [none, some (.insertIri (.owned 7)), none] ['b'] 4 (by decide)
  exact ⟨out, e, h⟩

/-! ### An example of an interpretation -/

/-- A vocabulary: terms are numbered in the order of their insertion. This one is not
part of the crate. -/
def vocabulary (I L : Type) [DecidableEq I] [DecidableEq L] :
    LocalInterpretationMut (List (RdfTerm I L)) Nat I L :=
  let insert (s : List (RdfTerm I L)) (t : RdfTerm I L) : Res (Nat × List (RdfTerm I L)) :=
    match s.idxOf? t with
    | some n => .ok (n, s)
    | none => .ok (s.length, s ++ [t])
  { iri := fun s i => s.idxOf? (.iri i)
    literal := fun s l => s.idxOf? (ofLiteralRef l)
    insertIri := fun s c => insert s (.iri (content c))
    insertLiteral := fun s c => insert s (ofCowLiteral c)
    insertBlankId := fun s c => insert s (.blank (cowLabel c)) }

/-- It meets the hypotheses of `C55_blank`. -/
theorem vocabulary_follows [DecidableEq I] [DecidableEq L] :
    FollowsLocal (vocabulary I L) (fun s t => s.idxOf? t) ∧
    NoSynonyms (fun (s : List (RdfTerm I L)) t => s.idxOf? t) := by
  have key : ∀ (s : List (RdfTerm I L)) t, ∃ r s', (match s.idxOf? t with
      | some n => (.ok (n, s) : Res (Nat × List (RdfTerm I L)))
      | none => .ok (s.length, s ++ [t])) = .ok (r, s') ∧
      Adds (fun (s : List (RdfTerm I L)) t => s.idxOf? t) s t r s' := by
    intro s t
    cases h : s.idxOf? t with
    | some n => exact ⟨n, s, rfl, h, fun _ _ h => h⟩
    | none =>
      refine ⟨_, _, rfl, ?_, ?_⟩
      · simp only [List.idxOf?] at h ⊢
        rw [List.findIdx?_append, h]
        simp
      · intro u r hu
        simp only [List.idxOf?] at hu ⊢
        rw [List.findIdx?_append, hu]
        rfl
  refine ⟨⟨⟨fun _ _ => rfl, fun _ _ => rfl, fun s c => key s _, fun s c => key s _⟩,
    fun s c => key s _⟩, ?_⟩
  intro s t u r ht hu
  simp only [List.idxOf?] at ht hu
  have h1 := List.findIdx?_eq_some_iff_getElem.1 ht
  have h2 := List.findIdx?_eq_some_iff_getElem.1 hu
  obtain ⟨l1, e1, -⟩ := h1
  obtain ⟨l2, e2, -⟩ := h2
  simp only [beq_iff_eq] at e1 e2
  rw [← e1, ← e2]

/-- The vocabulary with the other traits, and the IRIs 0, 1, … as generated terms. -/
def sampleVocabulary : Everything (List (RdfTerm Nat Nat)) Nat Nat Nat :=
  ⟨{ vocabulary Nat Nat with blankId := fun s b => s.idxOf? (.blank b.asStr) }, vocabulary Nat Nat,
    ⟨⟨fun _ _ => [], fun _ _ => []⟩, fun _ _ => []⟩⟩

def sampleBasics : Basics (List (RdfTerm Nat Nat)) Nat Nat Nat :=
  ⟨(vocabulary Nat Nat).toInterpretationMut, ⟨fun _ _ => [], fun _ _ => []⟩⟩

def sampleIris : Generator Nat (Term Nat Nat) := fun n => .ok (.iri n, n + 1)

/-- The script asked for in the cases below: two resources with an insertion in between. -/
def sampleScript : List (Option (Access Nat Nat Nat)) := [none, some (.insertIri (.owned 7)), none]

example : ∃ as, scripted sampleIris (fun t => .insertTerm t.intoCow) sampleScript 0 = .ok (as, 2) ∧
    accesses sampleBasics.call as [] =
      .ok ([.resource 0, .resource 1, .resource 2], [.iri 0, .iri 7, .iri 1]) :=
  (C55_as_underlying sampleBasics sampleIris sampleScript [] 0 _ _ _).1 rfl

example : ∃ as, scripted sampleIris (fun t => .insertTerm t.intoCow) sampleScript 0 = .ok (as, 2) ∧
    accesses sampleBasics.call as [] =
      .ok ([.resource 0, .resource 1, .resource 2], [.iri 0, .iri 7, .iri 1]) :=
  C55_into_parts sampleBasics sampleIris sampleScript [] 0 _ ⟨[.iri 0, .iri 7, .iri 1], 2⟩ rfl

example : ∃ as, scripted Blank.nextLocalTerm (fun t => .insertLocalTerm t.intoCow)
      sampleScript (Blank.newWithPrefix ['b']) = .ok (as, Blank.newFull ['b'] 2) ∧
    accesses sampleVocabulary.call as [] = .ok ([.resource 0, .resource 1, .resource 2],
      [.blank "_:b0".toList, .iri 7, .blank "_:b1".toList]) :=
  (C55_as_underlying_local sampleVocabulary Blank.nextLocalTerm sampleScript []
    (Blank.newWithPrefix ['b']) _ _ _).1 (by rfl)

example : ∃ out s', calls
      (Basics.call ⟨WithGenerator.interpretationMut sampleBasics.insert,
        WithGenerator.lookup sampleBasics.list⟩)
      (WithGenerator.newResource sampleBasics.insert sampleIris) sampleScript (.new [] 0) =
        .ok (out, ⟨s', 2⟩) ∧ (created sampleScript out).Nodup := by
  obtain ⟨out, s', e, -, -, h⟩ := C55_created sampleBasics (fun s t => s.idxOf? t)
    vocabulary_follows.1.toFollows sampleIris sampleScript [] 0 2 [.iri 0, .iri 1] rfl
  exact ⟨out, s', e, h vocabulary_follows.2 (by decide)⟩

example : ∃ out s', calls
      (Everything.call ⟨WithLocalGenerator.localInterpretation sampleVocabulary.look,
        WithLocalGenerator.localInterpretationMut sampleVocabulary.insert,
        WithLocalGenerator.lookup sampleVocabulary.list⟩)
      (WithLocalGenerator.newResource sampleVocabulary.insert Blank.nextLocalTerm) sampleScript
      (.new [] (Blank.newWithPrefix ['b'])) = .ok (out, ⟨s', Blank.newFull ['b'] 2⟩) ∧
    (created sampleScript out).Nodup := by
  obtain ⟨out, s', e, -, -, h⟩ := C55_created_local sampleVocabulary (fun s t => s.idxOf? t)
    vocabulary_follows.1 Blank.nextLocalTerm sampleScript [] (Blank.newWithPrefix ['b'])
    (Blank.newFull ['b'] 2) [.anonymous ⟨"_:b0".toList⟩, .anonymous ⟨"_:b1".toList⟩] (by decide)
  exact ⟨out, s', e, h vocabulary_follows.2 (by decide)⟩

example : ∃ out s', calls
      (Everything.call ⟨WithLocalGenerator.localInterpretation sampleVocabulary.look,
        WithLocalGenerator.localInterpretationMut sampleVocabulary.insert,
        WithLocalGenerator.lookup sampleVocabulary.list⟩)
      (WithLocalGenerator.newResource sampleVocabulary.insert Blank.nextLocalTerm) sampleScript
      (.new [] (Blank.newFull ['b'] 0)) = .ok (out, ⟨s', Blank.newFull ['b'] 2⟩) ∧
    (created sampleScript out).length = 2 ∧ (created sampleScript out).Nodup ∧
    ∀ k r, (created sampleScript out)[k]? = some r →
      s'.idxOf? (.blank (['_', ':'] ++ ['b'] ++ decimal (0 + k))) = some r :=
  C55_blank sampleVocabulary (fun s t => s.idxOf? t) vocabulary_follows.1 vocabulary_follows.2
    sampleScript [] ['b'] 0 (by decide)

/-- Two resources with an insertion in between. -/
example : (calls (Everything.call ⟨WithLocalGenerator.localInterpretation
        { vocabulary Nat Nat with blankId := fun s b => s.idxOf? (.blank b.asStr) },
        WithLocalGenerator.localInterpretationMut (vocabulary Nat Nat),
        WithLocalGenerator.lookup ⟨⟨fun _ _ => [], fun _ _ => []⟩, fun _ _ => []⟩⟩)
      (WithLocalGenerator.newResource (vocabulary Nat Nat) Blank.nextLocalTerm)
      [none, some (.insertIri (.owned 7)), none, some (.blankId ⟨"_:b0".toList⟩)]
      (.new [] (Blank.newWithPrefix ['b']))).map (fun p => (created
        [none, some (.insertIri (.owned 7)), none, some (.blankId ⟨"_:b0".toList⟩)] p.1,
        p.2.intoParts)) =
    .ok ([0, 2], [.blank "_:b0".toList, .iri 7, .blank "_:b1".toList], Blank.newFull ['b'] 2) := by
  decide

/-- Two resources in the lexical interpretation. -/
example : times (LocalGeneratorInterpretation.newResource
      (Blank.nextLocalTerm (I := Text) (L := Text))) 2 ⟨Blank.newWithPrefix ['b']⟩ =
    .ok ([.anonymous ⟨"_:b0".toList⟩, .anonymous ⟨"_:b1".toList⟩], ⟨Blank.newFull ['b'] 2⟩) := by
  rfl

end RdfTypes.Property
