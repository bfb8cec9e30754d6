import Verif.Proof.Display
import Verif.Property.Sets

/-!
# Properties C46–C50 and C58

What is displayed can be read back by the rules of N-Triples and N-Quads.
-/

set_option linter.unusedSectionVars false

namespace RdfTypes.Property

open Spec Spec.NTriples Spec.RdfTerm

/-- An IRI for the examples. -/
def sampleIri : Text := "https://example.org/#é".toList

/-! ## C46 -/

/-- C46. The display of a string is a quoted literal read back as the string, in front of
any text; no quote inside is left open, and there is no line break. -/
theorem C46_strings (s : Text) :
    (∀ r, readString (Display.str s ++ r) = some (s, r)) ∧
    (∃ body, Display.str s = '"' :: body ++ ['"'] ∧ noOpenQuote body = true) ∧
    (∀ c ∈ Display.str s, c ≠ '\n' ∧ c ≠ '\r') :=
  ⟨readString_str s, ⟨_, rfl, noOpenQuote_flatMap s⟩, str_no_break s⟩

example : Display.str "say \"hi\"\n\\".toList = "\"say \\\"hi\\\"\\n\\\\\"".toList ∧
    readString ("\"say \\\"hi\\\"\\n\\\\\" more".toList) =
      some ("say \"hi\"\n\\".toList, " more".toList) := by decide

/-- Displays of strings followed by any texts determine the strings and the texts. -/
theorem C46_injective (s t r r' : Text) (h : Display.str s ++ r = Display.str t ++ r') :
    s = t ∧ r = r' := by
  have h1 := readString_str s r
  have h2 := readString_str t r'
  rw [h, h2] at h1
  simp only [Option.some.injEq, Prod.mk.injEq] at h1
  exact ⟨h1.1.symm, h1.2.symm⟩

/-- A text and a longer one that starts with its display. -/
example : Display.str "a".toList ++ "b\"".toList ≠ Display.str "a\"b".toList ++ [] := by decide

/-! ## C47 -/

/-- C47. A valid IRI is displayed as it is between angle brackets and read back. -/
theorem C47_iris (s : Text) (h : ValidIri s) :
    Display.iri s = '<' :: s ++ ['>'] ∧ (∀ r, readIri (Display.iri s ++ r) = some (s, r)) ∧
      ∀ t r r', ValidIri t → Display.iri s ++ r = Display.iri t ++ r' → s = t ∧ r = r' := by
  refine ⟨iri_valid s h, fun r => readIri_iri s r h, ?_⟩
  intro t r r' ht e
  have h1 := readIri_iri s r h
  have h2 := readIri_iri t r' ht
  rw [e, h2] at h1
  simp only [Option.some.injEq, Prod.mk.injEq] at h1
  exact ⟨h1.1.symm, h1.2.symm⟩

example : ValidIri sampleIri ∧ Display.iri sampleIri = "<https://example.org/#é>".toList := by
  decide

/-- The escapes written for the other characters are not those of N-Triples: any text
with such a character is displayed as something that is not an `IRIREF`. No such IRI is
accepted by the crate `iref`. -/
theorem C47_escapes (s : Text) (h : ¬ ValidIri s) (r : Text) :
    readIri (Display.iri s ++ r) = none := by
  have key : ∀ s : Text, ¬ ValidIri s →
      readIriBody (s.flatMap Display.iriChar ++ '>' :: r) = none := by
    intro s
    induction s with
    | nil => intro h; exact absurd (by simp [ValidIri]) h
    | cons c s ih =>
      intro h
      rw [List.flatMap_cons]
      by_cases hc : isIriChar c = true
      · rw [iriChar_valid c hc]
        rw [List.singleton_append, List.cons_append, readIriBody_other c _ hc, ih]
        · rfl
        · intro hs
          apply h
          intro x hx
          rcases List.mem_cons.1 hx with rfl | hx
          · exact hc
          · exact hs x hx
      · have he : Display.isEscapedInIri c = true := by simp [isEscapedInIri_eq, hc]
        have hx : Display.iriChar c = '\\' :: 'u' :: Display.hex04 c.toNat := by
          simp [Display.iriChar, he]
        rw [hx]
        simp only [Display.hex04, List.cons_append, List.append_assoc]
        generalize (List.replicate _ _ ++ (_ ++ _) : Text) = l
        match l with
        | [] => rfl
        | [_] => rfl
        | a :: b :: l =>
          have : hexChar ['0', 'x', a, b] = none := rfl
          simp [readIriBody, this]
  show readIriBody (s.flatMap Display.iriChar ++ ['>'] ++ r) = none
  rw [List.append_assoc]
  exact key s h

example (r : Text) : readIri (Display.iri "a b".toList ++ r) = none :=
  C47_escapes _ (by decide) r

/-- Still nothing is lost: whatever the text, a reader of the escapes that are written reads it
back, in front of any text, so that different texts are displayed differently. -/
theorem C47_lossless (s : Text) :
    (∀ r, readOddIri (Display.iri s ++ r) = some (s, r)) ∧
      ∀ t r r', Display.iri s ++ r = Display.iri t ++ r' → s = t ∧ r = r' := by
  have escaped : ∀ n : Fin 128, ∃ a b, Display.hex04 n = ['0', 'x', a, b] ∧
      (hexChar [a, b]).map Char.toNat = some n.val := by
    intro n
    have : ∀ n : Fin 128, (match Display.hex04 n with
        | ['0', 'x', a, b] => (hexChar [a, b]).map Char.toNat
        | _ => none) = some n.val := by decide +kernel
    have := this n
    split at this
    · next a b e => exact ⟨a, b, e, this⟩
    · cases this
  have key : ∀ (s r : Text), readOddIriBody (s.flatMap Display.iriChar ++ '>' :: r) = some (s, r) := by
    intro s r
    induction s with
    | nil => simp [readOddIriBody]
    | cons c s ih =>
      rw [List.flatMap_cons]
      by_cases hc : isIriChar c = true
      · rw [iriChar_valid c hc, List.singleton_append, List.cons_append, readOddIriBody]
        · rw [ih]
          rfl
        · rintro rfl
          exact absurd hc (by decide)
        · rintro rfl
          exact absurd hc (by decide)
      · have he : Display.isEscapedInIri c = true := by simp [isEscapedInIri_eq, hc]
        have hlt : c.toNat < 128 := by
          simp only [Display.isEscapedInIri, Bool.or_eq_true, decide_eq_true_eq, beq_iff_eq] at he
          rcases he with ((((((((he | rfl) | rfl) | rfl) | rfl) | rfl) | rfl) | rfl) | rfl) | rfl
          · omega
          all_goals decide
        obtain ⟨a, b, e1, e2⟩ := escaped ⟨c.toNat, hlt⟩
        rw [Option.map_eq_some_iff] at e2
        obtain ⟨d, e2, e3⟩ := e2
        have : d = c := Char.toNat_inj.1 e3
        subst this
        simp only [] at e1
        simp only [Display.iriChar, he, if_true, e1, List.cons_append, List.nil_append,
          readOddIriBody, e2, ih, push]
  have read : ∀ s r, readOddIri (Display.iri s ++ r) = some (s, r) := by
    intro s r
    show readOddIriBody (s.flatMap Display.iriChar ++ ['>'] ++ r) = _
    rw [List.append_assoc]
    exact key s r
  refine ⟨read s, ?_⟩
  intro t r r' e
  have h1 := read s r
  have h2 := read t r'
  rw [e, h2] at h1
  simp only [Option.some.injEq, Prod.mk.injEq] at h1
  exact ⟨h1.1.symm, h1.2.symm⟩

example : readOddIri (Display.iri "a <b>\t\\u".toList ++ ">".toList) =
    some ("a <b>\t\\u".toList, ">".toList) := by decide

example : Display.iri "a b".toList = "<a\\u0x20b>".toList ∧ ¬ ValidIri "a b".toList := by decide

/-! ## C48 -/

/-- C48. The display of a literal with a valid datatype or language is read back as the
literal, in front of any text that cannot continue it. -/
theorem C48_literals (l : Literal Text Text) (h : Valid (ofLiteral l)) :
    (∀ r, Delimited r → readLiteral (l.rdfFmt ++ r) = some (ofLiteral l, r)) ∧
    (∀ m, Valid (ofLiteral m) → l.rdfFmt = m.rdfFmt → l = m) := by
  refine ⟨fun r hr => readLiteral_rdfFmt l h r hr, ?_⟩
  intro m hm e
  have nil : Delimited [] := by intro c hc; cases hc
  have h1 := readLiteral_rdfFmt l h [] nil
  have h2 := readLiteral_rdfFmt m hm [] nil
  rw [e, h2] at h1
  simp only [Option.some.injEq, Prod.mk.injEq, and_true] at h1
  exact (ofLiteral_inj l m).1 h1.symm

example : readLiteral ((⟨"a\"b".toList, .any "t:x".toList⟩ : Literal Text Text).rdfFmt ++ " .".toList)
    = some (ofLiteral ⟨"a\"b".toList, .any "t:x".toList⟩, " .".toList) :=
  (C48_literals ⟨"a\"b".toList, .any "t:x".toList⟩
    (show ValidIri _ by decide)).1 " .".toList (by rintro c ⟨⟩; decide)

/-- Owned and borrowed literals, and the two display traits, display alike. -/
theorem C48_forms (l : Literal Text Text) (m : LiteralRef Text Text) :
    (ofLiteral l = ofLiteralRef m → l.rdfFmt = m.rdfFmt ∧ l.fmt = m.fmt) ∧
    l.fmt = l.rdfFmt ∧ m.fmt = m.rdfFmt := by
  refine ⟨?_, rfl, rfl⟩
  intro h
  have e := (C52_conv l).trans h
  have : l.asRef = m := by
    obtain ⟨v, t⟩ := l
    obtain ⟨w, u⟩ := m
    cases t <;> cases u <;>
      simp_all [ofLiteral, ofLiteralRef, Literal.asRef, LiteralType.asRef]
  rw [← this]
  exact ⟨(literalRef_rdfFmt l).symm, (literalRef_rdfFmt l).symm⟩
where
  C52_conv (l : Literal Text Text) : ofLiteralRef l.asRef = ofLiteral l := by
    obtain ⟨v, t⟩ := l
    cases t <;> rfl

example : (⟨"chat".toList, .langString "fr-CA".toList⟩ : Literal Text Text).rdfFmt =
      "\"chat\"@fr-CA".toList ∧
    Valid (ofLiteral ⟨"chat".toList, .langString "fr-CA".toList⟩) ∧
    (⟨"1".toList, .any xsdString⟩ : Literal Text Text).rdfFmt = "\"1\"".toList ∧
    (⟨"1".toList, .any sampleIri⟩ : Literal Text Text).rdfFmt =
      "\"1\"^^<https://example.org/#é>".toList := by
  refine ⟨by decide, ?_, by decide, by decide⟩
  show ValidTag _
  decide

/-! ## C49 -/

/-- C49 for the terms that are not blank nodes: each display reads back as the term, and
distinct terms have distinct displays. Missing: blank nodes, for which the claim is
false (`C49_false`). -/
theorem C49_ground_partial (t : LexTerm Text Text) (h : Valid (ofLocal t))
    (hg : Ground (ofLocal t)) :
    (∀ r, Delimited r → readTerm (t.rdfFmt ++ r) = some (ofLocal t, r)) ∧
    (∀ u : LexTerm Text Text, Valid (ofLocal u) → Ground (ofLocal u) →
      t.rdfFmt = u.rdfFmt → t = u) := by
  refine ⟨fun r hr => readTerm_local t h hg r hr, ?_⟩
  intro u hu hgu e
  have nil : Delimited [] := by intro c hc; cases hc
  have h1 := readTerm_local t h hg [] nil
  have h2 := readTerm_local u hu hgu [] nil
  rw [e, h2] at h1
  simp only [Option.some.injEq, Prod.mk.injEq, and_true] at h1
  exact (ofLocal_inj t u).1 h1.symm

example : Valid (ofLocal (.named (.iri sampleIri))) ∧ Ground (ofLocal (.named (.iri sampleIri))) ∧
    (LocalTerm.rdfFmt (.named (.iri sampleIri))) = "<https://example.org/#é>".toList := by
  refine ⟨?_, ?_, by decide⟩
  · show ValidIri _
    decide
  · intro l h
    cases h

/-- Every blank node is displayed as a string literal, and as the string literal of its
label. -/
theorem C49_blank_as_string (b : BlankIdBuf) :
    (∀ r, Delimited r → readTerm (LocalTerm.rdfFmt (.anonymous b) ++ r) =
      some (.typed b.str xsdString, r)) ∧
    LocalTerm.rdfFmt (.anonymous b) =
      LocalTerm.rdfFmt (.named (.literal ⟨b.str, .any xsdString⟩)) := by
  have e : LocalTerm.rdfFmt (.anonymous b) =
      LocalTerm.rdfFmt (.named (.literal ⟨b.str, .any xsdString⟩)) := by
    simp [LocalTerm.rdfFmt, Term.rdfFmt, Literal.rdfFmt, (isXsdString_iff _).2,
      BlankIdBuf.asBlankIdRef]
  refine ⟨?_, e⟩
  intro r hr
  rw [e]
  refine readTerm_local _ ?_ ?_ r hr
  · show ValidIri xsdString
    decide
  · intro l h
    cases h

example : readTerm (LocalTerm.rdfFmt (.anonymous ⟨"_:a".toList⟩) ++ " .".toList) =
    some (.typed "_:a".toList xsdString, " .".toList) :=
  (C49_blank_as_string ⟨"_:a".toList⟩).1 " .".toList (by rintro c ⟨⟩; decide)

/-- C49 is false: a valid blank node and a valid literal are displayed alike. -/
theorem C49_false : ∃ t u : LexTerm Text Text, Valid (ofLocal t) ∧ Valid (ofLocal u) ∧ t ≠ u ∧
    t.rdfFmt = u.rdfFmt := by
  refine ⟨.anonymous ⟨"_:a".toList⟩, .named (.literal ⟨"_:a".toList, .any xsdString⟩), ?_, ?_,
    by decide, by decide⟩
  · refine ⟨'a', [], rfl, .inl ?_, .inl rfl⟩
    exact (inClass_iff _ _).1 (by decide)
  · show ValidIri xsdString
    decide

/-! ## C50 -/

/-- C50. The display of each of the four containers of lexical terms. -/
theorem C50_containers (rep : Bool) :
    Displays (BTreeDataset.container rep (LexTerm Text Text)) (DatasetHistory rep)
      ((BTreeDataset.container rep (LexTerm Text Text)).rdfFmt fmtQuad) fmtQuad ofQuad ∧
    Displays (BTreeGraph.container rep (LexTerm Text Text)) (GraphHistory rep)
      ((BTreeGraph.container rep (LexTerm Text Text)).rdfFmt fmtTriple) fmtTriple ofTriple ∧
    Displays (IndexedBTreeDataset.container rep (LexTerm Text Text)) (IndexedDatasetHistory rep)
      ((IndexedBTreeDataset.container rep (LexTerm Text Text)).rdfFmt fmtQuad) fmtQuad ofQuad ∧
    Displays (IndexedBTreeGraph.container rep (LexTerm Text Text)) (IndexedGraphHistory rep)
      ((IndexedBTreeGraph.container rep (LexTerm Text Text)).rdfFmt fmtTriple) fmtTriple
        ofTriple := by
  obtain ⟨h1, h2, h3, h4⟩ := C06_iteration (R := LexTerm Text Text) rep
  have it : ∀ {S D : Type} [Ord S] {c : Container S D} {Reach : D → (S → Prop) → Prop},
      Iterates c Reach → ∀ d A, Reach d A → ∃ xs, c.iter d = .ok xs ∧ ∀ x, x ∈ xs ↔ A x := by
    intro S D _ c Reach h d A hd
    obtain ⟨xs, hx, hl⟩ := h d A hd
    exact ⟨xs, hx, hl.2⟩
  have qn : ∀ q, ValidStatement (ofQuad q) → ∀ c ∈ fmtQuad q, c ≠ '\n' :=
    fun q h c hc => (quad_no_break q h c hc).1
  have tn : ∀ t, ValidStatement (ofTriple t) → ∀ c ∈ fmtTriple t, c ≠ '\n' :=
    fun t h c hc => (quad_no_break ⟨t.s, t.p, t.o, none⟩ h c hc).1
  have tr : ∀ t, GroundStatement (ofTriple t) → ∀ r,
      readStatement (fmtTriple t ++ ' ' :: '.' :: '\n' :: r) = some (ofTriple t, r) :=
    fun t h r => readStatement_quad ⟨t.s, t.p, t.o, none⟩ h r
  exact ⟨displays _ _ (it h1) _ _ ofQuad_inj qn readStatement_quad,
    displays _ _ (it h2) _ _ ofTriple_inj tn tr,
    displays _ _ (it h3) _ _ ofQuad_inj qn readStatement_quad,
    displays _ _ (it h4) _ _ ofTriple_inj tn tr⟩

/-- A dataset of two ground statements, displayed and read back. -/
example : (do
      let c := BTreeDataset.container true (LexTerm Text Text)
      let i : Text → LexTerm Text Text := fun s => .named (.iri s)
      let d ← c.fromIter [⟨i ['b'], i ['p'], .named (.literal ⟨"x\n".toList, .any xsdString⟩), none⟩,
        ⟨i ['a'], i ['p'], i ['b'], some (i ['g'])⟩]
      c.rdfFmt fmtQuad d) =
    .ok "<a> <p> <b> <g> .\n<b> <p> \"x\\n\" .\n".toList ∧
    (readDocument "<a> <p> <b> <g> .\n<b> <p> \"x\\n\" .\n".toList).map List.length = some 2 := by
  decide

/-! ## C58 -/

/-- C58. The plain display writes IRIs and blank node labels as they are, literals as in
RDF; it distinguishes valid terms whose IRIs start with a letter, as any IRI does. -/
theorem C58_plain_display :
    (∀ i, LocalTerm.fmt (.named (.iri i)) = i) ∧
    (∀ l : Literal Text Text, LocalTerm.fmt (.named (.literal l)) = l.rdfFmt) ∧
    (∀ b : BlankIdBuf, LocalTerm.fmt (.anonymous b) = b.str) ∧
    (∀ b : BlankIdBuf, BlankNodeLabel b.str → ∀ r, AfterLabel r →
      readTerm (LocalTerm.fmt (.anonymous b) ++ r) = some (.blank b.str, r)) ∧
    (∀ t u : LexTerm Text Text, Valid (ofLocal t) → Valid (ofLocal u) →
      (∀ i, (ofLocal t = .iri i ∨ ofLocal u = .iri i) → ∃ c r, i = c :: r ∧ isLetter c = true) →
      t.fmt = u.fmt → t = u) := by
  refine ⟨fun _ => rfl, fun _ => rfl, fun _ => rfl, ?_, ?_⟩
  · intro b hb r hr
    have key := readBlank_label b.str r hb hr
    obtain ⟨c, rest, e, -⟩ := hb
    show readTerm (b.str ++ r) = _
    rw [e] at key ⊢
    show (readBlank _).map _ = _
    rw [key]
    rfl
  · -- the first character tells the kind of the term
    have first : ∀ t : LexTerm Text Text, Valid (ofLocal t) →
        (∀ i, ofLocal t = .iri i → ∃ c r, i = c :: r ∧ isLetter c = true) →
        (t.isAnonymous = true ∧ ∃ r, t.fmt = '_' :: r) ∨
        ((∃ l, t = .named (.literal l)) ∧ ∃ r, t.fmt = '"' :: r) ∨
        ((∃ i, t = .named (.iri i)) ∧ ∃ c r, t.fmt = c :: r ∧ isLetter c = true) := by
      intro t ht hi
      rcases t with b | i | l
      · obtain ⟨c, rest, e, -⟩ := ht
        exact .inl ⟨rfl, _, e⟩
      · exact .inr (.inr ⟨⟨i, rfl⟩, hi i rfl⟩)
      · exact .inr (.inl ⟨⟨l, rfl⟩, _, rfl⟩)
    intro t u ht hu hi e
    have f1 := first t ht (fun i h => hi i (.inl h))
    have f2 := first u hu (fun i h => hi i (.inr h))
    have ne1 : isLetter '_' = false := by decide
    have ne2 : isLetter '"' = false := by decide
    rcases f1 with ⟨k1, r1, e1⟩ | ⟨⟨l1, rfl⟩, r1, e1⟩ | ⟨⟨i1, rfl⟩, c1, r1, e1, hc1⟩ <;>
      rcases f2 with ⟨k2, r2, e2⟩ | ⟨⟨l2, rfl⟩, r2, e2⟩ | ⟨⟨i2, rfl⟩, c2, r2, e2, hc2⟩ <;>
      have e' := e1.symm.trans (e.trans e2)
    · rcases t with ⟨⟨b⟩⟩ | _
      · rcases u with ⟨⟨b'⟩⟩ | _
        · have e : b = b' := e
          rw [e]
        · cases k2
      · cases k1
    · cases e'
    · injection e' with h; rw [← h, ne1] at hc2; cases hc2
    · cases e'
    · have e : l1.rdfFmt = l2.rdfFmt := e
      rw [(C48_literals l1 ht).2 l2 hu e]
    · injection e' with h; rw [← h, ne2] at hc2; cases hc2
    · injection e' with h; rw [h, ne1] at hc1; cases hc1
    · injection e' with h; rw [h, ne2] at hc1; cases hc1
    · have e : i1 = i2 := e
      rw [e]

example : LocalTerm.fmt (.anonymous ⟨"_:a.b".toList⟩ : LexTerm Text Text) = "_:a.b".toList ∧
    readTerm "_:a.b. ".toList = some (.blank "_:a.b".toList, ". ".toList) ∧
    LocalTerm.fmt (.named (.iri sampleIri)) = sampleIri := by decide

end RdfTypes.Property
