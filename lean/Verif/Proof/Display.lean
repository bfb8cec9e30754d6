import Verif.Model.Display
import Verif.Spec.NTriples
import Verif.Proof.TermRef

/-!
# Display: lemmas
-/

set_option linter.unusedSectionVars false
set_option linter.unusedSimpArgs false

namespace RdfTypes

open Spec Spec.NTriples Spec.RdfTerm

/-! ## Strings -/

theorem readBody_other (c : Char) (r : Text) (h1 : c ≠ '"') (h2 : c ≠ '\n') (h3 : c ≠ '\r')
    (h4 : c ≠ '\\') : readBody (c :: r) = push c (readBody r) := by
  rw [readBody]
  all_goals simp_all

theorem readBody_strChar (c : Char) (r : Text) :
    readBody (Display.strChar c ++ r) = push c (readBody r) := by
  unfold Display.strChar
  split
  · rename_i h
    subst h
    simp [readBody, echar]
  · split
    · rename_i h
      subst h
      simp [readBody, echar]
    · split
      · rename_i h
        subst h
        simp [readBody, echar]
      · split
        · rename_i h
          subst h
          simp [readBody, echar]
        · exact readBody_other _ _ ‹_› ‹_› ‹_› ‹_›

theorem readBody_flatMap (s r : Text) :
    readBody (s.flatMap Display.strChar ++ '"' :: r) = some (s, r) := by
  induction s with
  | nil => simp [readBody]
  | cons c s ih => rw [List.flatMap_cons, List.append_assoc, readBody_strChar, ih]; rfl

theorem readString_str (s r : Text) : readString (Display.str s ++ r) = some (s, r) := by
  show readBody (s.flatMap Display.strChar ++ ['"'] ++ r) = _
  rw [List.append_assoc]
  exact readBody_flatMap s r

theorem noOpenQuote_flatMap (s : Text) : noOpenQuote (s.flatMap Display.strChar) = true := by
  induction s with
  | nil => rfl
  | cons c s ih =>
    rw [List.flatMap_cons]
    generalize s.flatMap Display.strChar = r at ih ⊢
    unfold Display.strChar
    split
    · simpa [noOpenQuote] using ih
    · split
      · simpa [noOpenQuote] using ih
      · split
        · simpa [noOpenQuote] using ih
        · split
          · simpa [noOpenQuote] using ih
          · show noOpenQuote (c :: r) = true
            rw [noOpenQuote]
            · exact ih
            all_goals simp_all

theorem strChar_no_break (c x : Char) (h : x ∈ Display.strChar c) : x ≠ '\n' ∧ x ≠ '\r' := by
  unfold Display.strChar at h
  split at h
  · simp at h; rcases h with rfl | rfl <;> decide
  · split at h
    · simp at h; subst h; decide
    · split at h
      · simp at h; rcases h with rfl | rfl <;> decide
      · split at h
        · simp at h; rcases h with rfl | rfl <;> decide
        · simp at h
          subst h
          exact ⟨‹_›, ‹_›⟩

theorem str_no_break (s : Text) (x : Char) (h : x ∈ Display.str s) : x ≠ '\n' ∧ x ≠ '\r' := by
  simp only [Display.str, List.cons_append, List.mem_cons, List.mem_append, List.mem_flatMap,
    List.not_mem_nil, or_false] at h
  rcases h with rfl | ⟨c, -, h⟩ | rfl
  · decide
  · exact strChar_no_break c x h
  · decide

/-! ## IRIs -/

theorem isEscapedInIri_eq (c : Char) : Display.isEscapedInIri c = !isIriChar c := by
  have : "<>\"{}|^`\\".toList = ['<', '>', '"', '{', '}', '|', '^', '`', '\\'] := by decide
  simp only [Display.isEscapedInIri, isIriChar, this, List.contains_cons, List.contains_nil,
    Bool.or_false, Bool.not_and, Bool.not_not, Bool.or_assoc]
  congr 1
  by_cases h : c.toNat ≤ 32 <;> simp [h]
  omega

theorem iriChar_valid (c : Char) (h : isIriChar c = true) : Display.iriChar c = [c] := by
  simp [Display.iriChar, isEscapedInIri_eq, h]

theorem iri_valid (s : Text) (h : ValidIri s) : Display.iri s = '<' :: s ++ ['>'] := by
  have : s.flatMap Display.iriChar = s := by
    induction s with
    | nil => rfl
    | cons c s ih =>
      rw [List.flatMap_cons, iriChar_valid c (h c (by simp)),
        ih (fun x hx => h x (by simp [hx]))]
      rfl
  rw [Display.iri, this]

theorem readIriBody_other (c : Char) (r : Text) (h : isIriChar c = true) :
    readIriBody (c :: r) = push c (readIriBody r) := by
  rw [readIriBody]
  · simp [h]
  · rintro rfl
    exact absurd h (by decide)
  · rintro rfl
    exact absurd h (by decide)

theorem readIriBody_valid (s r : Text) (h : ValidIri s) :
    readIriBody (s ++ '>' :: r) = some (s, r) := by
  induction s with
  | nil => simp [readIriBody]
  | cons c s ih =>
    rw [List.cons_append, readIriBody_other c _ (h c (by simp)),
      ih (fun x hx => h x (by simp [hx]))]
    rfl

theorem readIri_iri (s r : Text) (h : ValidIri s) :
    readIri (Display.iri s ++ r) = some (s, r) := by
  rw [iri_valid s h]
  show readIriBody (s ++ ['>'] ++ r) = _
  rw [List.append_assoc]
  exact readIriBody_valid s r h

/-! ## Language tags -/

theorem isSubtags_chars (b : Bool) (s : Text) (h : isSubtags b s = true) :
    ∀ c ∈ s, isTagChar c = true := by
  induction s generalizing b with
  | nil => simp
  | cons c s ih =>
    intro x hx
    by_cases hc : c = '-'
    · subst hc
      cases b
      · simp [isSubtags] at h
      · simp only [isSubtags] at h
        rcases List.mem_cons.1 hx with rfl | hx
        · decide
        · exact ih false h x hx
    · rw [isSubtags] at h
      · rw [Bool.and_eq_true] at h
        rcases List.mem_cons.1 hx with rfl | hx
        · simp [isTagChar, h.1]
        · exact ih true h.2 x hx
      all_goals simp_all

theorem isTag_chars (b : Bool) (s : Text) (h : isTag b s = true) :
    ∀ c ∈ s, isTagChar c = true := by
  induction s generalizing b with
  | nil => simp
  | cons c s ih =>
    intro x hx
    by_cases hc : c = '-'
    · subst hc
      cases b
      · simp [isTag] at h
      · simp only [isTag] at h
        rcases List.mem_cons.1 hx with rfl | hx
        · decide
        · exact isSubtags_chars false _ h x hx
    · rw [isTag] at h
      · rw [Bool.and_eq_true] at h
        rcases List.mem_cons.1 hx with rfl | hx
        · simp [isTagChar, isAlphanumeric, h.1]
        · exact ih true h.2 x hx
      all_goals simp_all

theorem takeWhile_append_stop {A : Type} (p : A → Bool) (l r : List A) (hl : ∀ x ∈ l, p x = true)
    (hr : ∀ x, r.head? = some x → p x = false) :
    (l ++ r).takeWhile p = l ∧ (l ++ r).dropWhile p = r := by
  induction l with
  | nil =>
    cases r with
    | nil => simp
    | cons x r => simp [hr x rfl]
  | cons x l ih =>
    have := ih (fun y hy => hl y (by simp [hy]))
    simp [hl x (by simp), this]

theorem readTag_tag (s r : Text) (h : ValidTag s) (hr : Delimited r) :
    readTag (s ++ r) = some (s, r) := by
  have := takeWhile_append_stop isTagChar s r (isTag_chars _ s h) (fun x hx => (hr x hx).1)
  simp only [readTag, this]
  exact if_pos h

/-! ## Literals -/

theorem defaultDatatype_eq : defaultDatatype = xsdString := rfl

theorem isXsdString_iff (t : LiteralType Text Text) :
    t.isXsdString = true ↔ t = .any xsdString := by
  cases t <;> simp [LiteralType.isXsdString, LiteralType.isIri]

theorem readLiteral_rdfFmt (l : Literal Text Text) (h : Valid (ofLiteral l)) (r : Text)
    (hr : Delimited r) : readLiteral (l.rdfFmt ++ r) = some (ofLiteral l, r) := by
  obtain ⟨v, t⟩ := l
  have base : readString (Literal.rdfFmt ⟨v, t⟩ ++ r) =
      some (v, (if t.isXsdString then [] else t.rdfFmt) ++ r) := by
    simp only [Literal.rdfFmt, List.append_assoc]
    exact readString_str _ _
  unfold readLiteral
  rw [base]
  by_cases hx : t.isXsdString = true
  · rw [if_pos hx]
    rw [isXsdString_iff] at hx
    subst hx
    cases r with
    | nil => rfl
    | cons c r =>
      have := hr c rfl
      rw [List.nil_append]
      split
      · rename_i e; cases e
      · rename_i e; simp at e; exact absurd e.2.1 this.2.2
      · rename_i e; simp at e; exact absurd e.2.1 this.2.1
      · rename_i e
        simp at e
        simp [e, ofLiteral, defaultDatatype_eq]
  · rw [if_neg hx]
    cases t with
    | any i =>
      show (readIri (Display.iri i ++ r)).map _ = _
      rw [readIri_iri i r h]
      rfl
    | langString t =>
      show (readTag (t ++ r)).map _ = _
      rw [readTag_tag t r h hr]
      rfl

theorem literalRef_rdfFmt (l : Literal Text Text) : l.asRef.rdfFmt = l.rdfFmt := by
  obtain ⟨v, t⟩ := l
  cases t <;> rfl

/-! ## Terms -/

theorem readTerm_term (t : Term Text Text) (h : Valid (ofTerm t)) (r : Text) (hr : Delimited r) :
    readTerm (t.rdfFmt ++ r) = some (ofTerm t, r) := by
  cases t with
  | iri i =>
    show (readIri (Display.iri i ++ r)).map _ = _
    rw [readIri_iri i r h]
    rfl
  | literal l =>
    show readLiteral (l.rdfFmt ++ r) = _
    rw [readLiteral_rdfFmt l h r hr]
    rfl

theorem term_no_break (t : Term Text Text) (h : Valid (ofTerm t)) :
    ∀ x ∈ t.rdfFmt, x ≠ '\n' ∧ x ≠ '\r' := by
  have iri : ∀ i, ValidIri i → ∀ x ∈ Display.iri i, x ≠ '\n' ∧ x ≠ '\r' := by
    intro i hi x hx
    rw [iri_valid i hi] at hx
    simp only [List.cons_append, List.mem_cons, List.mem_append, List.not_mem_nil, or_false] at hx
    rcases hx with rfl | hx | rfl
    · decide
    · have := hi x hx
      constructor <;> rintro rfl <;> exact absurd this (by decide)
    · decide
  cases t with
  | iri i => exact iri i h
  | literal l =>
    obtain ⟨v, t⟩ := l
    intro x hx
    simp only [Term.rdfFmt, Literal.rdfFmt, List.mem_append] at hx
    rcases hx with hx | hx
    · exact str_no_break v x hx
    · split at hx
      · cases hx
      · cases t with
        | any i =>
          simp only [LiteralType.rdfFmt, List.mem_cons] at hx
          rcases hx with rfl | rfl | hx
          · decide
          · decide
          · exact iri i h x hx
        | langString t =>
          simp only [LiteralType.rdfFmt, List.mem_cons] at hx
          rcases hx with rfl | hx
          · decide
          · have := isTag_chars _ t h x hx
            constructor <;> rintro rfl <;> exact absurd this (by decide)

theorem readTerm_local (t : LexTerm Text Text) (h : Valid (ofLocal t)) (hg : Ground (ofLocal t))
    (r : Text) (hr : Delimited r) : readTerm (t.rdfFmt ++ r) = some (ofLocal t, r) := by
  cases t with
  | anonymous b => exact absurd rfl (hg b.str)
  | named t => exact readTerm_term t h r hr

theorem local_no_break (t : LexTerm Text Text) (h : Valid (ofLocal t)) :
    ∀ x ∈ t.rdfFmt, x ≠ '\n' ∧ x ≠ '\r' := by
  cases t with
  | anonymous b => exact str_no_break _
  | named t => exact term_no_break t h

theorem local_head (t : LexTerm Text Text) : ∃ c r, t.rdfFmt = c :: r ∧ (c = '<' ∨ c = '"') := by
  cases t with
  | anonymous b => exact ⟨_, _, rfl, .inr rfl⟩
  | named t =>
    cases t with
    | iri i => exact ⟨_, _, rfl, .inl rfl⟩
    | literal l => exact ⟨_, _, rfl, .inr rfl⟩

theorem skip_local (t : LexTerm Text Text) (r : Text) :
    skip (t.rdfFmt ++ r) = t.rdfFmt ++ r ∧ skip (' ' :: t.rdfFmt ++ r) = t.rdfFmt ++ r := by
  obtain ⟨c, s, e, h⟩ := local_head t
  rw [e]
  rcases h with rfl | rfl <;> exact ⟨rfl, rfl⟩

theorem delimited_space (r : Text) : Delimited (' ' :: r) := by
  intro c h
  cases h
  decide

/-! ## Statements -/

theorem readStatement_quad (q : Quad (LexTerm Text Text)) (h : GroundStatement (ofQuad q))
    (r : Text) : readStatement (fmtQuad q ++ ' ' :: '.' :: '\n' :: r) = some (ofQuad q, r) := by
  obtain ⟨s, p, o, g⟩ := q
  obtain ⟨⟨h1, k1⟩, ⟨h2, k2⟩, ⟨h3, k3⟩, h4⟩ := h
  cases g with
  | none =>
    have e : fmtQuad ⟨s, p, o, none⟩ ++ ' ' :: '.' :: '\n' :: r =
        s.rdfFmt ++ ' ' :: (p.rdfFmt ++ ' ' :: (o.rdfFmt ++ ' ' :: '.' :: '\n' :: r)) := by
      simp [fmtQuad, Quad.rdfFmt]
    rw [e, readStatement, (skip_local s _).1, readTerm_local s h1 k1 _ (delimited_space _)]
    simp only [bind, Option.bind]
    rw [← List.cons_append, (skip_local p _).2, readTerm_local p h2 k2 _ (delimited_space _)]
    simp only
    rw [← List.cons_append, (skip_local o _).2, readTerm_local o h3 k3 _ (delimited_space _)]
    rfl
  | some g =>
    have h4 := h4 _ rfl
    have e : fmtQuad ⟨s, p, o, some g⟩ ++ ' ' :: '.' :: '\n' :: r =
        s.rdfFmt ++ ' ' :: (p.rdfFmt ++ ' ' :: (o.rdfFmt ++ ' ' :: (g.rdfFmt ++
          ' ' :: '.' :: '\n' :: r))) := by
      simp [fmtQuad, Quad.rdfFmt]
    rw [e, readStatement, (skip_local s _).1, readTerm_local s h1 k1 _ (delimited_space _)]
    simp only [bind, Option.bind]
    rw [← List.cons_append, (skip_local p _).2, readTerm_local p h2 k2 _ (delimited_space _)]
    simp only
    rw [← List.cons_append, (skip_local o _).2, readTerm_local o h3 k3 _ (delimited_space _)]
    simp only
    rw [← List.cons_append, (skip_local g _).2]
    have key := readTerm_local g h4.1 h4.2 (' ' :: '.' :: '\n' :: r) (delimited_space _)
    have hg : readGraph (g.rdfFmt ++ ' ' :: '.' :: '\n' :: r) =
        some (some (ofLocal g), ' ' :: '.' :: '\n' :: r) := by
      obtain ⟨c, s', e', hc⟩ := local_head g
      rw [e'] at key ⊢
      rcases hc with rfl | rfl <;>
      · show (readTerm _).map _ = _
        rw [key]
        rfl
    rw [hg]
    rfl

theorem triple_as_quad (t : Triple (LexTerm Text Text)) :
    fmtTriple t = fmtQuad ⟨t.s, t.p, t.o, none⟩ ∧ ofTriple t = ofQuad ⟨t.s, t.p, t.o, none⟩ :=
  ⟨rfl, rfl⟩

theorem quad_no_break (q : Quad (LexTerm Text Text)) (h : ValidStatement (ofQuad q)) :
    ∀ x ∈ fmtQuad q, x ≠ '\n' ∧ x ≠ '\r' := by
  obtain ⟨s, p, o, g⟩ := q
  obtain ⟨h1, h2, h3, h4⟩ := h
  intro x hx
  cases g with
  | none =>
    simp only [fmtQuad, Quad.rdfFmt, List.cons_append, List.mem_append, List.mem_cons] at hx
    rcases hx with (hx | rfl | hx) | rfl | hx
    · exact local_no_break s h1 x hx
    · decide
    · exact local_no_break p h2 x hx
    · decide
    · exact local_no_break o h3 x hx
  | some g =>
    have h4 := h4 _ rfl
    simp only [fmtQuad, Quad.rdfFmt, List.cons_append, List.mem_append, List.mem_cons] at hx
    rcases hx with ((hx | rfl | hx) | rfl | hx) | rfl | hx
    · exact local_no_break s h1 x hx
    · decide
    · exact local_no_break p h2 x hx
    · decide
    · exact local_no_break o h3 x hx
    · decide
    · exact local_no_break g h4 x hx

/-! ## Documents -/

/-- The lines of the given statements. -/
def document {S : Type} (f : S → Text) (xs : List S) : Text :=
  xs.flatMap fun x => f x ++ [' ', '.', '\n']

theorem readStatements_document {S : Type} (f : S → Text) (a : S → Statement)
    (hf : ∀ x, GroundStatement (a x) → ∀ r,
      readStatement (f x ++ ' ' :: '.' :: '\n' :: r) = some (a x, r))
    (xs : List S) (h : ∀ x ∈ xs, GroundStatement (a x)) (n : Nat)
    (hn : (document f xs).length ≤ n) :
    readStatements n (document f xs) = some (xs.map a) := by
  induction xs generalizing n with
  | nil => cases n <;> rfl
  | cons x xs ih =>
    have e : document f (x :: xs) = f x ++ ' ' :: '.' :: '\n' :: document f xs := by
      simp [document]
    have hx := hf x (h x (by simp)) (document f xs)
    have hi := ih (fun y hy => h y (by simp [hy]))
    rw [e] at hn ⊢
    cases n with
    | zero => simp at hn
    | succ n =>
      have hn' : (document f xs).length ≤ n := by
        simp at hn
        omega
      rw [readStatements]
      · rw [hx]
        simp only [bind, Option.bind, hi n hn']
        rfl
      · simp

theorem readDocument_document {S : Type} (f : S → Text) (a : S → Statement)
    (hf : ∀ x, GroundStatement (a x) → ∀ r,
      readStatement (f x ++ ' ' :: '.' :: '\n' :: r) = some (a x, r))
    (xs : List S) (h : ∀ x ∈ xs, GroundStatement (a x)) :
    readDocument (document f xs) = some (xs.map a) :=
  readStatements_document f a hf xs h _ (Nat.le_refl _)

theorem lines_line (l : Text) (h : ∀ x ∈ l, x ≠ '\n') (acc r : Text) :
    lines.go acc (l ++ '\n' :: r) = (acc.reverse ++ l) :: lines.go [] r := by
  induction l generalizing acc with
  | nil => simp [lines.go]
  | cons c l ih =>
    rw [List.cons_append, lines.go]
    · rw [ih (fun x hx => h x (by simp [hx]))]
      simp
    · intro e
      exact h c (by simp) e

theorem lines_document {S : Type} (f : S → Text) (xs : List S)
    (h : ∀ x ∈ xs, ∀ c ∈ f x, c ≠ '\n') :
    lines (document f xs) = xs.map fun x => f x ++ [' ', '.'] := by
  induction xs with
  | nil => rfl
  | cons x xs ih =>
    have e : document f (x :: xs) = (f x ++ [' ', '.']) ++ '\n' :: document f xs := by
      simp [document]
    rw [lines, e, lines_line _ _ [] _]
    · exact congrArg _ (ih (fun y hy => h y (by simp [hy])))
    · intro c hc
      simp only [List.mem_append, List.mem_cons, List.not_mem_nil, or_false] at hc
      rcases hc with hc | rfl | rfl
      · exact h x (by simp) c hc
      · decide
      · decide

theorem ofQuad_inj (a b : Quad (LexTerm Text Text)) (h : ofQuad a = ofQuad b) : a = b := by
  obtain ⟨s, p, o, g⟩ := a
  obtain ⟨s', p', o', g'⟩ := b
  simp only [ofQuad, Prod.mk.injEq, ofLocal_inj] at h
  obtain ⟨rfl, rfl, rfl, h⟩ := h
  cases g <;> cases g' <;> simp_all [ofLocal_inj]

theorem ofTriple_inj (a b : Triple (LexTerm Text Text)) (h : ofTriple a = ofTriple b) :
    a = b := by
  obtain ⟨s, p, o⟩ := a
  obtain ⟨s', p', o'⟩ := b
  simp only [ofTriple, Prod.mk.injEq, ofLocal_inj] at h
  obtain ⟨rfl, rfl, rfl, -⟩ := h
  rfl

/-- A container listing its statements is displayed as required. -/
theorem displays {S D : Type} [Ord S] (c : Container S D) (Reach : D → (S → Prop) → Prop)
    (hi : ∀ d A, Reach d A → ∃ xs, c.iter d = .ok xs ∧ ∀ x, x ∈ xs ↔ A x)
    (f : S → Text) (a : S → Statement) (ha : ∀ x y, a x = a y → x = y)
    (hn : ∀ x, ValidStatement (a x) → ∀ c ∈ f x, c ≠ '\n')
    (hf : ∀ x, GroundStatement (a x) → ∀ r,
      readStatement (f x ++ ' ' :: '.' :: '\n' :: r) = some (a x, r)) :
    Displays c Reach (c.rdfFmt f) f a := by
  intro d A hd
  obtain ⟨xs, hx, hm⟩ := hi d A hd
  have e : ∀ {d xs}, c.iter d = .ok xs → c.rdfFmt f d = .ok (document f xs) := by
    intro d xs h
    simp only [Container.rdfFmt, h, bind, Except.bind, pure, Except.pure]
    rfl
  refine ⟨xs, document f xs, hx, e hx, hm, rfl, ?_, ?_⟩
  · intro h
    exact lines_document f xs (fun x hx c hc => hn x (h x ((hm x).1 hx)) c hc)
  · intro h
    have r := readDocument_document f a hf xs (fun x hx => h x ((hm x).1 hx))
    refine ⟨r, ?_⟩
    intro d' A' hd' h' ed'
    obtain ⟨ys, hy, hm'⟩ := hi d' A' hd'
    have r' := readDocument_document f a hf ys (fun x hx => h' x ((hm' x).1 hx))
    rw [e hy] at ed'
    injection ed' with ed'
    rw [ed', r] at r'
    injection r' with r'
    have inj : ∀ (l l' : List S), l.map a = l'.map a → l = l' := by
      intro l
      induction l with
      | nil => intro l' h; cases l' <;> simp_all
      | cons x l ih =>
        intro l' h
        cases l' with
        | nil => simp at h
        | cons y l' =>
          simp only [List.map_cons, List.cons.injEq] at h
          rw [ha _ _ h.1, ih _ h.2]
    have := inj _ _ r'
    intro x
    rw [← hm, ← hm', this]

/-! ## Blank node labels -/

theorem inClass_iff (l : List (Nat × Nat)) (c : Char) : inClass l c = true ↔ InClass l c := by
  simp [inClass, InClass]

theorem readBlank_label (s r : Text) (h : BlankNodeLabel s) (hr : AfterLabel r) :
    readBlank (s ++ r) = some (s, r) := by
  obtain ⟨c, rest, rfl, hc, hrest⟩ := h
  have hdot : inClass pnChars '.' = false := by decide
  have sub : ∀ x, (inClass pnCharsU x || inClass digits x) = true → inClass pnChars x = true := by
    intro x hx
    simp only [pnChars, inClass, List.any_append, Bool.or_eq_true] at hx ⊢
    rcases hx with hx | hx <;> simp [hx]
  have first : (inClass pnCharsU c || inClass digits c) = true := by
    rw [Bool.or_eq_true, inClass_iff, inClass_iff]
    exact hc
  have all : ∀ x ∈ c :: rest, isLabelChar x = true := by
    intro x hx
    rcases List.mem_cons.1 hx with rfl | hx
    · simp [isLabelChar, sub _ first]
    · rcases hrest with rfl | ⟨mid, last, rfl, hm, hl⟩
      · cases hx
      · rcases List.mem_append.1 hx with hx | hx
        · rcases hm x hx with h | rfl
          · simp [isLabelChar, (inClass_iff _ _).2 h]
          · decide
        · simp only [List.mem_cons, List.not_mem_nil, or_false] at hx
          subst hx
          simp [isLabelChar, (inClass_iff _ _).2 hl]
  have hlast : ∃ x l, (c :: rest).reverse = x :: l ∧ x ≠ '.' := by
    rcases hrest with rfl | ⟨mid, last, rfl, hm, hl⟩
    · refine ⟨c, [], rfl, ?_⟩
      rintro rfl
      rw [sub _ first] at hdot
      cases hdot
    · refine ⟨last, (c :: mid).reverse, by simp, ?_⟩
      rintro rfl
      rw [(inClass_iff _ _).2 hl] at hdot
      cases hdot
  obtain ⟨htake, hdrop⟩ := takeWhile_append_stop isLabelChar (c :: rest) r all hr
  obtain ⟨x, l, hx, hne⟩ := hlast
  show readBlank ('_' :: ':' :: (c :: rest ++ r)) = _
  unfold readBlank
  simp only [htake, hdrop]
  have h1 : (c :: rest).reverse.takeWhile (· == '.') = [] := by
    rw [hx]
    simp [hne]
  have h2 : ((c :: rest).reverse.dropWhile (· == '.')).reverse = c :: rest := by
    have : (c :: rest).reverse.dropWhile (· == '.') = (c :: rest).reverse := by
      rw [hx]
      simp [hne]
    rw [this, List.reverse_reverse]
  rw [h1, h2]
  simp [first]

end RdfTypes
