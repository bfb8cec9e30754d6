import Verif.Property.Display
import Verif.Spec.Quoted

/-!
# C80: what displays say, blank nodes included

Blank nodes are displayed as strings (C49): what is read back is exactly the terms with blank
nodes so replaced.
-/

set_option linter.unusedSectionVars false

namespace RdfTypes.Property

open Spec Spec.NTriples Spec.RdfTerm

/-- The lexical term displayed like the given one and not a blank node. -/
private def quote : LexTerm Text Text → LexTerm Text Text
  | .anonymous b => .named (.literal ⟨b.str, .any xsdString⟩)
  | t => t

private theorem quote_fmt (t : LexTerm Text Text) : (quote t).rdfFmt = t.rdfFmt := by
  cases t with
  | anonymous b => exact (C49_blank_as_string b).2.symm
  | named t => rfl

private theorem quote_of (t : LexTerm Text Text) : ofLocal (quote t) = quoted (ofLocal t) := by
  rcases t with b | (i | ⟨v, (i | l)⟩) <;> rfl

private theorem quote_valid (t : LexTerm Text Text) (h : Valid (ofLocal t)) :
    Valid (ofLocal (quote t)) ∧ Ground (ofLocal (quote t)) := by
  rcases t with b | (i | ⟨v, (i | l)⟩)
  · refine ⟨?_, fun l h => by cases h⟩
    show ValidIri xsdString
    decide
  all_goals exact ⟨h, fun l h => by cases h⟩

/-- Reading the display of a valid term gives the term with a blank node replaced by the string
that is its label; terms are displayed alike exactly when they are then the same. -/
theorem C80_terms (t : LexTerm Text Text) (h : Valid (ofLocal t)) :
    (∀ r, Delimited r → readTerm (t.rdfFmt ++ r) = some (quoted (ofLocal t), r)) ∧
    ∀ u : LexTerm Text Text, Valid (ofLocal u) →
      (t.rdfFmt = u.rdfFmt ↔ quoted (ofLocal t) = quoted (ofLocal u)) := by
  have ht := C49_ground_partial (quote t) (quote_valid t h).1 (quote_valid t h).2
  rw [quote_fmt, quote_of] at ht
  refine ⟨ht.1, fun u hu => ⟨fun e => ?_, fun e => ?_⟩⟩
  · have := ht.2 (quote u) (quote_valid u hu).1 (quote_valid u hu).2 (by rw [quote_fmt, e])
    rw [← quote_of, ← quote_of, this]
  · rw [← quote_of, ← quote_of] at e
    rw [← quote_fmt t, ← quote_fmt u, (ofLocal_inj _ _).1 e]

/-- Terms confused: a blank node with a string, and no others. -/
theorem C80_confused (t u : LexTerm Text Text) (h : Valid (ofLocal t)) (hu : Valid (ofLocal u)) :
    (t.rdfFmt = u.rdfFmt ∧ t ≠ u) ↔
      ∃ l, (ofLocal t = .blank l ∧ ofLocal u = .typed l "http://www.w3.org/2001/XMLSchema#string".toList) ∨
        (ofLocal u = .blank l ∧ ofLocal t = .typed l "http://www.w3.org/2001/XMLSchema#string".toList) := by
  rw [(C80_terms t h).2 u hu, ne_eq, ← ofLocal_inj]
  generalize ofLocal t = x
  generalize ofLocal u = y
  cases x <;> cases y <;> simp only [quoted, RdfTerm.typed.injEq, RdfTerm.blank.injEq,
    reduceCtorEq, false_and, and_false, or_false, false_or, exists_false, and_true,
    iff_false, not_and, and_not_self_iff, not_false_eq_true]
  all_goals first | exact ⟨fun ⟨a, b⟩ => ⟨_, rfl, a.symm, b.symm⟩, fun ⟨l, a, b, c⟩ => by simp_all⟩ | simp_all

private def quoteQuad (q : Quad (LexTerm Text Text)) : Quad (LexTerm Text Text) := q.map quote

private theorem quoteQuad_fmt (q : Quad (LexTerm Text Text)) :
    fmtQuad (quoteQuad q) = fmtQuad q := by
  obtain ⟨s, p, o, g⟩ := q
  cases g <;> simp [fmtQuad, quoteQuad, Quad.map, Quad.rdfFmt, quote_fmt]

private theorem quoteQuad_of (q : Quad (LexTerm Text Text)) :
    ofQuad (quoteQuad q) = quotedStatement (ofQuad q) := by
  obtain ⟨s, p, o, g⟩ := q
  cases g <;> simp [ofQuad, quoteQuad, Quad.map, quotedStatement, quote_of]

private theorem quoteQuad_valid (q : Quad (LexTerm Text Text)) (h : ValidStatement (ofQuad q)) :
    GroundStatement (ofQuad (quoteQuad q)) := by
  obtain ⟨s, p, o, g⟩ := q
  obtain ⟨h1, h2, h3, h4⟩ := h
  refine ⟨quote_valid s h1, quote_valid p h2, quote_valid o h3, ?_⟩
  intro x hx
  cases g with
  | none => cases hx
  | some g =>
    injection hx with hx
    subst hx
    exact quote_valid g (h4 _ rfl)

private theorem displaysQuoted {S D : Type} [Ord S] (c : Container S D)
    (Reach : D → (S → Prop) → Prop)
    (hi : ∀ d A, Reach d A → ∃ xs, c.iter d = .ok xs ∧ ∀ x, x ∈ xs ↔ A x)
    (f : S → Text) (a : S → Statement) (k : S → Quad (LexTerm Text Text))
    (hf : ∀ x, f x = fmtQuad (k x)) (ha : ∀ x, a x = ofQuad (k x)) :
    DisplaysQuoted c Reach (c.rdfFmt f) a := by
  have e : ∀ {d xs}, c.iter d = .ok xs →
      c.rdfFmt f d = .ok (document fmtQuad (xs.map fun x => quoteQuad (k x))) := by
    intro d xs h
    simp only [Container.rdfFmt, h, bind, Except.bind, pure, Except.pure, document,
      List.flatMap_map, quoteQuad_fmt, hf]
  have key : ∀ xs : List S, (∀ x ∈ xs, ValidStatement (a x)) →
      readDocument (document fmtQuad (xs.map fun x => quoteQuad (k x))) =
        some (xs.map fun x => quotedStatement (a x)) := by
    intro xs h
    rw [readDocument_document fmtQuad ofQuad readStatement_quad]
    · simp [quoteQuad_of, ha]
    · intro q hq
      obtain ⟨x, hx, rfl⟩ := List.mem_map.1 hq
      exact quoteQuad_valid _ (ha x ▸ h x hx)
  have inj : ∀ l l' : List (Quad (LexTerm Text Text)), l.map ofQuad = l'.map ofQuad → l = l' := by
    intro l
    induction l with
    | nil => intro l' h; cases l' <;> simp_all
    | cons x l ih =>
      intro l' h
      cases l' with
      | nil => simp at h
      | cons y l' =>
        simp only [List.map_cons, List.cons.injEq] at h
        rw [ofQuad_inj _ _ h.1, ih _ h.2]
  intro d A hd hv
  obtain ⟨xs, hx, hm⟩ := hi d A hd
  refine ⟨xs, _, hx, e hx, hm, key xs fun x hx => hv x ((hm x).1 hx), ?_⟩
  intro d' A' xs' hd' hv' hx'
  obtain ⟨ys, hy, hm'⟩ := hi d' A' hd'
  rw [hx'] at hy
  cases hy
  rw [e hx', Except.ok.injEq]
  constructor
  · intro h
    have h1 := key xs' fun x hx => hv' x ((hm' x).1 hx)
    rw [h, key xs fun x hx => hv x ((hm x).1 hx)] at h1
    injection h1 with h1
    exact h1.symm
  · intro h
    congr 1
    apply inj
    rw [List.map_map, List.map_map]
    simpa only [Function.comp_def, quoteQuad_of, ha] using h

/-- The same for the displays of the four containers. -/
theorem C80_containers (rep : Bool) :
    DisplaysQuoted (BTreeDataset.container rep (LexTerm Text Text)) (DatasetHistory rep)
      ((BTreeDataset.container rep (LexTerm Text Text)).rdfFmt fmtQuad) ofQuad ∧
    DisplaysQuoted (BTreeGraph.container rep (LexTerm Text Text)) (GraphHistory rep)
      ((BTreeGraph.container rep (LexTerm Text Text)).rdfFmt fmtTriple) ofTriple ∧
    DisplaysQuoted (IndexedBTreeDataset.container rep (LexTerm Text Text))
      (IndexedDatasetHistory rep)
      ((IndexedBTreeDataset.container rep (LexTerm Text Text)).rdfFmt fmtQuad) ofQuad ∧
    DisplaysQuoted (IndexedBTreeGraph.container rep (LexTerm Text Text)) (IndexedGraphHistory rep)
      ((IndexedBTreeGraph.container rep (LexTerm Text Text)).rdfFmt fmtTriple) ofTriple := by
  obtain ⟨h1, h2, h3, h4⟩ := C06_iteration (R := LexTerm Text Text) rep
  have it : ∀ {S D : Type} [Ord S] {c : Container S D} {Reach : D → (S → Prop) → Prop},
      Iterates c Reach → ∀ d A, Reach d A → ∃ xs, c.iter d = .ok xs ∧ ∀ x, x ∈ xs ↔ A x := by
    intro S D _ c Reach h d A hd
    obtain ⟨xs, hx, hl⟩ := h d A hd
    exact ⟨xs, hx, hl.2⟩
  exact ⟨displaysQuoted _ _ (it h1) _ _ id (fun _ => rfl) fun _ => rfl,
    displaysQuoted _ _ (it h2) _ _ (fun t => ⟨t.s, t.p, t.o, none⟩)
      (fun t => (triple_as_quad t).1) fun t => (triple_as_quad t).2,
    displaysQuoted _ _ (it h3) _ _ id (fun _ => rfl) fun _ => rfl,
    displaysQuoted _ _ (it h4) _ _ (fun t => ⟨t.s, t.p, t.o, none⟩)
      (fun t => (triple_as_quad t).1) fun t => (triple_as_quad t).2⟩

/-- A statement with blank nodes is displayed, and is read back as one with strings. -/
example : (do
      let c := BTreeDataset.container true (LexTerm Text Text)
      let d ← c.fromIter [⟨.anonymous ⟨['_', ':', 'a']⟩, .named (.iri ['p']), .anonymous ⟨['_', ':', 'b']⟩, none⟩]
      c.rdfFmt fmtQuad d) = .ok "\"_:a\" <p> \"_:b\" .\n".toList ∧
    readDocument "\"_:a\" <p> \"_:b\" .\n".toList =
      some [(quoted (.blank ['_', ':', 'a']), .iri ['p'], quoted (.blank ['_', ':', 'b']), none)] := by
  refine ⟨by decide, by rfl⟩

private theorem label_a : Valid (ofLocal (.anonymous ⟨['_', ':', 'a']⟩)) :=
  ⟨'a', [], rfl, .inl ((inClass_iff _ _).1 (by decide)), .inl rfl⟩

private theorem string_valid :
    Valid (ofLocal (.named (.literal ⟨['_', ':', 'a'], .any xsdString⟩))) :=
  show ValidIri xsdString by decide

/-- A blank node and the string that is its label are displayed alike; another string is not. -/
example : ∃ t u : LexTerm Text Text, Valid (ofLocal t) ∧ Valid (ofLocal u) ∧
    t.rdfFmt = u.rdfFmt ∧ t ≠ u :=
  ⟨.anonymous ⟨['_', ':', 'a']⟩, .named (.literal ⟨['_', ':', 'a'], .any xsdString⟩), label_a,
    string_valid, (C80_confused _ _ label_a string_valid).2 ⟨['_', ':', 'a'], .inl ⟨rfl, rfl⟩⟩⟩

example : readTerm "\"_:a\" <p>".toList = some (quoted (.blank ['_', ':', 'a']), " <p>".toList) :=
  (C80_terms (.anonymous ⟨['_', ':', 'a']⟩) label_a).1 " <p>".toList (by rintro c ⟨⟩; decide)

end RdfTypes.Property
