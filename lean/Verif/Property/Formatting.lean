import Verif.Proof.Formatting
import Verif.Property.Display

/-!
# Properties C87 and C88

Displays to a formatter that has options, or whose writes fail.
-/

namespace RdfTypes.Property

open Formatting Spec.Formatted Spec.NTriples

/-- A width of 3 characters. -/
def wide : Options := { width := some 3 }

/-- Three characters in the middle of stars. -/
def starred : Options := { width := some 3, align := some .center, fill := '*' }

/-- Five characters, to the right. -/
def right : Options := { width := some 5, align := some .right }

/-- A literal with a language tag, for the examples. -/
def greeting : LexTerm Text Text := .named (.literal ⟨"a\"b".toList, .langString "en".toList⟩)

/-! ## C87 -/

/-- C87, terms. Options are applied to each character of a string or of an IRI that is not escaped
and to a language tag as a whole; `fmt::Display` applies them to a whole IRI or blank identifier.
Without options the texts are those of the displays of C46 to C50 and C58. -/
theorem C87_terms (o : Options) (t : LexTerm Text Text) (s : Text) :
    localTerm t { options := o, writeStr := string } s = (s ++ text o (termParts t), true) ∧
    displayLocalTerm t { options := o, writeStr := string } s =
      (s ++ text o (plainParts t), true) ∧
    text {} (termParts t) = t.rdfFmt ∧ text {} (plainParts t) = t.fmt :=
  ⟨writes_string (writes_localTerm o t) s, writes_string (writes_displayLocalTerm o t) s,
    text_termParts_plain t, text_plainParts_plain t⟩

example : (localTerm greeting { options := wide, writeStr := string } []).1 =
      "\"a  \\\"b  \"@en ".toList ∧
    (localTerm greeting { options := starred, writeStr := string } []).1 = "\"*a*\\\"*b*\"@en*".toList ∧
    (localTerm greeting { options := { precision := some 1 }, writeStr := string } []).1 =
      "\"a\\\"b\"@e".toList ∧
    (displayLocalTerm (.anonymous ⟨"_:x".toList⟩)
      { options := right, writeStr := string } []).1 = "  _:x".toList := by decide

/-- C87, borrowed literals: displayed as the literals they borrow, on every formatter. -/
theorem C87_borrowed {σ : Type} (l : Literal Text Text) :
    (literalRef l.asRef : Writing σ) = literal l := by
  rcases l with ⟨v, ty | tag⟩ <;> rfl

example : (literalRef (⟨"a".toList, .any "b:é".toList⟩ : Literal Text Text).asRef
    { options := {}, writeStr := string } []).1 = "\"a\"^^<b:é>".toList := by decide

/-- C87, statements. Whatever the options, quads, triples and containers are displayed as without
them. -/
theorem C87_statements (o : Options) (s : Text) :
    (∀ q : Quad (LexTerm Text Text),
      lexQuad q { options := o, writeStr := string } s = (s ++ fmtQuad q, true)) ∧
    (∀ t : Triple (LexTerm Text Text),
      lexTriple t { options := o, writeStr := string } s = (s ++ fmtTriple t, true)) ∧
    (∀ (D : Type) (c : Container (Quad (LexTerm Text Text)) D) (d : D),
      (container c lexQuad d).map (· { options := o, writeStr := string } s) =
        (c.rdfFmt fmtQuad d).map (s ++ ·, true)) ∧
    (∀ (D : Type) (c : Container (Triple (LexTerm Text Text)) D) (d : D),
      (container c lexTriple d).map (· { options := o, writeStr := string } s) =
        (c.rdfFmt fmtTriple d).map (s ++ ·, true)) := by
  refine ⟨fun q => writes_string (writes_lexQuad o q) s,
    fun t => writes_string (writes_lexTriple o t) s, fun D c d => ?_, fun D c d => ?_⟩
  · cases h : c.rdfFmt fmtQuad d with
    | error e =>
      rw [container_panics c (w := fun q _ => lexQuad q) d e h]
      rfl
    | ok t =>
      obtain ⟨k, hk, hw⟩ := writes_container c (w := fun q _ => lexQuad q)
        (fun q => writes_lexQuad {} q) o d t h
      rw [hk]
      exact congrArg Except.ok (writes_string hw s)
  · cases h : c.rdfFmt fmtTriple d with
    | error e =>
      rw [container_panics c (w := fun q _ => lexTriple q) d e h]
      rfl
    | ok t =>
      obtain ⟨k, hk, hw⟩ := writes_container c (w := fun q _ => lexTriple q)
        (fun q => writes_lexTriple {} q) o d t h
      rw [hk]
      exact congrArg Except.ok (writes_string hw s)

example : (lexTriple ⟨.named (.iri "a:".toList), .named (.iri "b:é".toList), greeting⟩
    { options := wide, writeStr := string } []).1 = "<a:> <b:é> \"a\\\"b\"@en".toList := by decide

/-- C87. The display of a term is left as it is if no part that options are applied to is shorter
than the width or longer than the precision. With a width alone, or a precision alone, only then. -/
theorem C87_unchanged (o : Options) (t : LexTerm Text Text) :
    ((∀ x, .shaped x ∈ termParts t → o.width.getD 0 ≤ x.length ∧
        ∀ n, o.precision = some n → x.length ≤ n) →
      (localTerm t { options := o, writeStr := string } []).1 = t.rdfFmt) ∧
    (o.precision = none →
      ((localTerm t { options := o, writeStr := string } []).1 = t.rdfFmt ↔
        ∀ x, .shaped x ∈ termParts t → o.width.getD 0 ≤ x.length)) ∧
    (o.width = none →
      ((localTerm t { options := o, writeStr := string } []).1 = t.rdfFmt ↔
        ∀ x, .shaped x ∈ termParts t → ∀ n, o.precision = some n → x.length ≤ n)) := by
  rw [(C87_terms o t []).1, List.nil_append, ← text_termParts_plain]
  exact ⟨fun h => text_eq_of o _ fun x hx => shape_of_fits o x (h x hx).1 (h x hx).2,
    text_width o _, text_precision o _⟩

example : (localTerm greeting { options := { width := some 1 }, writeStr := string } []).1 =
    greeting.rdfFmt := by decide

example : Part.shaped ['a'] ∈ termParts greeting ∧
    (localTerm greeting { options := { width := some 2 }, writeStr := string } []).1 ≠
      greeting.rdfFmt := by
  refine ⟨?_, by decide⟩
  rw [show termParts greeting = [.fixed ['"'], .shaped ['a'], .fixed ['\\', '"'], .shaped ['b'],
    .fixed ['"'], .fixed ['@'], .shaped ['e', 'n']] by rfl]
  simp

/-- C87. With an ordinary fill character, what is written for a string is the display of another
string, which is what is read back; with a width of two or more it is a different one, unless all
characters are escaped. -/
theorem C87_misread (o : Options) (hf : o.fill ∉ escaped) (v r : Text) :
    (str v { options := o, writeStr := string } []).1 = Display.str (reshaped o v) ∧
    readString ((str v { options := o, writeStr := string } []).1 ++ r) =
      some (reshaped o v, r) ∧
    (o.precision = none → 1 < o.width.getD 0 → (∃ c ∈ v, c ∉ escaped) → reshaped o v ≠ v) := by
  have h : (str v { options := o, writeStr := string } []).1 = Display.str (reshaped o v) := by
    rw [writes_string (writes_str o v) [], List.nil_append, text_strParts o hf]
  refine ⟨h, by rw [h]; exact readString_str _ r, fun hp hw hc e => ?_⟩
  have := reshaped_length o v hp hw hc
  rw [e] at this
  omega

example : reshaped wide "ab\n".toList = "a  b  \n".toList ∧ wide.fill ∉ escaped := by decide

/-! ## C88 -/

/-- C88, terms: a display stops at the first write that fails and returns the error, having
written the text up to there. -/
theorem C88_terms (o : Options) (t : LexTerm Text Text) :
    stopsAtFailure (fun _ => localTerm t) o (text o (termParts t)) ∧
    stopsAtFailure (fun _ => displayLocalTerm t) o (text o (plainParts t)) :=
  ⟨writes_stops (writes_localTerm o t), writes_stops (writes_displayLocalTerm o t)⟩

/-- C88, statements. -/
theorem C88_statements (o : Options) :
    (∀ q, stopsAtFailure (fun _ => lexQuad q) o (fmtQuad q)) ∧
    (∀ t, stopsAtFailure (fun _ => lexTriple t) o (fmtTriple t)) :=
  ⟨fun q => writes_stops (writes_lexQuad o q), fun t => writes_stops (writes_lexTriple o t)⟩

/-- C88, containers: a container displayed without a panic. -/
theorem C88_containers (o : Options) {D : Type} (d : D) (text : Text) :
    (∀ c : Container (Quad (LexTerm Text Text)) D, c.rdfFmt fmtQuad d = .ok text →
      ∃ k : ∀ σ, Writing σ, (∀ σ, container c lexQuad d = .ok (k σ)) ∧
        stopsAtFailure k o text) ∧
    (∀ c : Container (Triple (LexTerm Text Text)) D, c.rdfFmt fmtTriple d = .ok text →
      ∃ k : ∀ σ, Writing σ, (∀ σ, container c lexTriple d = .ok (k σ)) ∧
        stopsAtFailure k o text) := by
  refine ⟨fun c h => ?_, fun c h => ?_⟩
  · obtain ⟨k, hk, hw⟩ := writes_container c (w := fun q _ => lexQuad q)
      (fun q => writes_lexQuad {} q) o d text h
    exact ⟨k, hk, writes_stops hw⟩
  · obtain ⟨k, hk, hw⟩ := writes_container c (w := fun q _ => lexTriple q)
      (fun q => writes_lexTriple {} q) o d text h
    exact ⟨k, hk, writes_stops hw⟩

/-- A buffer of four characters: a write that does not fit fails and leaves it as it is. -/
def four (t : Text) (s : Text) : Text × Bool :=
  if (s ++ t).length ≤ 4 then (s ++ t, true) else (s, false)

example : localTerm (.named (.iri sampleIri)) { options := {}, writeStr := logged four } ([], []) =
    (("<htt".toList, [(['<'], true), (['h'], true), (['t'], true), (['t'], true),
      (['p'], false)]), false) := by decide

/-- A graph of one triple. -/
example : (do
    let (d, _) ← (BTreeGraph.new : BTreeGraph (LexTerm Text Text)).insert true
      ⟨.named (.iri "a:".toList), .named (.iri "b:".toList), greeting⟩
    (BTreeGraph.container true (LexTerm Text Text)).rdfFmt fmtTriple d) =
      .ok "<a:> <b:> \"a\\\"b\"@en .\n".toList := by decide

end RdfTypes.Property
