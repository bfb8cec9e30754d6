import Verif.Spec.Formatting
import Verif.Proof.Display

/-!
# Display to a formatter
-/

namespace RdfTypes

open Formatting Spec.Formatted

theorem writeAll_append {σ : Type} (w : Text → σ → σ × Bool) (a b : List Text) (s : σ) :
    writeAll w (a ++ b) s =
      match writeAll w a s with
      | (s, true) => writeAll w b s
      | (s, false) => (s, false) := by
  induction a generalizing s with
  | nil => rfl
  | cons t a ih =>
    simp only [List.cons_append, writeAll]
    split
    · exact ih _
    · rfl

theorem writes_ok (o : Options) : writes (fun _ => ok) o [] :=
  ⟨[], rfl, fun _ _ _ => rfl⟩

theorem writes_write (o : Options) (t : Text) : writes (fun _ => write t) o t := by
  refine ⟨[t], by simp, fun σ w s => ?_⟩
  simp only [write, writeAll]
  cases h : w t s with
  | mk s' b => cases b <;> simp

theorem writes_andThen {a b : ∀ σ, Writing σ} {o : Options} {t u : Text} (ha : writes a o t)
    (hb : writes b o u) : writes (fun σ => andThen (a σ) (b σ)) o (t ++ u) := by
  obtain ⟨ca, rfl, ha⟩ := ha
  obtain ⟨cb, rfl, hb⟩ := hb
  refine ⟨ca ++ cb, by simp, fun σ w s => ?_⟩
  rw [writeAll_append]
  simp only [andThen, ha]
  cases h : writeAll w ca s with
  | mk s' r => cases r <;> simp [hb]

theorem writes_arg {a : ∀ σ, Writing σ} {t : Text} (o : Options) (h : writes a {} t) :
    writes (fun σ => arg (a σ)) o t := by
  obtain ⟨c, rfl, h⟩ := h
  exact ⟨c, rfl, fun σ w s => h σ w s⟩

theorem writes_forEach {X : Type} {body : X → ∀ σ, Writing σ} {o : Options} {g : X → Text}
    (l : List X) (h : ∀ x ∈ l, writes (body x) o (g x)) :
    writes (fun σ => forEach (fun x => body x σ) l) o (l.flatMap g) := by
  induction l with
  | nil => exact writes_ok o
  | cons x l ih =>
    rw [List.flatMap_cons]
    exact writes_andThen (h x (List.mem_cons_self ..))
      (ih fun y hy => h y (List.mem_cons_of_mem _ hy))

theorem writes_fill (o : Options) (c : Char) (k : Nat) :
    writes (fun _ => forEach (fun _ => write [c]) (List.replicate k ())) o (List.replicate k c) := by
  have := writes_forEach (body := fun (_ : Unit) (_ : Type) => write [c]) (o := o)
    (g := fun _ => [c]) (List.replicate k ()) (fun _ _ => writes_write o [c])
  have e : (List.replicate k ()).flatMap (fun _ => [c]) = List.replicate k c := by
    induction k with
    | zero => rfl
    | succ k ih =>
      rw [List.replicate_succ, List.flatMap_cons, List.replicate_succ, List.singleton_append]
      congr 1
      apply ih
      exact writes_forEach (body := fun (_ : Unit) (_ : Type) => write [c]) _
        (fun _ _ => writes_write o [c])
  rwa [e] at this

theorem writes_congr {a b : ∀ σ, Writing σ} {o : Options} {t : Text} (h : writes a o t)
    (e : ∀ σ w, a σ { options := o, writeStr := w } = b σ { options := o, writeStr := w }) :
    writes b o t := by
  obtain ⟨c, hc, h⟩ := h
  exact ⟨c, hc, fun σ w s => by rw [← e]; exact h σ w s⟩

theorem writes_pad (o : Options) (t : Text) : writes (fun _ => pad t) o (shape o t) := by
  rcases o with ⟨fill, align, width, precision⟩
  have key : ∀ k : Text, writes (fun _ f =>
      match f.options.width with
      | none => write k f
      | some w => if k.length < w then padding (w - k.length) (write k) f else write k f)
      ⟨fill, align, width, precision⟩
      (match align with
        | none | some .left => k ++ List.replicate (width.getD 0 - k.length) fill
        | some .right => List.replicate (width.getD 0 - k.length) fill ++ k
        | some .center => List.replicate ((width.getD 0 - k.length) / 2) fill ++ k ++
            List.replicate ((width.getD 0 - k.length) - (width.getD 0 - k.length) / 2) fill) := by
    intro k
    cases width with
    | none =>
      refine writes_congr (a := fun _ => write k) (t := _) ?_ (fun _ _ => rfl)
      have := writes_write ⟨fill, align, none, precision⟩ k
      rcases align with _ | _ | _ | _ <;> simpa using this
    | some w =>
      by_cases hw : k.length < w
      · refine writes_congr (a := fun _ => padding (w - k.length) (write k)) (t := _) ?_
          (fun _ _ => by simp [hw])
        simp only [Option.getD_some]
        generalize w - k.length = n
        have h0 := writes_fill ⟨fill, align, some w, precision⟩ fill
        have hk := writes_write ⟨fill, align, some w, precision⟩ k
        rcases align with _ | _ | _ | _
        · have := writes_congr (b := fun _ => padding n (write k))
            (writes_andThen (h0 0) (writes_andThen hk (h0 (n - 0)))) fun _ _ => rfl
          simpa using this
        · have := writes_congr (b := fun _ => padding n (write k))
            (writes_andThen (h0 0) (writes_andThen hk (h0 (n - 0)))) fun _ _ => rfl
          simpa using this
        · have := writes_congr (b := fun _ => padding n (write k))
            (writes_andThen (h0 n) (writes_andThen hk (h0 (n - n)))) fun _ _ => rfl
          simpa using this
        · have := writes_congr (b := fun _ => padding n (write k))
            (writes_andThen (h0 (n / 2)) (writes_andThen hk (h0 (n - n / 2)))) fun _ _ => rfl
          simpa using this
      · have e : w - k.length = 0 := by omega
        refine writes_congr (a := fun _ => write k) (t := _) ?_ (fun _ _ => by simp [hw])
        have := writes_write ⟨fill, align, some w, precision⟩ k
        rcases align with _ | _ | _ | _ <;> simpa [e] using this
  cases precision with
  | none =>
    have e : cut ⟨fill, align, width, none⟩ t = t := by simp [cut]
    have := writes_congr (b := fun _ => pad t) (key t) fun _ _ => rfl
    simp only [shape, e]
    exact this
  | some n => exact writes_congr (key (t.take n)) fun _ _ => rfl

theorem writes_strChar (o : Options) (c : Char) :
    writes (fun _ => strChar c) o
      (text o [if c ∈ escaped then .fixed (Display.strChar c) else .shaped [c]]) := by
  have hw := fun t => writes_write o t
  unfold Formatting.strChar Display.strChar
  by_cases h1 : c = '"'
  · subst h1; simpa [escaped, text] using hw _
  by_cases h2 : c = '\\'
  · subst h2; simpa [escaped, text] using hw _
  by_cases h3 : c = '\n'
  · subst h3; simpa [escaped, text] using hw _
  by_cases h4 : c = '\r'
  · subst h4; simpa [escaped, text] using hw _
  simpa [escaped, text, h1, h2, h3, h4] using writes_pad o [c]

theorem text_append (o : Options) (a b : List Part) : text o (a ++ b) = text o a ++ text o b := by
  simp [text]

theorem text_cons (o : Options) (p : Part) (l : List Part) :
    text o (p :: l) = text o [p] ++ text o l := by
  rw [← text_append]; rfl

theorem text_map {X : Type} (o : Options) (g : X → Part) (l : List X) :
    text o (l.map g) = l.flatMap fun x => text o [g x] := by
  induction l with
  | nil => rfl
  | cons x l ih => rw [List.map_cons, text_cons, ih, List.flatMap_cons]

theorem writes_str (o : Options) (t : Text) : writes (fun _ => str t) o (text o (strParts t)) := by
  have h := writes_andThen (writes_write o ['"'])
    (writes_andThen (writes_forEach (body := fun c _ => strChar c) (o := o) t
      (fun c _ => writes_strChar o c)) (writes_write o ['"']))
  have e : text o (strParts t) = ['"'] ++ ((t.flatMap fun c =>
      text o [if c ∈ escaped then .fixed (Display.strChar c) else .shaped [c]]) ++ ['"']) := by
    rw [strParts, List.cons_append, text_cons, text_append, text_map]
    simp [text]
  rw [e]
  exact h

theorem writes_iriChar (o : Options) (c : Char) :
    writes (fun _ => iriChar c) o
      (text o [if Display.isEscapedInIri c then .fixed (Display.iriChar c) else .shaped [c]]) := by
  unfold Formatting.iriChar Display.iriChar
  by_cases h : Display.isEscapedInIri c = true
  · have := writes_andThen (writes_write o ['\\', 'u']) (writes_write o (Display.hex04 c.toNat))
    simpa [h, text] using this
  · simpa [h, text] using writes_pad o [c]

theorem writes_iri (o : Options) (t : Text) : writes (fun _ => iri t) o (text o (iriParts t)) := by
  have h := writes_andThen (writes_write o ['<'])
    (writes_andThen (writes_forEach (body := fun c _ => iriChar c) (o := o) t
      (fun c _ => writes_iriChar o c)) (writes_write o ['>']))
  have e : text o (iriParts t) = ['<'] ++ ((t.flatMap fun c =>
      text o [if Display.isEscapedInIri c then .fixed (Display.iriChar c) else .shaped [c]]) ++
        ['>']) := by
    rw [iriParts, List.cons_append, text_cons, text_append, text_map]
    simp [text]
  rw [e]
  exact h

theorem writes_literal (o : Options) (l : Literal Text Text) :
    writes (fun _ => literal l) o (text o (literalParts l)) := by
  rw [literalParts, text_append]
  refine writes_congr (writes_andThen (writes_str o l.value)
    (b := fun _ => if l.type_.isXsdString then ok else literalType l.type_) ?_) fun _ _ => rfl
  rcases l with ⟨v, ty | tag⟩
  · have e : (LiteralType.any ty : LiteralType Text Text).isXsdString = decide (ty = xsdString) := by
      rfl
    by_cases h : ty = xsdString
    · subst h
      exact writes_ok o
    · have := writes_andThen (writes_write o ['^', '^']) (writes_iri o ty)
      simp only [e, h, decide_false, Bool.false_eq_true, if_false]
      rw [text_cons]
      exact this
  · have := writes_andThen (writes_write o ['@']) (writes_pad o tag)
    have e : (LiteralType.langString tag : LiteralType Text Text).isXsdString = false := rfl
    simp only [e, Bool.false_eq_true, if_false]
    have e' : text o [.fixed ['@'], .shaped tag] = ['@'] ++ shape o tag := by simp [text]
    rw [e']
    exact this

theorem writes_localTerm (o : Options) (t : LexTerm Text Text) :
    writes (fun _ => localTerm t) o (text o (termParts t)) := by
  rcases t with b | i | l
  · exact writes_str o b.str
  · exact writes_iri o i
  · exact writes_literal o l

theorem writes_displayLocalTerm (o : Options) (t : LexTerm Text Text) :
    writes (fun _ => displayLocalTerm t) o (text o (plainParts t)) := by
  rcases t with b | i | l
  · have := writes_pad o b.str
    have e : text o (plainParts (.anonymous b)) = shape o b.str := by simp [plainParts, text]
    rw [e]
    exact this
  · have := writes_pad o i
    have e : text o (plainParts (.named (.iri i))) = shape o i := by simp [plainParts, text]
    rw [e]
    exact this
  · exact writes_literal o l

theorem shape_plain (t : Text) : shape {} t = t := by simp [shape, cut]

theorem text_strParts_plain (t : Text) : text {} (strParts t) = Display.str t := by
  rw [strParts, List.cons_append, text_cons, text_append, text_map]
  have : ∀ c : Char, text {} [if c ∈ escaped then .fixed (Display.strChar c) else .shaped [c]] =
      Display.strChar c := by
    intro c
    by_cases h : c ∈ escaped
    · simp [h, text]
    · have hd : Display.strChar c = [c] := by
        simp only [escaped, List.mem_cons, List.not_mem_nil, or_false, not_or] at h
        simp [Display.strChar, h]
      simp [h, text, hd, shape_plain]
  simp only [this]
  simp [text, Display.str]

theorem text_iriParts_plain (t : Text) : text {} (iriParts t) = Display.iri t := by
  rw [iriParts, List.cons_append, text_cons, text_append, text_map]
  have : ∀ c : Char, text {} [if Display.isEscapedInIri c then .fixed (Display.iriChar c)
      else .shaped [c]] = Display.iriChar c := by
    intro c
    by_cases h : Display.isEscapedInIri c = true
    · simp [h, text]
    · simp [h, text, shape_plain, Display.iriChar]
  simp only [this]
  simp [text, Display.iri]

theorem text_literalParts_plain (l : Literal Text Text) : text {} (literalParts l) = l.rdfFmt := by
  rw [literalParts, text_append, text_strParts_plain, Literal.rdfFmt]
  rcases l with ⟨v, ty | tag⟩
  · have e : (LiteralType.any ty : LiteralType Text Text).isXsdString = decide (ty = xsdString) := by
      rfl
    by_cases h : ty = xsdString
    · subst h
      simp [text]
      intro h
      rw [e] at h
      simp at h
    · simp only [e, h, decide_false, Bool.false_eq_true, if_false]
      rw [text_cons, text_iriParts_plain]
      simp [text, LiteralType.rdfFmt]
  · have e : (LiteralType.langString tag : LiteralType Text Text).isXsdString = false := rfl
    simp only [e, Bool.false_eq_true, if_false]
    simp [text, shape_plain, LiteralType.rdfFmt, Display.langTag]

theorem text_termParts_plain (t : LexTerm Text Text) : text {} (termParts t) = t.rdfFmt := by
  rcases t with b | i | l
  · exact text_strParts_plain b.str
  · exact text_iriParts_plain i
  · exact text_literalParts_plain l

theorem text_plainParts_plain (t : LexTerm Text Text) : text {} (plainParts t) = t.fmt := by
  rcases t with b | i | l
  · simp [plainParts, text, shape_plain, LocalTerm.fmt]
  · simp [plainParts, text, shape_plain, LocalTerm.fmt, Term.fmt]
  · exact text_literalParts_plain l

section statements

variable {S P O G : Type}

theorem writes_quad {fs : S → ∀ σ, Writing σ} {fp : P → ∀ σ, Writing σ} {fo : O → ∀ σ, Writing σ}
    {fg : G → ∀ σ, Writing σ} {ts : S → Text} {tp : P → Text} {to : O → Text} {tg : G → Text}
    (hs : ∀ x, writes (fs x) {} (ts x)) (hp : ∀ x, writes (fp x) {} (tp x))
    (ho : ∀ x, writes (fo x) {} (to x)) (hg : ∀ x, writes (fg x) {} (tg x))
    (o : Options) (q : Quad S P O G) :
    writes (fun σ => quad (fun x => fs x σ) (fun x => fp x σ) (fun x => fo x σ) (fun x => fg x σ) q)
      o (q.rdfFmt ts tp to tg) := by
  rcases q with ⟨s, p, x, _ | g⟩
  · have := writes_andThen (writes_arg o (hs s)) (writes_andThen (writes_write o [' '])
      (writes_andThen (writes_arg o (hp p)) (writes_andThen (writes_write o [' '])
        (writes_arg o (ho x)))))
    simpa [quad, Quad.rdfFmt] using this
  · have := writes_andThen (writes_arg o (hs s)) (writes_andThen (writes_write o [' '])
      (writes_andThen (writes_arg o (hp p)) (writes_andThen (writes_write o [' '])
        (writes_andThen (writes_arg o (ho x)) (writes_andThen (writes_write o [' '])
          (writes_arg o (hg g)))))))
    simpa [quad, Quad.rdfFmt] using this

theorem writes_triple {fs : S → ∀ σ, Writing σ} {fp : P → ∀ σ, Writing σ}
    {fo : O → ∀ σ, Writing σ} {ts : S → Text} {tp : P → Text} {to : O → Text}
    (hs : ∀ x, writes (fs x) {} (ts x)) (hp : ∀ x, writes (fp x) {} (tp x))
    (ho : ∀ x, writes (fo x) {} (to x)) (o : Options) (t : Triple S P O) :
    writes (fun σ => triple (fun x => fs x σ) (fun x => fp x σ) (fun x => fo x σ) t)
      o (t.rdfFmt ts tp to) := by
  have := writes_andThen (writes_arg o (hs t.s)) (writes_andThen (writes_write o [' '])
    (writes_andThen (writes_arg o (hp t.p)) (writes_andThen (writes_write o [' '])
      (writes_arg o (ho t.o)))))
  simpa [triple, Triple.rdfFmt] using this

end statements

theorem writes_lexQuad (o : Options) (q : Quad (LexTerm Text Text)) :
    writes (fun _ => lexQuad q) o (fmtQuad q) := by
  have h : ∀ x : LexTerm Text Text, writes (fun _ => localTerm x) {} x.rdfFmt := fun x => by
    rw [← text_termParts_plain]
    exact writes_localTerm {} x
  exact writes_quad h h h h o q

theorem writes_lexTriple (o : Options) (t : Triple (LexTerm Text Text)) :
    writes (fun _ => lexTriple t) o (fmtTriple t) := by
  have h : ∀ x : LexTerm Text Text, writes (fun _ => localTerm x) {} x.rdfFmt := fun x => by
    rw [← text_termParts_plain]
    exact writes_localTerm {} x
  exact writes_triple h h h o t

theorem writes_items {S : Type} {w : S → ∀ σ, Writing σ} {g : S → Text}
    (h : ∀ x, writes (w x) {} (g x)) (o : Options) (xs : List S) :
    writes (fun σ => forEach (fun t => andThen (arg (w t σ)) (write [' ', '.', '\n'])) xs) o
      (xs.flatMap fun t => g t ++ [' ', '.', '\n']) :=
  writes_forEach (body := fun t σ => andThen (arg (w t σ)) (write [' ', '.', '\n'])) xs
    fun x _ => writes_andThen (writes_arg o (h x)) (writes_write o _)

/-- The display of a container, and of the statements it yields. -/
theorem writes_container {S D : Type} (c : Container S D) {w : S → ∀ σ, Writing σ} {g : S → Text}
    (h : ∀ x, writes (w x) {} (g x)) (o : Options) (d : D) (t : Text)
    (ht : c.rdfFmt g d = .ok t) :
    ∃ k : ∀ σ, Writing σ, (∀ σ, container c (fun x => w x σ) d = .ok (k σ)) ∧ writes k o t := by
  unfold Container.rdfFmt at ht
  cases hx : c.iter d with
  | error e => rw [hx] at ht; cases ht
  | ok xs =>
    rw [hx] at ht
    cases ht
    exact ⟨_, fun σ => by simp only [container, hx]; rfl, writes_items h o xs⟩

theorem container_panics {S D : Type} (c : Container S D) {w : S → ∀ σ, Writing σ} {g : S → Text}
    (d : D) (e : Panic) (ht : c.rdfFmt g d = .error e) (σ : Type) :
    container c (fun x => w x σ) d = .error e := by
  unfold Container.rdfFmt at ht
  unfold container
  cases hx : c.iter d with
  | error e' =>
    rw [hx] at ht
    cases ht
    rfl
  | ok xs => rw [hx] at ht; cases ht

theorem writes_string {w : ∀ σ, Writing σ} {o : Options} {t : Text} (h : writes w o t) (s : Text) :
    w Text { options := o, writeStr := string } s = (s ++ t, true) := by
  obtain ⟨c, rfl, h⟩ := h
  rw [h]
  clear h
  induction c generalizing s with
  | nil => simp [writeAll]
  | cons x c ih =>
    rw [writeAll]
    simp only [string, if_true]
    rw [ih]
    simp

/-- The log of writes made until one fails. -/
theorem writeAll_logged {σ : Type} (w : Text → σ → σ × Bool) (c : List Text) (s : σ)
    (log : List (Text × Bool)) (hl : ∀ x ∈ log, x.2 = true) :
    let r := writeAll (logged w) c (s, log)
    (r.2 = true ↔ ∀ x ∈ r.1.2, x.2 = true) ∧ (∀ x ∈ r.1.2.dropLast, x.2 = true) ∧
      (r.1.2.map Prod.fst).flatten <+: (log.map Prod.fst).flatten ++ c.flatten ∧
      (r.2 = true → (r.1.2.map Prod.fst).flatten = (log.map Prod.fst).flatten ++ c.flatten) := by
  induction c generalizing s log with
  | nil =>
    refine ⟨⟨fun _ => hl, fun _ => rfl⟩, fun x hx => hl x (List.dropLast_subset _ hx), ?_, ?_⟩
    · simp [writeAll]
    · simp [writeAll]
  | cons t c ih =>
    cases hb : (w t s).2 with
    | true =>
      have e : writeAll (logged w) (t :: c) (s, log) =
          writeAll (logged w) c ((w t s).1, log ++ [(t, true)]) := by
        simp [writeAll, logged, hb]
      rw [e]
      have := ih (w t s).1 (log ++ [(t, true)]) (by
        intro x hx
        rcases List.mem_append.1 hx with hx | hx
        · exact hl x hx
        · rw [List.mem_singleton.1 hx])
      simpa [List.append_assoc] using this
    | false =>
      have e : writeAll (logged w) (t :: c) (s, log) =
          (((w t s).1, log ++ [(t, false)]), false) := by
        simp [writeAll, logged, hb]
      rw [e]
      refine ⟨⟨fun h => (by cases h), fun h => ?_⟩, ?_, ?_, fun h => (by cases h)⟩
      · exact absurd (h (t, false) (by simp)) (by simp)
      · intro x hx
        simp only [List.dropLast_concat] at hx
        exact hl x hx
      · simp

theorem writes_stops {w : ∀ σ, Writing σ} {o : Options} {t : Text} (h : writes w o t) :
    stopsAtFailure w o t := by
  obtain ⟨c, rfl, h⟩ := h
  intro σ wr s
  have := writeAll_logged wr c s [] (by simp)
  rw [← h] at this
  simpa using this

/-! ## When the options change nothing -/

theorem shape_length (o : Options) (t : Text) :
    (shape o t).length = max (o.width.getD 0) (cut o t).length := by
  rcases o with ⟨f, a, w, p⟩
  rcases a with _ | _ | _ | _ <;>
    simp only [shape, List.length_append, List.length_replicate] <;> omega

theorem cut_eq (o : Options) (t : Text) (hp : ∀ n, o.precision = some n → t.length ≤ n) :
    cut o t = t := by
  cases h : o.precision with
  | none => simp [cut, h]
  | some n => rw [cut, h]; exact List.take_of_length_le (hp n h)

theorem shape_of_fits (o : Options) (t : Text) (hw : o.width.getD 0 ≤ t.length)
    (hp : ∀ n, o.precision = some n → t.length ≤ n) : shape o t = t := by
  have e := cut_eq o t hp
  rcases o with ⟨f, a, w, p⟩
  have h0 : w.getD 0 - t.length = 0 := by simp only at hw; omega
  rcases a with _ | _ | _ | _ <;> simp [shape, e, h0]

/-- The texts among parts that are shaped. -/
theorem text_eq_of (o : Options) (ps : List Part)
    (h : ∀ t, .shaped t ∈ ps → shape o t = t) : text o ps = text {} ps := by
  induction ps with
  | nil => rfl
  | cons p ps ih =>
    rw [text_cons, text_cons (o := {}), ih fun t ht => h t (List.mem_cons_of_mem _ ht)]
    congr 1
    cases p with
    | fixed t => rfl
    | shaped t => simp [text, h t (List.mem_cons_self ..), shape_plain]

theorem text_le (o : Options) (ps : List Part)
    (h : ∀ t, .shaped t ∈ ps → t.length ≤ (shape o t).length) :
    (text {} ps).length ≤ (text o ps).length ∧
      ((text {} ps).length = (text o ps).length →
        ∀ t, .shaped t ∈ ps → t.length = (shape o t).length) := by
  induction ps with
  | nil => simp [text]
  | cons p ps ih =>
    have ih := ih fun t ht => h t (List.mem_cons_of_mem _ ht)
    rw [text_cons, text_cons (o := o), List.length_append, List.length_append]
    cases p with
    | fixed t =>
      have e : text {} [.fixed t] = text o [.fixed t] := rfl
      rw [e]
      refine ⟨by omega, fun hl t' ht' => ih.2 (by omega) t' ?_⟩
      rcases List.mem_cons.1 ht' with h | h
      · cases h
      · exact h
    | shaped t =>
      have h1 : text {} [.shaped t] = t := by simp [text, shape_plain]
      have h2 : text o [.shaped t] = shape o t := by simp [text]
      have h3 := h t (List.mem_cons_self ..)
      rw [h1, h2]
      refine ⟨by omega, fun hl t' ht' => ?_⟩
      rcases List.mem_cons.1 ht' with h | h
      · cases h; omega
      · exact ih.2 (by omega) t' h

theorem text_ge (o : Options) (ps : List Part)
    (h : ∀ t, .shaped t ∈ ps → (shape o t).length ≤ t.length) :
    (text o ps).length ≤ (text {} ps).length ∧
      ((text o ps).length = (text {} ps).length →
        ∀ t, .shaped t ∈ ps → (shape o t).length = t.length) := by
  induction ps with
  | nil => simp [text]
  | cons p ps ih =>
    have ih := ih fun t ht => h t (List.mem_cons_of_mem _ ht)
    rw [text_cons, text_cons (o := {}), List.length_append, List.length_append]
    cases p with
    | fixed t =>
      have e : text {} [.fixed t] = text o [.fixed t] := rfl
      rw [e]
      refine ⟨by omega, fun hl t' ht' => ih.2 (by omega) t' ?_⟩
      rcases List.mem_cons.1 ht' with h | h
      · cases h
      · exact h
    | shaped t =>
      have h1 : text {} [.shaped t] = t := by simp [text, shape_plain]
      have h2 : text o [.shaped t] = shape o t := by simp [text]
      have h3 := h t (List.mem_cons_self ..)
      rw [h1, h2]
      refine ⟨by omega, fun hl t' ht' => ?_⟩
      rcases List.mem_cons.1 ht' with h | h
      · cases h; omega
      · exact ih.2 (by omega) t' h

/-- A width alone changes nothing exactly when no shaped part is shorter. -/
theorem text_width (o : Options) (ps : List Part) (hp : o.precision = none) :
    text o ps = text {} ps ↔ ∀ t, .shaped t ∈ ps → o.width.getD 0 ≤ t.length := by
  have hl : ∀ t, (shape o t).length = max (o.width.getD 0) t.length := fun t => by
    rw [shape_length, cut_eq o t fun n hn => by rw [hp] at hn; cases hn]
  constructor
  · intro h t ht
    have := (text_le o ps fun t _ => by rw [hl]; omega).2 (by rw [h]) t ht
    rw [hl] at this
    omega
  · intro h
    exact text_eq_of o ps fun t ht => shape_of_fits o t (h t ht) fun n hn => by
      rw [hp] at hn; cases hn

/-- A precision alone changes nothing exactly when no shaped part is longer. -/
theorem text_precision (o : Options) (ps : List Part) (hw : o.width = none) :
    text o ps = text {} ps ↔
      ∀ t, .shaped t ∈ ps → ∀ n, o.precision = some n → t.length ≤ n := by
  constructor
  · intro h t ht n hn
    have hl : ∀ t, (shape o t).length = min n t.length := fun t => by
      simp [shape_length, cut, hw, hn]
    have := (text_ge o ps fun t _ => by rw [hl]; omega).2 (by rw [h]) t ht
    rw [hl] at this
    omega
  · intro h
    exact text_eq_of o ps fun t ht => shape_of_fits o t (by simp [hw]) (h t ht)

/-! ## The literal that is read instead -/

theorem flatMap_strChar_plain (t : Text) (h : ∀ c ∈ t, c ∉ escaped) :
    t.flatMap Display.strChar = t := by
  induction t with
  | nil => rfl
  | cons c t ih =>
    have hc := h c (List.mem_cons_self ..)
    have : Display.strChar c = [c] := by
      simp only [escaped, List.mem_cons, List.not_mem_nil, or_false, not_or] at hc
      simp [Display.strChar, hc]
    rw [List.flatMap_cons, this, ih fun x hx => h x (List.mem_cons_of_mem _ hx)]
    rfl

theorem mem_shape {o : Options} {t : Text} {c : Char} (h : c ∈ shape o t) :
    c ∈ t ∨ c = o.fill := by
  have hk : c ∈ cut o t → c ∈ t := fun h => List.mem_of_mem_take h
  rcases o with ⟨f, a, w, p⟩
  rcases a with _ | _ | _ | _ <;> simp only [shape, List.mem_append, List.mem_replicate] at h <;>
    grind

theorem text_strParts (o : Options) (hf : o.fill ∉ escaped) (t : Text) :
    text o (strParts t) = Display.str (reshaped o t) := by
  rw [strParts, List.cons_append, text_cons, text_append, text_map]
  have : ∀ c : Char, text o [if c ∈ escaped then .fixed (Display.strChar c) else .shaped [c]] =
      (if c ∈ escaped then [c] else shape o [c]).flatMap Display.strChar := by
    intro c
    by_cases h : c ∈ escaped
    · simp [h, text]
    · have := flatMap_strChar_plain (shape o [c]) (fun x hx hm => by
        rcases mem_shape hx with hx | hx
        · exact h (List.mem_singleton.1 hx ▸ hm)
        · exact hf (hx ▸ hm))
      rw [if_neg h, if_neg h, this]
      simp [text]
  simp only [this, reshaped, Display.str, List.flatMap_assoc]
  simp [text]

theorem reshaped_length (o : Options) (t : Text) (hp : o.precision = none)
    (hw : 1 < o.width.getD 0) (h : ∃ c ∈ t, c ∉ escaped) :
    t.length < (reshaped o t).length := by
  have hl : ∀ c, (shape o [c]).length = o.width.getD 0 := fun c => by
    rw [shape_length, cut_eq o [c] fun n hn => by rw [hp] at hn; cases hn]
    simp only [List.length_singleton]; omega
  have hle : ∀ t : Text, t.length ≤ (reshaped o t).length := by
    intro t
    induction t with
    | nil => simp
    | cons c t ih =>
      simp only [reshaped, List.flatMap_cons, List.length_append, List.length_cons] at ih ⊢
      split
      · simp only [List.length_singleton]; omega
      · rw [hl]; omega
  induction t with
  | nil => simp at h
  | cons c t ih =>
    simp only [reshaped, List.flatMap_cons, List.length_append, List.length_cons] at ih hle ⊢
    by_cases hc : c ∈ escaped
    · have := ih (by
        obtain ⟨x, hx, hn⟩ := h
        rcases List.mem_cons.1 hx with rfl | hx
        · exact absurd hc hn
        · exact ⟨x, hx, hn⟩)
      rw [if_pos hc]
      simp only [List.length_singleton]
      omega
    · have := hle t
      rw [if_neg hc, hl]
      omega

end RdfTypes
