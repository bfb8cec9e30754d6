import Verif.Proof.Macro

/-!
# C59, C60: the statement macros
-/

namespace RdfTypes.Property

open Spec Macro

variable {I L X : Type}

private theorem triple_iff {sc : Scope I L} {ts : List Token}
    {t : Triple (LocalTerm BlankIdBuf I L)} :
    Macro.triple sc ts = some (.ok t) ↔ TripleTokens sc ts t := by
  simp only [Macro.triple, Option.bind_eq_bind, Option.bind_eq_some_iff, parse_iff, newTriple_ok]
  constructor
  · rintro ⟨_, rfl, a, b, c, rfl, ha, hb, hc⟩
    have := TripleTokens.mk (eval_iff.1 ha) (eval_iff.1 hb) (eval_iff.1 hc)
    simpa using this
  · rintro ⟨ha, hb, hc⟩
    obtain ⟨a, rfl⟩ := tokens_of_term ha
    obtain ⟨b, rfl⟩ := tokens_of_term hb
    obtain ⟨c, rfl⟩ := tokens_of_term hc
    exact ⟨[a, b, c], by simp, a, b, c, rfl, eval_iff.2 ha, eval_iff.2 hb, eval_iff.2 hc⟩

private theorem quad_iff {sc : Scope I L} {ts : List Token}
    {q : Quad (LocalTerm BlankIdBuf I L)} :
    Macro.quad sc ts = some (.ok q) ↔ QuadTokens sc ts q := by
  simp only [Macro.quad, Option.bind_eq_bind, Option.bind_eq_some_iff, parse_iff, newQuad_ok]
  constructor
  · obtain ⟨s, p, o, g⟩ := q
    rintro ⟨_, rfl, a, b, c, ha, hb, hc, ⟨rfl, h⟩ | ⟨d, g, rfl, h, hd⟩⟩
    · simp only at h
      subst h
      have := QuadTokens.default (eval_iff.1 ha) (eval_iff.1 hb) (eval_iff.1 hc)
      simpa using this
    · simp only at h
      subst h
      have := QuadTokens.named (eval_iff.1 ha) (eval_iff.1 hb) (eval_iff.1 hc) (eval_iff.1 hd)
      simpa using this
  · intro h
    cases h with
    | default ha hb hc =>
      obtain ⟨a, rfl⟩ := tokens_of_term ha
      obtain ⟨b, rfl⟩ := tokens_of_term hb
      obtain ⟨c, rfl⟩ := tokens_of_term hc
      exact ⟨[a, b, c], by simp, a, b, c, eval_iff.2 ha, eval_iff.2 hb, eval_iff.2 hc,
        Or.inl ⟨rfl, rfl⟩⟩
    | named ha hb hc hd =>
      obtain ⟨a, rfl⟩ := tokens_of_term ha
      obtain ⟨b, rfl⟩ := tokens_of_term hb
      obtain ⟨c, rfl⟩ := tokens_of_term hc
      obtain ⟨d, rfl⟩ := tokens_of_term hd
      exact ⟨[a, b, c, d], by simp, a, b, c, eval_iff.2 ha, eval_iff.2 hb, eval_iff.2 hc,
        Or.inr ⟨d, _, rfl, rfl, eval_iff.2 hd⟩⟩

private theorem list_iff {T : Type} {f : List Token → Option (Res T)}
    {st : List Token → T → Prop} (hf : ∀ {ts t}, f ts = some (.ok t) ↔ st ts t)
    (hp : ∀ {ts t}, st ts t → ∀ tok ∈ ts, Plain tok) {ts : List Token} {l : List T} :
    ((tokenize [] [] ts).bind fun s => array (s.map f)) = some (.ok l) ↔ ListTokens st ts l := by
  simp only [Option.bind_eq_some_iff, array_ok]
  constructor
  · rintro ⟨gs, hg, h⟩
    obtain ⟨gs', rfl, hts⟩ := tokenize_sound hg
    simp only [List.nil_append] at h hts
    subst hts
    clear hg
    induction gs generalizing l with
    | nil =>
      cases l with
      | nil => exact .nil
      | cons _ _ => simp at h
    | cons g gs ih =>
      cases l with
      | nil => simp at h
      | cons x l =>
        simp only [List.map_cons, List.cons.injEq] at h
        simpa using ListTokens.cons (hf.1 h.1) (ih h.2)
  · intro h
    have key : ∀ acc, ∃ gs, tokenize acc [] ts = some (acc ++ gs) ∧
        gs.map f = l.map (fun x => some (.ok x)) := by
      induction h with
      | nil => intro acc; exact ⟨[], by simp [tokenize], rfl⟩
      | @cons a b x l hx hl ih =>
        intro acc
        obtain ⟨gs, hg, hm⟩ := ih (acc ++ [a])
        refine ⟨a :: gs, ?_, ?_⟩
        · rw [tokenize_step (hp hx), List.nil_append, hg, List.append_assoc, List.singleton_append]
        · rw [List.map_cons, hf.2 hx, hm, List.map_cons]
    obtain ⟨gs, hg, hm⟩ := key []
    exact ⟨gs, hg, hm⟩

private theorem plain_of_triple {sc : Scope I L} {ts : List Token}
    {t : Triple (LocalTerm BlankIdBuf I L)} (h : TripleTokens sc ts t) : ∀ tok ∈ ts, Plain tok := by
  cases h with
  | mk ha hb hc =>
    intro tok h
    simp only [List.mem_append] at h
    rcases h with (h | h) | h
    · exact plain_of_term ha _ h
    · exact plain_of_term hb _ h
    · exact plain_of_term hc _ h

private theorem plain_of_quad {sc : Scope I L} {ts : List Token}
    {q : Quad (LocalTerm BlankIdBuf I L)} (h : QuadTokens sc ts q) : ∀ tok ∈ ts, Plain tok := by
  cases h with
  | default ha hb hc =>
    intro tok h
    simp only [List.mem_append] at h
    rcases h with (h | h) | h
    · exact plain_of_term ha _ h
    · exact plain_of_term hb _ h
    · exact plain_of_term hc _ h
  | named ha hb hc hd =>
    intro tok h
    simp only [List.mem_append] at h
    rcases h with ((h | h) | h) | h
    · exact plain_of_term ha _ h
    · exact plain_of_term hb _ h
    · exact plain_of_term hc _ h
    · exact plain_of_term hd _ h

/-- C59: the macros for triples and quads compile, and return without panic, exactly on
the tokens of statements, and give these statements in order. -/
theorem C59_statements (sc : Scope I L) (ts : List Token) :
    (∀ t, Macro.triple sc ts = some (.ok t) ↔ TripleTokens sc ts t) ∧
    (∀ q, Macro.quad sc ts = some (.ok q) ↔ QuadTokens sc ts q) ∧
    (∀ l, Macro.triples sc ts = some (.ok l) ↔ ListTokens (TripleTokens sc) ts l) ∧
    (∀ l, Macro.quads sc ts = some (.ok l) ↔ ListTokens (QuadTokens sc) ts l) :=
  ⟨fun _ => triple_iff, fun _ => quad_iff, fun _ => list_iff triple_iff plain_of_triple,
    fun _ => list_iff quad_iff plain_of_quad⟩

/-- C59: there is one way to read the tokens of statements. -/
theorem C59_unambiguous (sc : Scope I L) (ts : List Token) :
    (∀ t t', TripleTokens sc ts t → TripleTokens sc ts t' → t = t') ∧
    (∀ q q', QuadTokens sc ts q → QuadTokens sc ts q' → q = q') ∧
    (∀ l l', ListTokens (TripleTokens sc) ts l → ListTokens (TripleTokens sc) ts l' → l = l') ∧
    (∀ l l', ListTokens (QuadTokens sc) ts l → ListTokens (QuadTokens sc) ts l' → l = l') := by
  obtain ⟨h1, h2, h3, h4⟩ := C59_statements sc ts
  refine ⟨fun t t' h h' => ?_, fun t t' h h' => ?_, fun t t' h h' => ?_, fun t t' h h' => ?_⟩
  · simpa using ((h1 t).2 h).symm.trans ((h1 t').2 h')
  · simpa using ((h2 t).2 h).symm.trans ((h2 t').2 h')
  · simpa using ((h3 t).2 h).symm.trans ((h3 t').2 h')
  · simpa using ((h4 t).2 h).symm.trans ((h4 t').2 h')

private theorem writes_of_mem {l : List Expr} {s : Text} (h : Expr.blank s ∈ l) :
    WritesBlank (l.flatMap Expr.tokens) s := by
  obtain ⟨a, b, rfl⟩ := List.append_of_mem h
  exact ⟨a.flatMap Expr.tokens, b.flatMap Expr.tokens, by simp [Expr.tokens]⟩

private theorem triple_error {sc : Scope I L} {ts : List Token} {p : Panic}
    (h : Macro.triple sc ts = some (.error p)) :
    p = .unwrapNone ∧ ∃ s, WritesBlank ts s ∧ ¬ BlankSuffix s := by
  simp only [Macro.triple, Option.bind_eq_bind, Option.bind_eq_some_iff, parse_iff] at h
  obtain ⟨l, rfl, h⟩ := h
  obtain ⟨e, he, h⟩ := newTriple_error h
  obtain ⟨hp, s, rfl, hs⟩ := eval_error h
  exact ⟨hp, s, writes_of_mem he, hs⟩

private theorem quad_error {sc : Scope I L} {ts : List Token} {p : Panic}
    (h : Macro.quad sc ts = some (.error p)) :
    p = .unwrapNone ∧ ∃ s, WritesBlank ts s ∧ ¬ BlankSuffix s := by
  simp only [Macro.quad, Option.bind_eq_bind, Option.bind_eq_some_iff, parse_iff] at h
  obtain ⟨l, rfl, h⟩ := h
  obtain ⟨e, he, h⟩ := newQuad_error h
  obtain ⟨hp, s, rfl, hs⟩ := eval_error h
  exact ⟨hp, s, writes_of_mem he, hs⟩

private theorem list_error {T : Type} {f : List Token → Option (Res T)} {p : Panic}
    (hf : ∀ {ts}, f ts = some (.error p) →
      p = .unwrapNone ∧ ∃ s, WritesBlank ts s ∧ ¬ BlankSuffix s) {ts : List Token}
    (h : ((tokenize [] [] ts).bind fun s => array (s.map f)) = some (.error p)) :
    p = .unwrapNone ∧ ∃ s, WritesBlank ts s ∧ ¬ BlankSuffix s := by
  simp only [Option.bind_eq_some_iff] at h
  obtain ⟨gs, hg, h⟩ := h
  obtain ⟨gs', rfl, hts⟩ := tokenize_sound hg
  simp only [List.nil_append] at h hts
  obtain ⟨g, hg, h⟩ := List.mem_map.1 (array_error h)
  obtain ⟨hp, s, ⟨a, b, rfl⟩, hs⟩ := hf h
  refine ⟨hp, s, ?_, hs⟩
  obtain ⟨x, y, rfl⟩ := List.append_of_mem hg
  exact ⟨x.flatMap (· ++ [.dot]) ++ a, b ++ [.dot] ++ y.flatMap (· ++ [.dot]), by simp [hts]⟩

/-- C59: the only panics are those of `_:"s"` where `s` is not an accepted label. -/
theorem C59_panics (sc : Scope I L) (ts : List Token) (p : Panic)
    (h : Macro.triple sc ts = some (.error p) ∨ Macro.quad sc ts = some (.error p) ∨
      Macro.triples sc ts = some (.error p) ∨ Macro.quads sc ts = some (.error p)) :
    p = .unwrapNone ∧ ∃ s, WritesBlank ts s ∧ ¬ BlankSuffix s := by
  rcases h with h | h | h | h
  · exact triple_error h
  · exact quad_error h
  · exact list_error triple_error h
  · exact list_error quad_error h

private theorem triple_forms {sc : Scope I L} {ts : List Token} :
    Macro.triple sc ts ≠ none ↔ FormsTriple sc ts := by
  have h : Macro.triple sc ts ≠ none ↔ ∃ l : List Expr, ts = l.flatMap Expr.tokens ∧
      newTriple sc l ≠ none := by
    simp only [Macro.triple, Option.bind_eq_bind, Option.ne_none_iff_exists',
      Option.bind_eq_some_iff, parse_iff]
    exact ⟨fun ⟨x, l, h1, h2⟩ => ⟨l, h1, x, h2⟩, fun ⟨l, h1, x, h2⟩ => ⟨x, l, h1, h2⟩⟩
  rw [h]
  simp only [newTriple_none]
  constructor
  · rintro ⟨_, rfl, a, b, c, rfl, ha, hb, hc⟩
    exact ⟨_, _, _, by simp, eval_none.1 ha, eval_none.1 hb, eval_none.1 hc⟩
  · rintro ⟨_, _, _, rfl, ha, hb, hc⟩
    obtain ⟨a, rfl⟩ := tokens_of_forms ha
    obtain ⟨b, rfl⟩ := tokens_of_forms hb
    obtain ⟨c, rfl⟩ := tokens_of_forms hc
    exact ⟨[a, b, c], by simp, a, b, c, rfl, eval_none.2 ha, eval_none.2 hb, eval_none.2 hc⟩

private theorem quad_forms {sc : Scope I L} {ts : List Token} :
    Macro.quad sc ts ≠ none ↔ FormsQuad sc ts := by
  have h : Macro.quad sc ts ≠ none ↔ ∃ l : List Expr, ts = l.flatMap Expr.tokens ∧
      newQuad sc l ≠ none := by
    simp only [Macro.quad, Option.bind_eq_bind, Option.ne_none_iff_exists',
      Option.bind_eq_some_iff, parse_iff]
    exact ⟨fun ⟨x, l, h1, h2⟩ => ⟨l, h1, x, h2⟩, fun ⟨l, h1, x, h2⟩ => ⟨x, l, h1, h2⟩⟩
  rw [h]
  simp only [newQuad_none]
  constructor
  · rintro ⟨_, rfl, ⟨a, b, c, rfl, ha, hb, hc⟩ | ⟨a, b, c, d, rfl, ha, hb, hc, hd⟩⟩
    · exact .inl ⟨_, _, _, by simp, eval_none.1 ha, eval_none.1 hb, eval_none.1 hc⟩
    · exact .inr ⟨_, _, _, _, by simp, eval_none.1 ha, eval_none.1 hb, eval_none.1 hc,
        eval_none.1 hd⟩
  · rintro (⟨_, _, _, rfl, ha, hb, hc⟩ | ⟨_, _, _, _, rfl, ha, hb, hc, hd⟩)
    · obtain ⟨a, rfl⟩ := tokens_of_forms ha
      obtain ⟨b, rfl⟩ := tokens_of_forms hb
      obtain ⟨c, rfl⟩ := tokens_of_forms hc
      exact ⟨[a, b, c], by simp, .inl ⟨a, b, c, rfl, eval_none.2 ha, eval_none.2 hb,
        eval_none.2 hc⟩⟩
    · obtain ⟨a, rfl⟩ := tokens_of_forms ha
      obtain ⟨b, rfl⟩ := tokens_of_forms hb
      obtain ⟨c, rfl⟩ := tokens_of_forms hc
      obtain ⟨d, rfl⟩ := tokens_of_forms hd
      exact ⟨[a, b, c, d], by simp, .inr ⟨a, b, c, d, rfl, eval_none.2 ha, eval_none.2 hb,
        eval_none.2 hc, eval_none.2 hd⟩⟩

private theorem plain_of_forms {sc : Scope I L} {a : List Token} (h : FormsTerm sc a) :
    ∀ tok ∈ a, Plain tok := by
  obtain ⟨e, rfl⟩ := tokens_of_forms h
  exact plain_of_expr

private theorem plain_of_forms_triple {sc : Scope I L} {ts : List Token} (h : FormsTriple sc ts) :
    ∀ tok ∈ ts, Plain tok := by
  obtain ⟨a, b, c, rfl, ha, hb, hc⟩ := h
  intro tok h
  simp only [List.mem_append] at h
  rcases h with (h | h) | h
  · exact plain_of_forms ha _ h
  · exact plain_of_forms hb _ h
  · exact plain_of_forms hc _ h

private theorem plain_of_forms_quad {sc : Scope I L} {ts : List Token} (h : FormsQuad sc ts) :
    ∀ tok ∈ ts, Plain tok := by
  rcases h with h | ⟨a, b, c, d, rfl, ha, hb, hc, hd⟩
  · exact plain_of_forms_triple h
  intro tok h
  simp only [List.mem_append] at h
  rcases h with ((h | h) | h) | h
  · exact plain_of_forms ha _ h
  · exact plain_of_forms hb _ h
  · exact plain_of_forms hc _ h
  · exact plain_of_forms hd _ h

private theorem list_forms {T : Type} {f : List Token → Option (Res T)} {st : List Token → Prop}
    (hf : ∀ {ts}, f ts ≠ none ↔ st ts) (hp : ∀ {ts}, st ts → ∀ tok ∈ ts, Plain tok)
    {ts : List Token} :
    ((tokenize [] [] ts).bind fun s => array (s.map f)) ≠ none ↔ FormsList st ts := by
  constructor
  · intro h
    obtain ⟨x, hx⟩ := Option.ne_none_iff_exists'.1 h
    obtain ⟨gs, hg, ha⟩ := Option.bind_eq_some_iff.1 hx
    obtain ⟨gs', rfl, hts⟩ := tokenize_sound hg
    simp only [List.nil_append] at ha hts
    subst hts
    have h' : array (gs.map f) ≠ none := by rw [ha]; simp
    clear hg h hx ha
    rw [array_none] at h'
    induction gs with
    | nil => exact .nil
    | cons g gs ih =>
      simp only [List.map_cons, List.mem_cons, not_or] at h'
      simpa using FormsList.cons (hf.1 (Ne.symm h'.1)) (ih h'.2)
  · intro h
    have key : ∀ acc, ∃ gs, tokenize acc [] ts = some (acc ++ gs) ∧ none ∉ gs.map f := by
      induction h with
      | nil => intro acc; exact ⟨[], by simp [tokenize], by simp⟩
      | @cons a b hx hl ih =>
        intro acc
        obtain ⟨gs, hg, hm⟩ := ih (acc ++ [a])
        refine ⟨a :: gs, ?_, ?_⟩
        · rw [tokenize_step (hp hx), List.nil_append, hg, List.append_assoc, List.singleton_append]
        · rw [List.map_cons, List.mem_cons, not_or]
          exact ⟨Ne.symm (hf.2 hx), hm⟩
    obtain ⟨gs, hg, hm⟩ := key []
    rw [hg]
    exact array_none.2 hm

/-- C59: the macros compile exactly on tokens that stand for statements but for the
labels of their blank nodes, which are only checked when the code runs. -/
theorem C59_compiles (sc : Scope I L) (ts : List Token) :
    (Macro.triple sc ts ≠ none ↔ FormsTriple sc ts) ∧
    (Macro.quad sc ts ≠ none ↔ FormsQuad sc ts) ∧
    (Macro.triples sc ts ≠ none ↔ FormsList (FormsTriple sc) ts) ∧
    (Macro.quads sc ts ≠ none ↔ FormsList (FormsQuad sc) ts) :=
  ⟨triple_forms, quad_forms, list_forms triple_forms plain_of_forms_triple,
    list_forms quad_forms plain_of_forms_quad⟩

/-- A scope with one variable `x`; all texts but the empty one are taken for IRIs. -/
private def sampleScope : Scope Text Text where
  var x := if x = ['x'] then some (.iri ['i']) else none
  iri s := if s = [] then none else some s
  xsdString := "xsd".toList

/-- `_:"a" <"p"> "v" ^^ "t" . x x "l" <"g"> .` -/
example : Macro.quads sampleScope
    [.underscore, .colon, .lit ['a'], .lt, .lit ['p'], .gt, .lit ['v'], .caret, .caret,
      .lit ['t'], .dot, .ident ['x'], .ident ['x'], .lit ['l'], .lt, .lit ['g'], .gt, .dot] =
    some (.ok [⟨.anonymous ⟨"_:a".toList⟩, .named (.iri ['p']),
        .named (.literal ⟨['v'], .any ['t']⟩), none⟩,
      ⟨.named (.iri ['i']), .named (.iri ['i']), .named (.literal ⟨['l'], .any "xsd".toList⟩),
        some (.named (.iri ['g']))⟩]) := by rfl

/-- `_:"a b" x x` has the form of a triple, but stands for none. -/
example : FormsTriple sampleScope
      [.underscore, .colon, .lit "a b".toList, .ident ['x'], .ident ['x']] ∧
    ¬ FormsTriple sampleScope [.ident ['x'], .ident ['x']] ∧
    ¬ FormsTriple sampleScope [.ident ['x'], .ident ['x'], .ident ['y']] := by
  refine ⟨((C59_compiles sampleScope _).1).1 ?_, fun h => ((C59_compiles sampleScope _).1).2 h ?_,
    fun h => ((C59_compiles sampleScope _).1).2 h ?_⟩
  · show some (Except.error Panic.unwrapNone) ≠ none
    simp
  · rfl
  · rfl

/-- `_:"a b"` panics, a missing dot and a triple of two terms do not compile. -/
example : Macro.triple sampleScope
      [.underscore, .colon, .lit "a b".toList, .ident ['x'], .ident ['x']] =
        some (.error .unwrapNone) ∧
    Macro.triples sampleScope [.ident ['x'], .ident ['x'], .ident ['x']] = none ∧
    Macro.triple sampleScope [.ident ['x'], .ident ['x']] = none := ⟨rfl, rfl, rfl⟩

/-! ## Patterns -/

private def PatternExpr.tokens : PatternExpr → List Token
  | .patternVar x => [.question, .ident x]
  | .resource e => e.tokens

private theorem parsePattern_tokens (l : List PatternExpr) :
    ∀ acc, parsePattern acc (l.flatMap PatternExpr.tokens) = some (acc ++ l) := by
  induction l with
  | nil => intro acc; simp [parsePattern]
  | cons e l ih =>
    intro acc
    cases e with
    | patternVar x => simp [PatternExpr.tokens, parsePattern, ih]
    | resource e =>
      cases e with
      | plain v =>
        cases l with
        | nil => simp [PatternExpr.tokens, Expr.tokens, parsePattern]
        | cons e' l' =>
          have h := ih (acc ++ [.resource (.plain v)])
          rw [List.append_assoc, List.singleton_append] at h
          rw [← h]
          cases e' with
          | patternVar x => simp [PatternExpr.tokens, Expr.tokens, parsePattern]
          | resource e' => cases e' <;> simp [PatternExpr.tokens, Expr.tokens, parsePattern]
      | _ => simp [PatternExpr.tokens, Expr.tokens, parsePattern, ih]

private theorem parsePattern_sound {ts : List Token} {acc r : List PatternExpr}
    (h : parsePattern acc ts = some r) :
    ∃ l, r = acc ++ l ∧ ts = l.flatMap PatternExpr.tokens := by
  fun_induction parsePattern acc ts with
  | case1 acc x rest ih =>
    obtain ⟨l, rfl, rfl⟩ := ih h
    exact ⟨.patternVar x :: l, by simp, by simp [PatternExpr.tokens]⟩
  | case2 acc x rest ih =>
    obtain ⟨l, rfl, rfl⟩ := ih h
    exact ⟨.resource (.var x) :: l, by simp, by simp [PatternExpr.tokens, Expr.tokens]⟩
  | case3 acc x rest ih =>
    obtain ⟨l, rfl, rfl⟩ := ih h
    exact ⟨.resource (.iri x) :: l, by simp, by simp [PatternExpr.tokens, Expr.tokens]⟩
  | case4 acc x rest ih =>
    obtain ⟨l, rfl, rfl⟩ := ih h
    exact ⟨.resource (.blank x) :: l, by simp, by simp [PatternExpr.tokens, Expr.tokens]⟩
  | case5 acc x ty rest ih =>
    obtain ⟨l, rfl, rfl⟩ := ih h
    exact ⟨.resource (.typed x ty) :: l, by simp, by simp [PatternExpr.tokens, Expr.tokens]⟩
  | case6 acc x rest _ ih =>
    obtain ⟨l, rfl, rfl⟩ := ih h
    exact ⟨.resource (.plain x) :: l, by simp, by simp [PatternExpr.tokens, Expr.tokens]⟩
  | case7 acc => exact ⟨[], by simpa using h.symm, rfl⟩
  | case8 => cases h

private theorem evalPattern_sound {sc : Scope I L} {pvar : Text → Option X} {e : PatternExpr}
    {r : ResourceOrVar (Term I L) X} (h : evalPattern sc pvar e = some r) :
    PatternTokens sc pvar (PatternExpr.tokens e) r ∧ ∀ s, Token.lit s ∉ PatternExpr.tokens e := by
  unfold evalPattern at h
  split at h
  · rename_i x
    simp only [Option.bind_eq_bind, Option.bind_eq_some_iff, Option.pure_def,
      Option.some.injEq] at h
    obtain ⟨v, hv, rfl⟩ := h
    exact ⟨.var hv, by simp [PatternExpr.tokens]⟩
  · rename_i x
    split at h
    · rename_i t ht
      simp only [Option.pure_def, Option.some.injEq] at h
      subst h
      exact ⟨.term (.termVar ht), by simp [PatternExpr.tokens, Expr.tokens]⟩
    · cases h
  all_goals cases h

private theorem newQuadPattern_some {sc : Scope I L} {pvar : Text → Option X}
    {l : List PatternExpr} {q : Quad (ResourceOrVar (Term I L) X)} :
    newQuadPattern sc pvar l = some q ↔ ∃ a b c, evalPattern sc pvar a = some q.s ∧
      evalPattern sc pvar b = some q.p ∧ evalPattern sc pvar c = some q.o ∧
      ((l = [a, b, c] ∧ q.g = none) ∨
        ∃ d g, l = [a, b, c, d] ∧ q.g = some g ∧ evalPattern sc pvar d = some g) := by
  constructor
  · intro h
    unfold newQuadPattern at h
    split at h
    · rename_i a b c
      simp only [Option.bind_eq_bind, Option.bind_eq_some_iff, Option.pure_def,
        Option.some.injEq] at h
      obtain ⟨x, hx, y, hy, z, hz, rfl⟩ := h
      exact ⟨a, b, c, hx, hy, hz, Or.inl ⟨rfl, rfl⟩⟩
    · rename_i a b c d
      simp only [Option.bind_eq_bind, Option.bind_eq_some_iff, Option.pure_def,
        Option.some.injEq] at h
      obtain ⟨x, hx, y, hy, z, hz, w, hw, rfl⟩ := h
      exact ⟨a, b, c, hx, hy, hz, Or.inr ⟨d, _, rfl, rfl, hw⟩⟩
    · cases h
  · obtain ⟨s, p, o, g⟩ := q
    rintro ⟨a, b, c, hx, hy, hz, ⟨rfl, h⟩ | ⟨d, g, rfl, h, hw⟩⟩
    · simp only at h
      subst h
      simp [newQuadPattern, hx, hy, hz]
    · simp only at h
      subst h
      simp [newQuadPattern, hx, hy, hz, hw]

private theorem pattern_expr {sc : Scope I L} {pvar : Text → Option X} {a : List Token}
    {r : ResourceOrVar (Term I L) X} (h : PatternTokens sc pvar a r)
    (hl : ∀ s, Token.lit s ∉ a) (hv : ∀ x b, sc.var x = some b → ∃ t, b = .term t) :
    ∃ e, PatternExpr.tokens e = a ∧ evalPattern sc pvar e = some r := by
  cases h with
  | @var x v h => exact ⟨.patternVar x, rfl, by simp [evalPattern, h]⟩
  | @term _ t h =>
    cases h with
    | @termVar x _ h => exact ⟨.resource (.var x), rfl, by simp [evalPattern, h]⟩
    | @iriVar x _ h => obtain ⟨t, h⟩ := hv _ _ h; cases h
    | @literalVar x _ h => obtain ⟨t, h⟩ := hv _ _ h; cases h
    | @localVar x _ h => obtain ⟨t, h⟩ := hv _ _ h; cases h
    | @iri s _ h => exact absurd (by simp) (hl s)
    | @typed v _ _ h => exact absurd (by simp) (hl v)
    | @plain v => exact absurd (by simp) (hl v)

/-- C60, in part: a pattern that compiles is the one that its tokens stand for, and all
patterns of variables, and of terms held by variables of type `Term`, compile. Missing:
patterns with constants, and variables of other types. -/
theorem C60_pattern_partial (sc : Scope I L) (pvar : Text → Option X) (ts : List Token)
    (q : Quad (ResourceOrVar (Term I L) X)) :
    (Macro.quadPattern sc pvar ts = some q → QuadPatternTokens sc pvar ts q) ∧
    (QuadPatternTokens sc pvar ts q → (∀ s, Token.lit s ∉ ts) →
      (∀ x b, sc.var x = some b → ∃ t, b = .term t) → Macro.quadPattern sc pvar ts = some q) := by
  constructor
  · intro h
    simp only [Macro.quadPattern, Option.bind_eq_bind, Option.bind_eq_some_iff] at h
    obtain ⟨l, hl, h⟩ := h
    obtain ⟨l', rfl, rfl⟩ := parsePattern_sound hl
    rw [newQuadPattern_some] at h
    obtain ⟨s, p, o, g⟩ := q
    obtain ⟨a, b, c, ha, hb, hc, ⟨rfl, h⟩ | ⟨d, g, rfl, h, hd⟩⟩ := h
    · simp only at h
      subst h
      have := QuadPatternTokens.default (evalPattern_sound ha).1 (evalPattern_sound hb).1
        (evalPattern_sound hc).1
      simpa using this
    · simp only at h
      subst h
      have := QuadPatternTokens.named (evalPattern_sound ha).1 (evalPattern_sound hb).1
        (evalPattern_sound hc).1 (evalPattern_sound hd).1
      simpa using this
  · intro h hl hv
    have go : ∀ l, newQuadPattern sc pvar l = some q →
        Macro.quadPattern sc pvar (l.flatMap PatternExpr.tokens) = some q := by
      intro l h
      simp [Macro.quadPattern, parsePattern_tokens, h]
    cases h with
    | default ha hb hc =>
      simp only [List.mem_append, not_or] at hl
      obtain ⟨a, rfl, ea⟩ := pattern_expr ha (fun s => (hl s).1.1) hv
      obtain ⟨b, rfl, eb⟩ := pattern_expr hb (fun s => (hl s).1.2) hv
      obtain ⟨c, rfl, ec⟩ := pattern_expr hc (fun s => (hl s).2) hv
      have := go [a, b, c] (newQuadPattern_some.2 ⟨a, b, c, ea, eb, ec, Or.inl ⟨rfl, rfl⟩⟩)
      simpa using this
    | named ha hb hc hd =>
      simp only [List.mem_append, not_or] at hl
      obtain ⟨a, rfl, ea⟩ := pattern_expr ha (fun s => (hl s).1.1.1) hv
      obtain ⟨b, rfl, eb⟩ := pattern_expr hb (fun s => (hl s).1.1.2) hv
      obtain ⟨c, rfl, ec⟩ := pattern_expr hc (fun s => (hl s).1.2) hv
      obtain ⟨d, rfl, ed⟩ := pattern_expr hd (fun s => (hl s).2) hv
      have := go [a, b, c, d]
        (newQuadPattern_some.2 ⟨a, b, c, ea, eb, ec, Or.inr ⟨d, _, rfl, rfl, ed⟩⟩)
      simpa using this

/-- `?a t ?b`, where `t` is of type `Term` -/
example : QuadPatternTokens (I := Text) (L := Text)
    ⟨fun _ => some (.term (.iri ['i'])), fun _ => none, []⟩ (fun x => some x)
    [.question, .ident ['a'], .ident ['t'], .question, .ident ['b']]
    ⟨.var ['a'], .resource (.iri ['i']), .var ['b'], none⟩ :=
  (C60_pattern_partial _ _ _ _).1 rfl

/-- The code violates C60: no pattern with a constant compiles, though some are patterns. -/
theorem C60_false :
    (∀ {I L X : Type} (sc : Scope I L) (pvar : Text → Option X) (ts : List Token) (s : Text),
      Token.lit s ∈ ts → Macro.quadPattern sc pvar ts = none) ∧
    ∃ (sc : Scope Text Text) (pvar : Text → Option Nat) (ts : List Token)
      (q : Quad (ResourceOrVar (Term Text Text) Nat)),
      QuadPatternTokens sc pvar ts q ∧ Macro.quadPattern sc pvar ts = none := by
  constructor
  · intro I L X sc pvar ts s h
    cases hq : Macro.quadPattern sc pvar ts with
    | none => rfl
    | some q =>
      exfalso
      simp only [Macro.quadPattern, Option.bind_eq_bind, Option.bind_eq_some_iff] at hq
      obtain ⟨l, hl, hq⟩ := hq
      obtain ⟨l', rfl, rfl⟩ := parsePattern_sound hl
      rw [newQuadPattern_some] at hq
      obtain ⟨a, b, c, ha, hb, hc, ⟨rfl, _⟩ | ⟨d, g, rfl, _, hd⟩⟩ := hq
      · have h1 := (evalPattern_sound ha).2 s
        have h2 := (evalPattern_sound hb).2 s
        have h3 := (evalPattern_sound hc).2 s
        simp at h
        rcases h with h | h | h <;> contradiction
      · have h1 := (evalPattern_sound ha).2 s
        have h2 := (evalPattern_sound hb).2 s
        have h3 := (evalPattern_sound hc).2 s
        have h4 := (evalPattern_sound hd).2 s
        simp at h
        rcases h with h | h | h | h <;> contradiction
  · refine ⟨sampleScope, fun _ => some 0,
      [.question, .ident ['a']] ++ [.lt, .lit ['p'], .gt] ++ [.question, .ident ['b']],
      ⟨.var 0, .resource (.iri ['p']), .var 0, none⟩, ?_, rfl⟩
    exact .default (.var rfl) (.term (.iri rfl)) (.var rfl)

/-! ## C86: the patterns that compile -/

private theorem name_iff {sc : Scope I L} {pvar : Text → Option X} {a : List Token}
    {r : ResourceOrVar (Term I L) X} :
    NameTokens sc pvar a r ↔ ∃ e, PatternExpr.tokens e = a ∧ evalPattern sc pvar e = some r := by
  constructor
  · intro h
    cases h with
    | @var x v h => exact ⟨.patternVar x, rfl, by simp [evalPattern, h]⟩
    | @term x t h => exact ⟨.resource (.var x), rfl, by simp [evalPattern, h]⟩
  · rintro ⟨e, rfl, h⟩
    unfold evalPattern at h
    split at h
    · simp only [Option.bind_eq_bind, Option.bind_eq_some_iff, Option.pure_def,
        Option.some.injEq] at h
      obtain ⟨v, hv, rfl⟩ := h
      exact .var hv
    · split at h
      · rename_i t ht
        simp only [Option.pure_def, Option.some.injEq] at h
        subst h
        exact .term ht
      · cases h
    all_goals cases h

/-- C86: a list of tokens compiles to a pattern exactly when it is made of variables of the
pattern and of names of variables of type `Term`, and the pattern is the one written. -/
theorem C86_exact (sc : Scope I L) (pvar : Text → Option X) (ts : List Token)
    (q : Quad (ResourceOrVar (Term I L) X)) :
    Macro.quadPattern sc pvar ts = some q ↔ NamesTokens sc pvar ts q := by
  constructor
  · intro h
    simp only [Macro.quadPattern, Option.bind_eq_bind, Option.bind_eq_some_iff] at h
    obtain ⟨l, hl, h⟩ := h
    obtain ⟨l', rfl, rfl⟩ := parsePattern_sound hl
    rw [newQuadPattern_some] at h
    obtain ⟨s, p, o, g⟩ := q
    obtain ⟨a, b, c, ha, hb, hc, ⟨rfl, h⟩ | ⟨d, g, rfl, h, hd⟩⟩ := h
    · simp only at h
      subst h
      have := NamesTokens.default (name_iff.2 ⟨_, rfl, ha⟩) (name_iff.2 ⟨_, rfl, hb⟩)
        (name_iff.2 ⟨_, rfl, hc⟩)
      simpa using this
    · simp only at h
      subst h
      have := NamesTokens.named (name_iff.2 ⟨_, rfl, ha⟩) (name_iff.2 ⟨_, rfl, hb⟩)
        (name_iff.2 ⟨_, rfl, hc⟩) (name_iff.2 ⟨_, rfl, hd⟩)
      simpa using this
  · intro h
    have go : ∀ l, newQuadPattern sc pvar l = some q →
        Macro.quadPattern sc pvar (l.flatMap PatternExpr.tokens) = some q := by
      intro l h
      simp [Macro.quadPattern, parsePattern_tokens, h]
    cases h with
    | default ha hb hc =>
      obtain ⟨a, rfl, ea⟩ := name_iff.1 ha
      obtain ⟨b, rfl, eb⟩ := name_iff.1 hb
      obtain ⟨c, rfl, ec⟩ := name_iff.1 hc
      have := go [a, b, c] (newQuadPattern_some.2 ⟨a, b, c, ea, eb, ec, Or.inl ⟨rfl, rfl⟩⟩)
      simpa using this
    | named ha hb hc hd =>
      obtain ⟨a, rfl, ea⟩ := name_iff.1 ha
      obtain ⟨b, rfl, eb⟩ := name_iff.1 hb
      obtain ⟨c, rfl, ec⟩ := name_iff.1 hc
      obtain ⟨d, rfl, ed⟩ := name_iff.1 hd
      have := go [a, b, c, d]
        (newQuadPattern_some.2 ⟨a, b, c, ea, eb, ec, Or.inr ⟨d, _, rfl, rfl, ed⟩⟩)
      simpa using this

/-- The value of an expression of a pattern, of whatever kind. -/
private def value (sc : Scope I L) (pvar : Text → Option X) :
    PatternExpr → Option (ResourceOrVar (Term I L) X)
  | .patternVar x => (pvar x).map .var
  | .resource e =>
    match Macro.eval sc e with
    | some (.ok (.named t)) => some (.resource t)
    | _ => none

private theorem value_of {sc : Scope I L} {pvar : Text → Option X} {a : List Token}
    {r : ResourceOrVar (Term I L) X} (h : PatternTokens sc pvar a r) :
    ∃ e, PatternExpr.tokens e = a ∧ value sc pvar e = some r := by
  cases h with
  | @var x v h => exact ⟨.patternVar x, rfl, by simp [value, h]⟩
  | @term _ t h =>
    obtain ⟨e, rfl⟩ := tokens_of_term h
    exact ⟨.resource e, rfl, by simp [value, eval_iff.2 h]⟩

/-- C86: tokens, with constants or without, are of one pattern at most. -/
theorem C86_unambiguous (sc : Scope I L) (pvar : Text → Option X) (ts : List Token)
    (q q' : Quad (ResourceOrVar (Term I L) X)) (h : QuadPatternTokens sc pvar ts q)
    (h' : QuadPatternTokens sc pvar ts q') : q = q' := by
  have key : ∀ {q}, QuadPatternTokens sc pvar ts q →
      ∃ l : List PatternExpr, ts = l.flatMap PatternExpr.tokens ∧
      l.map (value sc pvar) = (([q.s, q.p, q.o] ++ q.g.toList).map some) := by
    intro q h
    cases h with
    | default ha hb hc =>
      obtain ⟨a, rfl, ea⟩ := value_of ha
      obtain ⟨b, rfl, eb⟩ := value_of hb
      obtain ⟨c, rfl, ec⟩ := value_of hc
      exact ⟨[a, b, c], by simp, by simp [ea, eb, ec]⟩
    | named ha hb hc hd =>
      obtain ⟨a, rfl, ea⟩ := value_of ha
      obtain ⟨b, rfl, eb⟩ := value_of hb
      obtain ⟨c, rfl, ec⟩ := value_of hc
      obtain ⟨d, rfl, ed⟩ := value_of hd
      exact ⟨[a, b, c, d], by simp, by simp [ea, eb, ec, ed]⟩
  obtain ⟨l, hl, e⟩ := key h
  obtain ⟨l', hl', e'⟩ := key h'
  have hll : l = l' := by
    have h1 := parsePattern_tokens l []
    have h2 := parsePattern_tokens l' []
    rw [← hl] at h1
    rw [← hl', h1] at h2
    simpa using h2
  subst hll
  obtain ⟨s, p, o, g⟩ := q
  obtain ⟨s', p', o', g'⟩ := q'
  rw [e] at e'
  cases g <;> cases g' <;> simp at e' <;> simp [e']

/-- `?a t ?b ?a`, where `t` is of type `Term` -/
example : NamesTokens (I := Text) (L := Text)
    ⟨fun _ => some (.term (.iri ['i'])), fun _ => none, []⟩ (fun x => some x)
    ([.question, .ident ['a']] ++ [.ident ['t']] ++ [.question, .ident ['b']] ++
      [.question, .ident ['a']])
    ⟨.var ['a'], .resource (.iri ['i']), .var ['b'], some (.var ['a'])⟩ :=
  .named (.var rfl) (.term rfl) (.var rfl) (.var rfl)

/-- `?a t ?b`, where `t` is an IRI, is not taken. -/
example (q) : ¬ NamesTokens (I := Text) (L := Text)
    ⟨fun _ => some (.iri ['i']), fun _ => none, []⟩ (fun x => some x)
    [.question, .ident ['a'], .ident ['t'], .question, .ident ['b']] q := by
  rw [← C86_exact]
  nofun

/-- `?a t ?b ?a` -/
example : Macro.quadPattern (I := Text) (L := Text)
    ⟨fun _ => some (.term (.iri ['i'])), fun _ => none, []⟩ (fun x => some x)
    [.question, .ident ['a'], .ident ['t'], .question, .ident ['b'], .question, .ident ['a']] =
    some ⟨.var ['a'], .resource (.iri ['i']), .var ['b'], some (.var ['a'])⟩ := rfl

/-- `x x "l" <"g">` -/
example : QuadTokens sampleScope [.ident ['x'], .ident ['x'], .lit ['l'], .lt, .lit ['g'], .gt]
    ⟨.named (.iri ['i']), .named (.iri ['i']), .named (.literal ⟨['l'], .any "xsd".toList⟩),
      some (.named (.iri ['g']))⟩ :=
  ((C59_statements sampleScope _).2.1 _).1 rfl

example (t) (h : TripleTokens sampleScope [.ident ['x'], .ident ['x'], .ident ['x']] t) :
    t = ⟨.named (.iri ['i']), .named (.iri ['i']), .named (.iri ['i'])⟩ :=
  (C59_unambiguous sampleScope _).1 _ _ h (((C59_statements sampleScope _).1 _).1 rfl)

example : ∃ s, WritesBlank [.underscore, .colon, .lit "a b".toList, .ident ['x'], .ident ['x']] s ∧
    ¬ BlankSuffix s :=
  (C59_panics sampleScope _ .unwrapNone (.inl rfl)).2

end RdfTypes.Property
