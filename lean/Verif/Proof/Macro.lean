import Verif.Spec.Macro
import Verif.Proof.BlankId

/-!
# The statement macros: parsing and evaluation
-/

namespace RdfTypes.Macro

open Spec

variable {I L X : Type}

/-- The tokens of an expression. -/
def Expr.tokens : Expr → List Token
  | .var x => [.ident x]
  | .iri s => [.lt, .lit s, .gt]
  | .blank s => [.underscore, .colon, .lit s]
  | .typed v ty => [.lit v, .caret, .caret, .lit ty]
  | .plain v => [.lit v]

theorem parse_tokens (l : List Expr) : ∀ acc, parse acc (l.flatMap Expr.tokens) = some (acc ++ l) := by
  induction l with
  | nil => intro acc; simp [parse]
  | cons e l ih =>
    intro acc
    cases e with
    | plain v =>
      cases l with
      | nil => simp [Expr.tokens, parse]
      | cons e' l' =>
        have h := ih (acc ++ [.plain v])
        rw [List.append_assoc, List.singleton_append] at h
        rw [← h]
        cases e' <;> simp [Expr.tokens, parse]
    | _ => simp [Expr.tokens, parse, ih]

theorem parse_sound {ts : List Token} {acc r : List Expr} (h : parse acc ts = some r) :
    ∃ l, r = acc ++ l ∧ ts = l.flatMap Expr.tokens := by
  fun_induction parse acc ts with
  | case1 acc x rest ih =>
    obtain ⟨l, rfl, rfl⟩ := ih h
    exact ⟨.var x :: l, by simp, by simp [Expr.tokens]⟩
  | case2 acc x rest ih =>
    obtain ⟨l, rfl, rfl⟩ := ih h
    exact ⟨.iri x :: l, by simp, by simp [Expr.tokens]⟩
  | case3 acc x rest ih =>
    obtain ⟨l, rfl, rfl⟩ := ih h
    exact ⟨.blank x :: l, by simp, by simp [Expr.tokens]⟩
  | case4 acc x ty rest ih =>
    obtain ⟨l, rfl, rfl⟩ := ih h
    exact ⟨.typed x ty :: l, by simp, by simp [Expr.tokens]⟩
  | case5 acc x rest _ ih =>
    obtain ⟨l, rfl, rfl⟩ := ih h
    exact ⟨.plain x :: l, by simp, by simp [Expr.tokens]⟩
  | case6 acc => exact ⟨[], by simpa using h.symm, rfl⟩
  | case7 => cases h

theorem parse_iff {ts : List Token} {l : List Expr} :
    parse [] ts = some l ↔ ts = l.flatMap Expr.tokens := by
  constructor
  · intro h
    obtain ⟨l', rfl, rfl⟩ := parse_sound h
    simp
  · rintro rfl
    rw [parse_tokens, List.nil_append]

theorem fromSuffix_iff {s : Text} {b : BlankIdBuf} :
    BlankIdBuf.fromSuffix s = .ok b ↔ BlankSuffix s ∧ b = ⟨['_', ':'] ++ s⟩ := by
  have h := BlankId.check_iff_label (['_', ':'] ++ s)
  have hd : '.' ∉ ['_', ':'] ++ s ↔ '.' ∉ s := by simp
  rw [hd] at h
  unfold BlankSuffix
  rw [← h]
  simp only [BlankIdBuf.fromSuffix, BlankIdBuf.new, List.cons_append, List.nil_append]
  cases BlankId.check ('_' :: ':' :: s) <;> simp [eq_comm]

theorem eval_iff {sc : Scope I L} {e : Expr} {t : LocalTerm BlankIdBuf I L} :
    eval sc e = some (.ok t) ↔ TermTokens sc e.tokens t := by
  constructor
  · intro h
    cases e with
    | var x =>
      simp only [eval, Option.bind_eq_bind, Option.bind_eq_some_iff] at h
      obtain ⟨b, hb, h⟩ := h
      simp only [Option.pure_def, Option.some.injEq, Except.ok.injEq] at h
      subst h
      cases b with
      | iri i => exact .iriVar hb
      | literal l => exact .literalVar hb
      | term t => exact .termVar hb
      | blank b => exact .blankVar hb
      | localTerm t => exact .localVar hb
    | iri s =>
      simp only [eval, Option.bind_eq_bind, Option.bind_eq_some_iff] at h
      obtain ⟨b, hb, h⟩ := h
      simp only [Option.pure_def, Option.some.injEq, Except.ok.injEq] at h
      subst h
      exact .iri hb
    | blank s =>
      rw [eval] at h
      split at h
      · rename_i b hb
        simp only [Option.pure_def, Option.some.injEq, Except.ok.injEq] at h
        obtain ⟨hs, rfl⟩ := fromSuffix_iff.1 hb
        subst h
        exact .blank hs
      · simp at h
    | typed v ty =>
      simp only [eval, Option.bind_eq_bind, Option.bind_eq_some_iff] at h
      obtain ⟨b, hb, h⟩ := h
      simp only [Option.pure_def, Option.some.injEq, Except.ok.injEq] at h
      subst h
      exact .typed hb
    | plain v =>
      simp only [eval, Option.pure_def, Option.some.injEq, Except.ok.injEq] at h
      subst h
      exact .plain
  · intro h
    cases e with
    | var x => cases h <;> simp_all [eval, Binding.toLocalTerm]
    | iri s => cases h; simp_all [eval]
    | blank s =>
      cases h with
      | blank hs => simp [eval, fromSuffix_iff.2 ⟨hs, rfl⟩]
    | typed v ty => cases h; simp_all [eval]
    | plain v => cases h; simp_all [eval]

theorem tokens_of_term {sc : Scope I L} {a : List Token} {t : LocalTerm BlankIdBuf I L}
    (h : TermTokens sc a t) : ∃ e : Expr, e.tokens = a := by
  cases h with
  | iri h => exact ⟨.iri _, rfl⟩
  | blank h => exact ⟨.blank _, rfl⟩
  | typed h => exact ⟨.typed _ _, rfl⟩
  | plain => exact ⟨.plain _, rfl⟩
  | iriVar h => exact ⟨.var _, rfl⟩
  | literalVar h => exact ⟨.var _, rfl⟩
  | termVar h => exact ⟨.var _, rfl⟩
  | blankVar h => exact ⟨.var _, rfl⟩
  | localVar h => exact ⟨.var _, rfl⟩

theorem eval_error {sc : Scope I L} {e : Expr} {p : Panic} (h : eval sc e = some (.error p)) :
    p = .unwrapNone ∧ ∃ s, e = .blank s ∧ ¬ BlankSuffix s := by
  cases e with
  | blank s =>
    rw [eval] at h
    split at h
    · simp at h
    · rename_i x hx
      refine ⟨by simpa using h.symm, s, rfl, fun hs => ?_⟩
      rw [fromSuffix_iff.2 ⟨hs, rfl⟩] at hx
      cases hx
  | _ => simp [eval, Option.bind_eq_some_iff] at h

theorem eval_none {sc : Scope I L} {e : Expr} :
    eval sc e ≠ none ↔ FormsTerm sc e.tokens := by
  constructor
  · intro h
    cases he : eval sc e with
    | none => exact absurd he h
    | some r =>
      cases r with
      | ok t => exact .inl ⟨t, eval_iff.1 he⟩
      | error p =>
        obtain ⟨-, s, rfl, -⟩ := eval_error he
        exact .inr ⟨s, rfl⟩
  · rintro (⟨t, h⟩ | ⟨s, h⟩)
    · rw [eval_iff.2 h]
      simp
    · cases e <;> simp [Expr.tokens] at h
      subst h
      rw [eval]
      split <;> simp

theorem tokens_of_forms {sc : Scope I L} {a : List Token} (h : FormsTerm sc a) :
    ∃ e : Expr, a = e.tokens := by
  rcases h with ⟨t, h⟩ | ⟨s, rfl⟩
  · obtain ⟨e, rfl⟩ := tokens_of_term h
    exact ⟨e, rfl⟩
  · exact ⟨.blank s, rfl⟩

theorem newTriple_none {sc : Scope I L} {l : List Expr} :
    newTriple sc l ≠ none ↔ ∃ a b c, l = [a, b, c] ∧ eval sc a ≠ none ∧ eval sc b ≠ none ∧
      eval sc c ≠ none := by
  constructor
  · intro h
    unfold newTriple at h
    split at h
    · rename_i a b c
      refine ⟨a, b, c, rfl, ?_⟩
      cases ha : eval sc a <;> cases hb : eval sc b <;> cases hc : eval sc c <;>
        simp [ha, hb, hc] at h ⊢
    · simp at h
  · rintro ⟨a, b, c, rfl, ha, hb, hc⟩
    obtain ⟨x, hx⟩ := Option.ne_none_iff_exists'.1 ha
    obtain ⟨y, hy⟩ := Option.ne_none_iff_exists'.1 hb
    obtain ⟨z, hz⟩ := Option.ne_none_iff_exists'.1 hc
    simp [newTriple, hx, hy, hz]

theorem newQuad_none {sc : Scope I L} {l : List Expr} :
    newQuad sc l ≠ none ↔ (∃ a b c, l = [a, b, c] ∧ eval sc a ≠ none ∧ eval sc b ≠ none ∧
      eval sc c ≠ none) ∨ ∃ a b c d, l = [a, b, c, d] ∧ eval sc a ≠ none ∧ eval sc b ≠ none ∧
      eval sc c ≠ none ∧ eval sc d ≠ none := by
  constructor
  · intro h
    unfold newQuad at h
    split at h
    · rename_i a b c
      refine .inl ⟨a, b, c, rfl, ?_⟩
      cases ha : eval sc a <;> cases hb : eval sc b <;> cases hc : eval sc c <;>
        simp [ha, hb, hc] at h ⊢
    · rename_i a b c d
      refine .inr ⟨a, b, c, d, rfl, ?_⟩
      cases ha : eval sc a <;> cases hb : eval sc b <;> cases hc : eval sc c <;>
        cases hd : eval sc d <;> simp [ha, hb, hc, hd] at h ⊢
    · simp at h
  · rintro (⟨a, b, c, rfl, ha, hb, hc⟩ | ⟨a, b, c, d, rfl, ha, hb, hc, hd⟩)
    · obtain ⟨x, hx⟩ := Option.ne_none_iff_exists'.1 ha
      obtain ⟨y, hy⟩ := Option.ne_none_iff_exists'.1 hb
      obtain ⟨z, hz⟩ := Option.ne_none_iff_exists'.1 hc
      simp [newQuad, hx, hy, hz]
    · obtain ⟨x, hx⟩ := Option.ne_none_iff_exists'.1 ha
      obtain ⟨y, hy⟩ := Option.ne_none_iff_exists'.1 hb
      obtain ⟨z, hz⟩ := Option.ne_none_iff_exists'.1 hc
      obtain ⟨w, hw⟩ := Option.ne_none_iff_exists'.1 hd
      simp [newQuad, hx, hy, hz, hw]

theorem newTriple_ok {sc : Scope I L} {l : List Expr} {t : Triple (LocalTerm BlankIdBuf I L)} :
    newTriple sc l = some (.ok t) ↔ ∃ a b c, l = [a, b, c] ∧ eval sc a = some (.ok t.s) ∧
      eval sc b = some (.ok t.p) ∧ eval sc c = some (.ok t.o) := by
  constructor
  · intro h
    unfold newTriple at h
    split at h
    · rename_i a b c
      simp only [Option.bind_eq_bind, Option.bind_eq_some_iff, Option.pure_def,
        Option.some.injEq] at h
      obtain ⟨x, hx, y, hy, z, hz, h⟩ := h
      refine ⟨a, b, c, rfl, ?_⟩
      cases x <;> cases y <;> cases z <;>
        simp [bind, Except.bind, pure, Except.pure] at h
      subst h
      exact ⟨hx, hy, hz⟩
    · cases h
  · rintro ⟨a, b, c, rfl, hx, hy, hz⟩
    simp [newTriple, hx, hy, hz, bind, Except.bind, pure, Except.pure]

theorem newTriple_error {sc : Scope I L} {l : List Expr} {p : Panic}
    (h : newTriple sc l = some (.error p)) : ∃ e ∈ l, eval sc e = some (.error p) := by
  unfold newTriple at h
  split at h
  · simp only [Option.bind_eq_bind, Option.bind_eq_some_iff, Option.pure_def,
      Option.some.injEq] at h
    obtain ⟨x, hx, y, hy, z, hz, h⟩ := h
    cases x <;> cases y <;> cases z <;>
      simp [bind, Except.bind, pure, Except.pure] at h <;> subst h <;> simp [*]
  · cases h

theorem newQuad_ok {sc : Scope I L} {l : List Expr} {q : Quad (LocalTerm BlankIdBuf I L)} :
    newQuad sc l = some (.ok q) ↔ ∃ a b c, eval sc a = some (.ok q.s) ∧
      eval sc b = some (.ok q.p) ∧ eval sc c = some (.ok q.o) ∧
      ((l = [a, b, c] ∧ q.g = none) ∨
        ∃ d g, l = [a, b, c, d] ∧ q.g = some g ∧ eval sc d = some (.ok g)) := by
  constructor
  · intro h
    unfold newQuad at h
    split at h
    · rename_i a b c
      simp only [Option.bind_eq_bind, Option.bind_eq_some_iff, Option.pure_def,
        Option.some.injEq] at h
      obtain ⟨x, hx, y, hy, z, hz, h⟩ := h
      refine ⟨a, b, c, ?_⟩
      cases x <;> cases y <;> cases z <;>
        simp [bind, Except.bind, pure, Except.pure] at h
      subst h
      exact ⟨hx, hy, hz, Or.inl ⟨rfl, rfl⟩⟩
    · rename_i a b c d
      simp only [Option.bind_eq_bind, Option.bind_eq_some_iff, Option.pure_def,
        Option.some.injEq] at h
      obtain ⟨x, hx, y, hy, z, hz, w, hw, h⟩ := h
      refine ⟨a, b, c, ?_⟩
      cases x <;> cases y <;> cases z <;> cases w <;>
        simp [bind, Except.bind, pure, Except.pure] at h
      subst h
      exact ⟨hx, hy, hz, Or.inr ⟨d, _, rfl, rfl, hw⟩⟩
    · cases h
  · obtain ⟨s, p, o, g⟩ := q
    rintro ⟨a, b, c, hx, hy, hz, ⟨rfl, h⟩ | ⟨d, g, rfl, h, hw⟩⟩
    · simp only at h
      subst h
      simp [newQuad, hx, hy, hz, bind, Except.bind, pure, Except.pure]
    · simp only at h
      subst h
      simp [newQuad, hx, hy, hz, hw, bind, Except.bind, pure, Except.pure]

theorem newQuad_error {sc : Scope I L} {l : List Expr} {p : Panic}
    (h : newQuad sc l = some (.error p)) : ∃ e ∈ l, eval sc e = some (.error p) := by
  unfold newQuad at h
  split at h
  · simp only [Option.bind_eq_bind, Option.bind_eq_some_iff, Option.pure_def,
      Option.some.injEq] at h
    obtain ⟨x, hx, y, hy, z, hz, h⟩ := h
    cases x <;> cases y <;> cases z <;>
      simp [bind, Except.bind, pure, Except.pure] at h <;> subst h <;> simp [*]
  · simp only [Option.bind_eq_bind, Option.bind_eq_some_iff, Option.pure_def,
      Option.some.injEq] at h
    obtain ⟨x, hx, y, hy, z, hz, w, hw, h⟩ := h
    cases x <;> cases y <;> cases z <;> cases w <;>
      simp [bind, Except.bind, pure, Except.pure] at h <;> subst h <;> simp [*]
  · cases h

/-! ## Lists -/

/-- Tokens that `@tokenize` takes. -/
def Plain (t : Token) : Prop := t ≠ .dot ∧ t ≠ .question ∧ ∀ n, t ≠ .other n

theorem plain_of_expr {e : Expr} : ∀ t ∈ e.tokens, Plain t := by
  cases e <;> simp [Expr.tokens, Plain]

theorem plain_of_term {sc : Scope I L} {a : List Token} {t : LocalTerm BlankIdBuf I L}
    (h : TermTokens sc a t) : ∀ t ∈ a, Plain t := by
  obtain ⟨e, rfl⟩ := tokens_of_term h
  exact plain_of_expr

theorem tokenize_step {acc : List (List Token)} {current a : List Token} (ha : ∀ t ∈ a, Plain t)
    (b : List Token) :
    tokenize acc current (a ++ [.dot] ++ b) = tokenize (acc ++ [current ++ a]) [] b := by
  induction a generalizing current with
  | nil => simp [tokenize]
  | cons t a ih =>
    have h := ih (current := current ++ [t]) (fun t' h => ha t' (by simp [h]))
    have ht := ha t (by simp)
    simp only [List.append_assoc, List.cons_append] at h ⊢
    cases t <;> first | (rw [tokenize]; exact h) | (exact absurd rfl (by simpa using ht.1)) |
      (exact absurd rfl (by simpa using ht.2.1)) | skip
    · exact absurd rfl ht.1
    · exact absurd rfl ht.2.1
    · exact absurd rfl (ht.2.2 _)

theorem tokenize_sound {acc : List (List Token)} {current ts : List Token}
    {r : List (List Token)} (h : tokenize acc current ts = some r) :
    ∃ l, r = acc ++ l ∧ current ++ ts = l.flatMap (· ++ [.dot]) := by
  fun_induction tokenize acc current ts with
  | case8 acc current rest ih =>
    obtain ⟨l, rfl, hl⟩ := ih h
    refine ⟨current :: l, by simp, ?_⟩
    simp at hl
    simp [hl]
  | case9 acc =>
    simp at h
    exact ⟨[], by simp [h], by simp⟩
  | case10 => cases h
  | case11 => cases h
  | case12 => cases h
  | _ =>
    rename_i ih
    obtain ⟨l, rfl, hl⟩ := ih h
    exact ⟨l, rfl, by simpa using hl⟩

theorem array_ok {T : Type} {l : List (Option (Res T))} {r : List T} :
    array l = some (.ok r) ↔ l = r.map (fun x => some (.ok x)) := by
  induction l generalizing r with
  | nil => cases r <;> simp [array]
  | cons x l ih =>
    constructor
    · intro h
      simp only [array, Option.bind_eq_bind, Option.bind_eq_some_iff, Option.pure_def,
        Option.some.injEq] at h
      obtain ⟨y, rfl, z, hz, h⟩ := h
      cases y <;> cases z <;> simp [bind, Except.bind, pure, Except.pure] at h
      subst h
      simp [ih.1 hz]
    · intro h
      cases r with
      | nil => simp at h
      | cons y r =>
        simp only [List.map_cons, List.cons.injEq] at h
        obtain ⟨rfl, h⟩ := h
        simp [array, ih.2 h, bind, Except.bind, pure, Except.pure]

theorem array_none {T : Type} {l : List (Option (Res T))} : array l ≠ none ↔ none ∉ l := by
  induction l with
  | nil => simp [array]
  | cons x l ih =>
    cases x with
    | none => simp [array]
    | some x =>
      rw [List.mem_cons, not_or, ← ih]
      cases h : array l <;> simp [array, h]

theorem array_error {T : Type} {l : List (Option (Res T))} {p : Panic}
    (h : array l = some (.error p)) : some (.error p) ∈ l := by
  induction l with
  | nil => simp [array] at h
  | cons x l ih =>
    simp only [array, Option.bind_eq_bind, Option.bind_eq_some_iff, Option.pure_def,
      Option.some.injEq] at h
    obtain ⟨y, rfl, z, hz, h⟩ := h
    cases y with
    | error e =>
      simp [bind, Except.bind] at h
      simp [h]
    | ok y =>
      cases z with
      | error e =>
        simp [bind, Except.bind] at h
        subst h
        simp [ih hz]
      | ok z => simp [bind, Except.bind, pure, Except.pure] at h

end RdfTypes.Macro
