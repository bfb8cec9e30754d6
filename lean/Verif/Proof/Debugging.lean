import Verif.Spec.Debugging
import Verif.Proof.BlankId

/-!
# Proofs about `Debug` output
-/

namespace RdfTypes

namespace Debugging

variable {R S : Type}

/-! ## Lines -/

theorem indent_line {t : Text} (h : '\n' ∉ t) (u : Text) :
    indent false (t ++ u) = t ++ indent false u := by
  induction t with
  | nil => rfl
  | cons c t ih =>
    simp only [List.mem_cons, not_or] at h
    have hc : (c == '\n') = false := by simpa using Ne.symm h.1
    simp only [List.cons_append, indent, hc, ih h.2]

/-- Each line with a line feed after it. -/
abbrev ended (l : List Text) : Text := l.flatMap (· ++ ['\n'])

theorem shifted_shifted (m n : Nat) (l : List Text) :
    Spec.shifted m (Spec.shifted n l) = Spec.shifted (m + n) l := by
  simp [Spec.shifted, Spec.spaces, ← List.append_assoc, List.replicate_append_replicate]

theorem shifted_append (n : Nat) (l m : List Text) :
    Spec.shifted n (l ++ m) = Spec.shifted n l ++ Spec.shifted n m := by
  simp [Spec.shifted]

theorem indent_ended {l : List Text} (h : ∀ x ∈ l, '\n' ∉ x) (u : Text) :
    indent true (ended l ++ u) = ended (Spec.shifted 4 l) ++ indent true u := by
  induction l with
  | nil => rfl
  | cons t l ih =>
    have e : ended (t :: l) ++ u = t ++ '\n' :: (ended l ++ u) := by simp [ended]
    have ih := ih fun x hx => h x (List.mem_cons_of_mem _ hx)
    have : indent true (t ++ '\n' :: (ended l ++ u)) =
        ' ' :: ' ' :: ' ' :: ' ' :: (t ++ '\n' :: indent true (ended l ++ u)) := by
      have ht := h t (by simp)
      cases t with
      | nil => simp [indent]
      | cons x t =>
        simp only [List.mem_cons, not_or] at ht
        have hx : (x == '\n') = false := by simpa using Ne.symm ht.1
        simp only [List.cons_append, indent, hx, indent_line ht.2]
        simp
    rw [e, this, ih]
    simp [ended, Spec.shifted, Spec.spaces, List.replicate]

theorem linesOf_ne_nil (t : Text) : Spec.linesOf t ≠ [] := by
  cases t with
  | nil => simp [Spec.linesOf]
  | cons c t =>
    unfold Spec.linesOf
    split
    · simp
    · split <;> simp

theorem linesOf_line (t : Text) : ∀ x ∈ Spec.linesOf t, '\n' ∉ x := by
  induction t with
  | nil => simp [Spec.linesOf]
  | cons c t ih =>
    unfold Spec.linesOf
    split
    · simpa using ih
    · next hc =>
      split
      · simpa using Ne.symm hc
      · next x l e =>
        rw [e] at ih
        intro y hy
        rcases List.mem_cons.1 hy with rfl | hy
        · simpa [Ne.symm hc] using ih x (by simp)
        · exact ih y (by simp [hy])

theorem closed_line {l : List Text} (h : ∀ x ∈ l, '\n' ∉ x) : ∀ x ∈ Spec.closed l, '\n' ∉ x := by
  induction l with
  | nil => simp [Spec.closed]
  | cons t l ih =>
    cases l with
    | nil => simpa [Spec.closed] using h t (by simp)
    | cons t' l =>
      intro x hx
      rcases List.mem_cons.1 hx with rfl | hx
      · exact h _ (by simp)
      · exact ih (fun y hy => h y (List.mem_cons_of_mem _ hy)) x hx

theorem shifted_line {n : Nat} {l : List Text} (h : ∀ x ∈ l, '\n' ∉ x) :
    ∀ x ∈ Spec.shifted n l, '\n' ∉ x := by
  intro x hx
  obtain ⟨y, hy, rfl⟩ := List.mem_map.1 hx
  simpa [Spec.spaces] using h y hy

theorem ended_closed (t : Text) : ended (Spec.closed (Spec.linesOf t)) = t ++ [',', '\n'] := by
  induction t with
  | nil => simp [Spec.linesOf, Spec.closed, ended]
  | cons c t ih =>
    unfold Spec.linesOf
    have hn := linesOf_ne_nil t
    split
    · next hc =>
      subst hc
      cases e : Spec.linesOf t with
      | nil => exact absurd e hn
      | cons x l =>
        rw [e] at ih
        show ended ([] :: Spec.closed (x :: l)) = _
        simp only [ended, List.flatMap_cons] at ih ⊢
        rw [ih]
        simp
    · split
      · next e => exact absurd e hn
      · next x l e =>
        rw [e] at ih
        cases l with
        | nil =>
          simp only [Spec.closed, ended, List.flatMap_cons, List.flatMap_nil] at ih ⊢
          simpa using congrArg (c :: ·) ih
        | cons y l =>
          simp only [Spec.closed, ended, List.flatMap_cons] at ih ⊢
          simpa using congrArg (c :: ·) ih

theorem linesOf_append {t : Text} (h : '\n' ∉ t) (u : Text) {x : Text} {l : List Text}
    (e : Spec.linesOf u = x :: l) : Spec.linesOf (t ++ u) = (t ++ x) :: l := by
  induction t with
  | nil => exact e
  | cons c t ih =>
    simp only [List.mem_cons, not_or] at h
    rw [List.cons_append, Spec.linesOf, if_neg (Ne.symm h.1), ih h.2]
    rfl

theorem linesOf_ended {l : List Text} (h : ∀ x ∈ l, '\n' ∉ x) {z : Text} (hz : '\n' ∉ z) :
    Spec.linesOf (ended l ++ z) = l ++ [z] := by
  induction l with
  | nil =>
    have := linesOf_append hz [] (x := []) (l := []) rfl
    simpa [ended] using this
  | cons t l ih =>
    have e : ended (t :: l) ++ z = t ++ '\n' :: (ended l ++ z) := by simp [ended]
    rw [e, linesOf_append (h t (by simp)) _ (x := []) (l := l ++ [z]) (by
      rw [Spec.linesOf, if_pos rfl, ih fun x hx => h x (List.mem_cons_of_mem _ hx)])]
    simp

theorem closed_last (l : List Text) (z : Text) : Spec.closed (l ++ [z]) = l ++ [z ++ [',']] := by
  induction l with
  | nil => rfl
  | cons t l ih =>
    cases l with
    | nil => rfl
    | cons t' l =>
      show t :: Spec.closed (t' :: l ++ [z]) = _
      rw [ih]
      rfl

/-- An item among others. -/
theorem indent_item (t : Text) : indent true (t ++ [',', '\n']) =
    ended (Spec.shifted 4 (Spec.closed (Spec.linesOf t))) := by
  have := indent_ended (closed_line (linesOf_line t)) []
  rw [List.append_nil, ended_closed] at this
  rw [this]
  simp [indent]

theorem item_line (t : Text) :
    ∀ x ∈ Spec.shifted 4 (Spec.closed (Spec.linesOf t)), '\n' ∉ x :=
  shifted_line (closed_line (linesOf_line t))

theorem between_newline (l : List Text) (z : Text) :
    Spec.between ['\n'] (l ++ [z]) = l.flatMap (· ++ ['\n']) ++ z := by
  induction l with
  | nil => rfl
  | cons t l ih =>
    cases l with
    | nil => simp [Spec.between]
    | cons t' l =>
      rw [List.cons_append, List.cons_append, Spec.between, ← List.cons_append, ih]
      · simp
      · simp

theorem between_cons (t : Text) (l : List Text) :
    Spec.between [',', ' '] (t :: l) = t ++ l.flatMap (fun y => ',' :: ' ' :: y) := by
  induction l generalizing t with
  | nil => simp [Spec.between]
  | cons t' l ih =>
    rw [Spec.between, ih]
    · simp
    · simp

/-! ## Statements -/

theorem quad_onLine (f : R → Printed) (q : Quad R) :
    quad f f f f q false = Spec.quadOnLine (f · false) q := by
  obtain ⟨s, p, o, g⟩ := q
  unfold Spec.quadOnLine
  cases g <;> simp only [Spec.graphOnLine] <;>
    simp [quad, items, option, Spec.between]

theorem triple_onLine (f : R → Printed) (t : Triple R) :
    triple f f f t false = Spec.tripleOnLine (f · false) t := by
  unfold Spec.tripleOnLine
  simp only [triple, items, Spec.between, Bool.false_eq_true, if_false]
  simp

theorem set_onLine (w : S → Printed) (xs : List S) :
    items ['{'] (xs.map w) ['}'] false = Spec.setOnLine (xs.map (w · false)) := by
  cases xs with
  | nil => simp [items, Spec.setOnLine, Spec.between]
  | cons x l =>
    have := between_cons (w x false) (l.map (w · false))
    simp [items, Spec.setOnLine, this, List.flatMap_map]

/-- The lines of a tuple among other items. -/
theorem tuple_lines {o c : Text} (ho : '\n' ∉ o) (hc : '\n' ∉ c) {l : List Text}
    (hl : ∀ x ∈ l, '\n' ∉ x) :
    indent true (o ++ '\n' :: ended l ++ c ++ [',', '\n']) =
      ended ([Spec.spaces 4 ++ o] ++ Spec.shifted 4 l ++ [Spec.spaces 4 ++ (c ++ [','])]) := by
  have e : o ++ '\n' :: ended l ++ c ++ [',', '\n'] = ended ([o] ++ l ++ [c ++ [',']]) ++ [] := by
    simp [ended]
  rw [e, indent_ended]
  · simp [Spec.shifted, indent]
  · intro x hx
    simp only [List.mem_append, List.mem_singleton] at hx
    rcases hx with (rfl | hx) | rfl
    · exact ho
    · exact hl x hx
    · simpa using hc

theorem option_lines (f : R → Printed) (g : Option R) :
    Spec.shifted 4 (Spec.shifted 4 (Spec.closed (Spec.linesOf (option f g true)))) =
      Spec.graphLines (f · true) g := by
  cases g with
  | none => simp [option, Spec.linesOf, Spec.closed, Spec.graphLines, Spec.shifted, Spec.spaces,
      List.replicate]
  | some g =>
    have e : Spec.linesOf (option f (some g) true) = [['S', 'o', 'm', 'e', '(']] ++
        Spec.shifted 4 (Spec.closed (Spec.linesOf (f g true))) ++ [[')']] := by
      have : option f (some g) true =
          ended ([['S', 'o', 'm', 'e', '(']] ++
            Spec.shifted 4 (Spec.closed (Spec.linesOf (f g true)))) ++ [')'] := by
        simp [option, items, indent_item, ended]
      rw [this, linesOf_ended]
      · intro x hx
        rcases List.mem_append.1 hx with hx | hx
        · simp at hx; simp [hx]
        · exact item_line _ x hx
      · simp
    rw [e, closed_last, shifted_append, shifted_append, shifted_append, shifted_append,
      shifted_shifted, shifted_shifted]
    simp [Spec.graphLines, Spec.shifted, Spec.spaces, List.replicate]

theorem quad_lines (f : R → Printed) (q : Quad R) :
    indent true (quad f f f f q true ++ [',', '\n']) = ended (Spec.quadLines (f · true) q) := by
  have e : quad f f f f q true = ['Q', 'u', 'a', 'd', '('] ++ '\n' ::
      ended (Spec.shifted 4 (Spec.closed (Spec.linesOf (f q.s true))) ++
        Spec.shifted 4 (Spec.closed (Spec.linesOf (f q.p true))) ++
        Spec.shifted 4 (Spec.closed (Spec.linesOf (f q.o true))) ++
        Spec.shifted 4 (Spec.closed (Spec.linesOf (option f q.g true)))) ++ [')'] := by
    simp [quad, items, indent_item, ended]
  rw [e, tuple_lines (by decide) (by decide)]
  · simp only [shifted_append, option_lines]
    simp [Spec.quadLines, Spec.termLines, shifted_shifted]
  · intro x hx
    simp only [List.mem_append] at hx
    rcases hx with ((hx | hx) | hx) | hx <;> exact item_line _ x hx

theorem triple_lines (f : R → Printed) (t : Triple R) :
    indent true (triple f f f t true ++ [',', '\n']) =
      ended (Spec.tripleLines (f · true) t) := by
  have e : triple f f f t true = ['T', 'r', 'i', 'p', 'l', 'e', '('] ++ '\n' ::
      ended (Spec.shifted 4 (Spec.closed (Spec.linesOf (f t.s true))) ++
        Spec.shifted 4 (Spec.closed (Spec.linesOf (f t.p true))) ++
        Spec.shifted 4 (Spec.closed (Spec.linesOf (f t.o true)))) ++ [')'] := by
    simp [triple, items, indent_item, ended]
  rw [e, tuple_lines (by decide) (by decide)]
  · simp only [shifted_append]
    simp [Spec.tripleLines, Spec.termLines, shifted_shifted]
  · intro x hx
    simp only [List.mem_append] at hx
    rcases hx with (hx | hx) | hx <;> exact item_line _ x hx

theorem set_lines {w : S → Printed} {lines : S → List Text}
    (h : ∀ x, indent true (w x true ++ [',', '\n']) = (lines x).flatMap (· ++ ['\n']))
    (hn : ∀ x, lines x ≠ []) (xs : List S) :
    items ['{'] (xs.map w) ['}'] true = Spec.setOfLines (xs.flatMap lines) := by
  cases xs with
  | nil => simp [items, Spec.setOfLines]
  | cons x l =>
    have hne : (x :: l).flatMap lines ≠ [] := by simp [hn x]
    unfold Spec.setOfLines
    rw [if_neg hne, between_newline]
    have : ∀ l : List S, (l.map w).flatMap (fun y => indent true (y true ++ [',', '\n'])) =
        (l.flatMap lines).flatMap (· ++ ['\n']) := by
      intro l
      induction l with
      | nil => rfl
      | cons x l ih => rw [List.map_cons, List.flatMap_cons, ih, h, List.flatMap_cons,
          List.flatMap_append]
    show ['{'] ++ '\n' :: ((x :: l).map w).flatMap _ ++ ['}'] = _
    rw [this]
    simp

/-! ## Telling sets apart -/

theorem Delimited.same {f : R → Text} (h : Spec.Delimited f) {a b : R} {c d : Char} {t u : Text}
    (hc : c = ',' ∨ c = ')') (hd : d = ',' ∨ d = ')') (e : f a ++ c :: t = f b ++ d :: u) :
    a = b ∧ c = d ∧ t = u := by
  have := h a b c d t u hc hd e
  subst this
  simpa using e

/-- Texts whose end can be told, whatever follows. -/
def Readable (E : S → Text) : Prop := ∀ x y t u, E x ++ t = E y ++ u → x = y ∧ t = u

theorem Readable.delimited {E : S → Text} (h : Readable E) : Spec.Delimited E :=
  fun a b _ _ _ _ _ _ e => (h a b _ _ e).1

/-- Whether a line is about to begin after a text. -/
def after : Bool → Text → Bool
  | b, [] => b
  | _, c :: t => after (c == '\n') t

/-- Four spaces are taken from the begin of each line. -/
def strip : Bool → Text → Text
  | true, ' ' :: ' ' :: ' ' :: ' ' :: c :: t => c :: strip (c == '\n') t
  | true, t => t
  | false, [] => []
  | false, c :: t => c :: strip (c == '\n') t

theorem strip_indent (b : Bool) (x r : Text) :
    strip b (indent b x ++ r) = x ++ strip (after b x) r := by
  induction x generalizing b with
  | nil => rfl
  | cons c x ih =>
    cases b with
    | true => simp only [indent, List.cons_append, strip, after, ih]
    | false => simp only [indent, List.cons_append, strip, after, ih]

theorem after_append (b : Bool) (x y : Text) : after b (x ++ y) = after (after b x) y := by
  induction x generalizing b with
  | nil => rfl
  | cons c x ih => exact ih _

/-- Items among others can be read. -/
theorem item_readable {f : R → Text} (h : Spec.Delimited f) :
    Readable fun a => indent true (f a ++ [',', '\n']) := by
  intro a b t u e
  have e' := congrArg (strip true) e
  simp only [strip_indent, after_append, List.append_assoc, List.cons_append,
    List.nil_append] at e'
  cases h a b ',' ',' _ _ (.inl rfl) (.inl rfl) e'
  exact ⟨rfl, List.append_cancel_left e⟩

theorem option_readable {f : R → Printed} {b : Bool} (h : Spec.Delimited (f · b)) :
    Readable (option f · b) := by
  intro g g' t u e
  cases g with
  | none =>
    cases g' with
    | none => exact ⟨rfl, by simpa [option] using e⟩
    | some g' => cases b <;> simp [option, items] at e
  | some g =>
    cases g' with
    | none => cases b <;> simp [option, items] at e
    | some g' =>
      cases b with
      | false =>
        simp only [option, items, Bool.false_eq_true, if_false, List.flatMap_nil, List.append_nil,
          List.append_assoc, List.cons_append, List.nil_append, List.cons.injEq, true_and] at e
        obtain ⟨rfl, -, e⟩ := Delimited.same h (.inr rfl) (.inr rfl) e
        exact ⟨rfl, e⟩
      | true =>
        simp only [option, items, if_true, List.flatMap_cons, List.flatMap_nil, List.append_nil,
          List.append_assoc, List.cons_append, List.nil_append, List.cons.injEq, true_and] at e
        obtain ⟨rfl, e1⟩ := item_readable h _ _ _ _ e
        exact ⟨rfl, by simpa using e1⟩

theorem quad_readable {f : R → Printed} {b : Bool} (h : Spec.Delimited (f · b)) :
    Readable (quad f f f f · b) := by
  intro x y t u e
  obtain ⟨s, p, o, g⟩ := x
  obtain ⟨s', p', o', g'⟩ := y
  have hg := option_readable h
  cases b with
  | false =>
    simp only [quad, items, Bool.false_eq_true, if_false, List.flatMap_cons, List.flatMap_nil,
      List.append_nil, List.append_assoc, List.cons_append, List.nil_append, List.cons.injEq,
      true_and] at e
    obtain ⟨rfl, -, e⟩ := Delimited.same h (.inl rfl) (.inl rfl) e
    simp only [List.cons.injEq, true_and] at e
    obtain ⟨rfl, -, e⟩ := Delimited.same h (.inl rfl) (.inl rfl) e
    simp only [List.cons.injEq, true_and] at e
    obtain ⟨rfl, -, e⟩ := Delimited.same h (.inl rfl) (.inl rfl) e
    simp only [List.cons.injEq, true_and] at e
    obtain ⟨rfl, e⟩ := hg _ _ _ _ e
    exact ⟨rfl, by simpa using e⟩
  | true =>
    simp only [quad, items, if_true, List.flatMap_cons, List.flatMap_nil,
      List.append_nil, List.append_assoc, List.cons_append, List.nil_append, List.cons.injEq,
      true_and] at e
    obtain ⟨rfl, e1⟩ := item_readable h _ _ _ _ e
    obtain ⟨rfl, e2⟩ := item_readable h _ _ _ _ e1
    obtain ⟨rfl, e3⟩ := item_readable h _ _ _ _ e2
    obtain ⟨rfl, e4⟩ := item_readable hg.delimited _ _ _ _ e3
    exact ⟨rfl, by simpa using e4⟩

theorem triple_readable {f : R → Printed} {b : Bool} (h : Spec.Delimited (f · b)) :
    Readable (triple f f f · b) := by
  intro x y t u e
  obtain ⟨s, p, o⟩ := x
  obtain ⟨s', p', o'⟩ := y
  cases b with
  | false =>
    simp only [triple, items, Bool.false_eq_true, if_false, List.flatMap_cons, List.flatMap_nil,
      List.append_nil, List.append_assoc, List.cons_append, List.nil_append, List.cons.injEq,
      true_and] at e
    obtain ⟨rfl, -, e⟩ := Delimited.same h (.inl rfl) (.inl rfl) e
    simp only [List.cons.injEq, true_and] at e
    obtain ⟨rfl, -, e⟩ := Delimited.same h (.inl rfl) (.inl rfl) e
    simp only [List.cons.injEq, true_and] at e
    obtain ⟨rfl, -, e⟩ := Delimited.same h (.inr rfl) (.inr rfl) e
    exact ⟨rfl, e⟩
  | true =>
    simp only [triple, items, if_true, List.flatMap_cons, List.flatMap_nil,
      List.append_nil, List.append_assoc, List.cons_append, List.nil_append, List.cons.injEq,
      true_and] at e
    obtain ⟨rfl, e1⟩ := item_readable h _ _ _ _ e
    obtain ⟨rfl, e2⟩ := item_readable h _ _ _ _ e1
    obtain ⟨rfl, e3⟩ := item_readable h _ _ _ _ e2
    exact ⟨rfl, by simpa using e3⟩

/-- Items that can be read one after the other, and do not begin as the end. -/
theorem items_same {E : S → Text} {c : Char} (hE : ∀ x y t u, E x ++ t = E y ++ u → x = y ∧ t = u)
    (hc : ∀ x, ∃ d t, E x = d :: t ∧ d ≠ c) {xs ys : List S} {z : Text}
    (e : xs.flatMap E ++ c :: z = ys.flatMap E ++ c :: z) : xs = ys := by
  induction xs generalizing ys with
  | nil =>
    cases ys with
    | nil => rfl
    | cons y ys =>
      obtain ⟨d, t, h, hd⟩ := hc y
      rw [List.flatMap_cons, h] at e
      simp only [List.flatMap_nil, List.nil_append, List.cons_append, List.cons.injEq] at e
      exact absurd e.1.symm hd
  | cons x xs ih =>
    cases ys with
    | nil =>
      obtain ⟨d, t, h, hd⟩ := hc x
      rw [List.flatMap_cons, h] at e
      simp only [List.flatMap_nil, List.nil_append, List.cons_append, List.cons.injEq] at e
      exact absurd e.1 hd
    | cons y ys =>
      simp only [List.flatMap_cons, List.append_assoc] at e
      obtain ⟨rfl, e'⟩ := hE _ _ _ _ e
      rw [ih e']

theorem set_same_onLine {E : S → Text} (hE : ∀ x y t u, E x ++ t = E y ++ u → x = y ∧ t = u)
    (hc : ∀ x, ∃ d t, E x = d :: t ∧ d ≠ '}') {xs ys : List S}
    (e : Spec.setOnLine (xs.map E) = Spec.setOnLine (ys.map E)) : xs = ys := by
  have form : ∀ x (l : List S), Spec.setOnLine ((x :: l).map E) =
      '{' :: (E x ++ (l.flatMap (fun y => ',' :: ' ' :: E y) ++ ['}'])) := by
    intro x l
    have := between_cons (E x) (l.map E)
    simp [Spec.setOnLine, this, List.flatMap_map]
  have nil : Spec.setOnLine (([] : List S).map E) = ['{', '}'] := by
    simp [Spec.setOnLine, Spec.between]
  cases xs with
  | nil =>
    cases ys with
    | nil => rfl
    | cons y ys =>
      obtain ⟨d, t, h, hd⟩ := hc y
      rw [nil, form, h] at e
      simp only [List.cons_append, List.cons.injEq, true_and] at e
      exact absurd e.1.symm hd
  | cons x xs =>
    cases ys with
    | nil =>
      obtain ⟨d, t, h, hd⟩ := hc x
      rw [nil, form, h] at e
      simp only [List.cons_append, List.cons.injEq, true_and] at e
      exact absurd e.1 hd
    | cons y ys =>
      rw [form, form] at e
      simp only [List.cons.injEq, true_and] at e
      obtain ⟨rfl, e'⟩ := hE _ _ _ _ e
      have hE' : ∀ x y t u, (',' :: ' ' :: E x) ++ t = (',' :: ' ' :: E y) ++ u → x = y ∧ t = u := by
        intro x y t u e
        simp only [List.cons_append, List.cons.injEq, true_and] at e
        exact hE _ _ _ _ e
      rw [items_same (E := fun y => ',' :: ' ' :: E y) (c := '}') hE'
        (fun x => ⟨',', _, rfl, by decide⟩) e']

theorem indent_begins {f : Text} : ∃ t, indent true (f ++ [',', '\n']) = ' ' :: t := by
  cases f <;> exact ⟨_, rfl⟩

/-- Sets of items that can be read can be told apart. -/
theorem set_same {w : S → Printed} {b : Bool} (h : Readable (w · b))
    (hc : ∀ x, ∃ d t, w x b = d :: t ∧ d ≠ '}') {xs ys : List S}
    (e : items ['{'] (xs.map w) ['}'] b = items ['{'] (ys.map w) ['}'] b) : xs = ys := by
  cases b with
  | false =>
    rw [set_onLine, set_onLine] at e
    exact set_same_onLine h hc e
  | true =>
    cases xs with
    | nil =>
      cases ys with
      | nil => rfl
      | cons y ys => simp [items] at e
    | cons x xs =>
      cases ys with
      | nil => simp [items] at e
      | cons y ys =>
        have form : ∀ x (l : List S), items ['{'] ((x :: l).map w) ['}'] true =
            '{' :: '\n' :: ((x :: l).flatMap (fun y => indent true (w y true ++ [',', '\n'])) ++
              ['}']) := by
          intro x l
          simp [items, List.flatMap_map]
        rw [form, form] at e
        simp only [List.cons.injEq, true_and] at e
        exact items_same (item_readable h.delimited)
          (fun x => indent_begins.elim fun t ht => ⟨' ', t, ht, by decide⟩) e

theorem quad_begins (f : R → Printed) (b : Bool) (q : Quad R) :
    ∃ d t, quad f f f f q b = d :: t ∧ d ≠ '}' := by
  cases b
  · exact ⟨'Q', _, rfl, by decide⟩
  · exact ⟨'Q', _, rfl, by decide⟩

theorem triple_begins (f : R → Printed) (b : Bool) (t : Triple R) :
    ∃ d u, triple f f f t b = d :: u ∧ d ≠ '}' := by
  cases b
  · exact ⟨'T', _, rfl, by decide⟩
  · exact ⟨'T', _, rfl, by decide⟩

/-! ## Terms -/

theorem delimited_of_free {f : R → Text} (hi : ∀ a b, f a = f b → a = b)
    (hf : ∀ a, ',' ∉ f a ∧ ')' ∉ f a) : Spec.Delimited f := by
  have key : ∀ (l m : Text) (c d : Char) (t u : Text), c = ',' ∨ c = ')' → d = ',' ∨ d = ')' →
      ',' ∉ l ∧ ')' ∉ l → ',' ∉ m ∧ ')' ∉ m → l ++ c :: t = m ++ d :: u → l = m := by
    intro l
    induction l with
    | nil =>
      intro m c d t u hc hd _ hm e
      cases m with
      | nil => rfl
      | cons x m =>
        simp only [List.nil_append, List.cons_append, List.cons.injEq] at e
        simp only [List.mem_cons, not_or] at hm
        rcases hc with rfl | rfl
        · exact absurd e.1 hm.1.1
        · exact absurd e.1 hm.2.1
    | cons y l ih =>
      intro m c d t u hc hd hl hm e
      cases m with
      | nil =>
        simp only [List.nil_append, List.cons_append, List.cons.injEq] at e
        simp only [List.mem_cons, not_or] at hl
        rcases hd with rfl | rfl
        · exact absurd e.1.symm hl.1.1
        · exact absurd e.1.symm hl.2.1
      | cons x m =>
        simp only [List.cons_append, List.cons.injEq] at e
        simp only [List.mem_cons, not_or] at hl hm
        rw [e.1, ih m c d t u hc hd ⟨hl.1.2, hl.2.2⟩ ⟨hm.1.2, hm.2.2⟩ e.2]
  intro a b c d t u hc hd e
  exact hi a b (key _ _ c d t u hc hd (hf a) (hf b) e)

theorem container_ok {D : Type} {c : Container S D} {w : S → Printed} {d : D} {xs : List S}
    (h : c.iter d = .ok xs) : container c w d = .ok (items ['{'] (xs.map w) ['}']) := by
  unfold container
  rw [h]
  rfl

end Debugging

end RdfTypes
