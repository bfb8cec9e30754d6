import Verif.Spec.DebugTerms
import Verif.Proof.Debugging

/-!
# Proofs about the `Debug` output of terms
-/

namespace RdfTypes

namespace Debugging

variable {I L S : Type}

/-! ## Hexadecimal numbers -/

theorem digitChar_inj : ∀ a < 16, ∀ b < 16, Nat.digitChar a = Nat.digitChar b → a = b := by
  decide

theorem hex_form (n : Nat) : ∃ l, Nat.toDigits 16 n = l ++ [Nat.digitChar (n % 16)] ∧
    (n < 16 → l = []) ∧ (16 ≤ n → l = Nat.toDigits 16 (n / 16)) := by
  by_cases h : n < 16
  · exact ⟨[], by rw [Nat.toDigits_of_lt_base h, Nat.mod_eq_of_lt h]; rfl, fun _ => rfl,
      fun h' => by omega⟩
  · exact ⟨_, Nat.toDigits_of_base_le (by decide) (by omega), fun h' => absurd h' h, fun _ => rfl⟩

theorem hex_inj (m : Nat) : ∀ n, Nat.toDigits 16 m = Nat.toDigits 16 n → m = n := by
  induction m using Nat.strongRecOn with
  | ind m ih =>
    intro n e
    obtain ⟨l, hl, l1, l2⟩ := hex_form m
    obtain ⟨k, hk, k1, k2⟩ := hex_form n
    rw [hl, hk] at e
    obtain ⟨e1, e2⟩ := List.append_inj' e rfl
    have hd := digitChar_inj _ (Nat.mod_lt m (by decide)) _ (Nat.mod_lt n (by decide)) (by simpa using e2)
    have ne : ∀ x, Nat.toDigits 16 x ≠ [] := fun x => Nat.toDigits_ne_nil
    by_cases hm : m < 16
    · by_cases hn : n < 16
      · omega
      · have := k2 (by omega)
        rw [← e1, l1 hm] at this
        exact absurd this.symm (ne _)
    · by_cases hn : n < 16
      · have := l2 (by omega)
        rw [e1, k1 hn] at this
        exact absurd this.symm (ne _)
      · have h := ih (m / 16) (by omega) (n / 16) (by rw [← l2 (by omega), ← k2 (by omega), e1])
        omega

theorem digitChar_mem : ∀ a < 16, Nat.digitChar a ∈
    ['0', '1', '2', '3', '4', '5', '6', '7', '8', '9', 'a', 'b', 'c', 'd', 'e', 'f'] := by
  decide

theorem hex_mem (n : Nat) : ∀ c ∈ Nat.toDigits 16 n, c ∈
    ['0', '1', '2', '3', '4', '5', '6', '7', '8', '9', 'a', 'b', 'c', 'd', 'e', 'f'] := by
  induction n using Nat.strongRecOn with
  | ind n ih =>
    intro c hc
    obtain ⟨l, hl, l1, l2⟩ := hex_form n
    rw [hl, List.mem_append, List.mem_singleton] at hc
    rcases hc with hc | rfl
    · by_cases hn : n < 16
      · rw [l1 hn] at hc
        cases hc
      · rw [l2 (by omega)] at hc
        exact ih (n / 16) (by omega) c hc
    · exact digitChar_mem _ (Nat.mod_lt n (by decide))

/-- A text up to a character that is not in it. -/
theorem upto_same {l m t u : Text} {c : Char} (hl : c ∉ l) (hm : c ∉ m)
    (e : l ++ c :: t = m ++ c :: u) : l = m ∧ t = u := by
  induction l generalizing m with
  | nil =>
    cases m with
    | nil => simpa using e
    | cons x m =>
      simp only [List.nil_append, List.cons_append, List.cons.injEq] at e
      exact absurd (e.1 ▸ List.mem_cons_self) hm
  | cons y l ih =>
    cases m with
    | nil =>
      simp only [List.nil_append, List.cons_append, List.cons.injEq] at e
      exact absurd (e.1 ▸ List.mem_cons_self) hl
    | cons x m =>
      simp only [List.cons_append, List.cons.injEq] at e
      simp only [List.mem_cons, not_or] at hl hm
      obtain ⟨e1, e2⟩ := ih hl.2 hm.2 e.2
      exact ⟨by rw [e.1, e1], e2⟩

/-! ## Strings -/

/-- The ways a character is written. -/
theorem char_cases (plain : Char → Bool) (c : Char) :
    (∃ k, char plain c = ['\\', k] ∧ k ≠ 'u' ∧ (k, c) ∈ [('0', '\x00'), ('t', '\t'), ('r', '\r'),
      ('n', '\n'), ('\\', '\\'), ('"', '"')]) ∨
    (char plain c = [c] ∧ c ≠ '\\' ∧ c ≠ '"' ∧ c ≠ '\n' ∧ plain c = true) ∨
    char plain c = '\\' :: 'u' :: '{' :: (Nat.toDigits 16 c.toNat ++ ['}']) := by
  unfold char
  split
  · next h => subst h; exact .inl ⟨'0', rfl, by decide, by decide⟩
  split
  · next h => subst h; exact .inl ⟨'t', rfl, by decide, by decide⟩
  split
  · next h => subst h; exact .inl ⟨'r', rfl, by decide, by decide⟩
  split
  · next h => subst h; exact .inl ⟨'n', rfl, by decide, by decide⟩
  split
  · next h => subst h; exact .inl ⟨'\\', rfl, by decide, by decide⟩
  split
  · next h => subst h; exact .inl ⟨'"', rfl, by decide, by decide⟩
  split
  · next h0 h1 h2 h3 h4 h5 h6 => exact .inr (.inl ⟨rfl, h4, h5, h3, h6⟩)
  · exact .inr (.inr rfl)

theorem char_readable (plain : Char → Bool) : Readable (char plain) := by
  intro c d t u e
  have brace : ∀ n, '}' ∉ Nat.toDigits 16 n := fun n h => by
    have := hex_mem n _ h
    revert this
    decide
  rcases char_cases plain c with ⟨k, hc, hk, mc⟩ | ⟨hc, c1, -⟩ | hc <;>
    rcases char_cases plain d with ⟨k', hd, hk', md⟩ | ⟨hd, d1, -⟩ | hd <;>
    rw [hc, hd] at e <;>
    simp only [List.cons_append, List.nil_append, List.cons.injEq, true_and,
      List.append_assoc] at e
  · obtain ⟨rfl, e⟩ := e
    refine ⟨?_, e⟩
    have : ∀ x ∈ [('0', '\x00'), ('t', '\t'), ('r', '\r'), ('n', '\n'), ('\\', '\\'), ('"', '"')],
        ∀ y ∈ [('0', '\x00'), ('t', '\t'), ('r', '\r'), ('n', '\n'), ('\\', '\\'), ('"', '"')],
        x.1 = y.1 → x.2 = y.2 := by decide
    exact this _ mc _ md rfl
  · exact absurd e.1.symm d1
  · exact absurd e.1 hk
  · exact absurd e.1 c1
  · exact e
  · exact absurd e.1 c1
  · exact absurd e.1.symm hk'
  · exact absurd e.1.symm d1
  · obtain ⟨e1, e2⟩ := upto_same (brace _) (brace _) e
    have := hex_inj _ _ e1
    exact ⟨Char.toNat_inj.1 this, e2⟩

theorem char_begins (plain : Char → Bool) (c : Char) : ∃ d t, char plain c = d :: t ∧ d ≠ '"' := by
  rcases char_cases plain c with ⟨k, hc, -⟩ | ⟨hc, -, h, -⟩ | hc
  · exact ⟨_, _, hc, by decide⟩
  · exact ⟨_, _, hc, h⟩
  · exact ⟨_, _, hc, by decide⟩

theorem str_readable (plain : Char → Bool) (b : Bool) : Readable (str plain · b) := by
  intro x y t u e
  simp only [str, List.cons_append, List.append_assoc, List.nil_append, List.cons.injEq,
    true_and] at e
  induction x generalizing y with
  | nil =>
    cases y with
    | nil => simpa using e
    | cons d y =>
      obtain ⟨k, r, h, hk⟩ := char_begins plain d
      simp only [List.flatMap_nil, List.flatMap_cons, List.nil_append, List.cons_append, h,
        List.cons.injEq] at e
      exact absurd e.1.symm hk
  | cons c x ih =>
    cases y with
    | nil =>
      obtain ⟨k, r, h, hk⟩ := char_begins plain c
      simp only [List.flatMap_nil, List.flatMap_cons, List.nil_append, List.cons_append, h,
        List.cons.injEq] at e
      exact absurd e.1 hk
    | cons d y =>
      simp only [List.flatMap_cons, List.append_assoc] at e
      obtain ⟨rfl, e'⟩ := char_readable plain _ _ _ _ e
      obtain ⟨rfl, e''⟩ := ih _ e'
      exact ⟨rfl, e''⟩

theorem str_mem {plain : Char → Bool} {s : Text} {b : Bool} {c : Char} (h : c ∈ str plain s b) :
    (c ∈ s ∧ plain c = true ∧ c ≠ '\n') ∨ (0x20 ≤ c.toNat ∧ c.toNat < 0x7F) := by
  simp only [str, List.mem_cons, List.mem_append, List.mem_flatMap, List.not_mem_nil, or_false] at h
  rcases h with rfl | ⟨d, hd, h⟩ | rfl
  · exact .inr (by decide)
  · rcases char_cases plain d with ⟨k, e, -, m⟩ | ⟨e, -, -, h1, h2⟩ | e <;> rw [e] at h
    · right
      have : ∀ x ∈ [('0', '\x00'), ('t', '\t'), ('r', '\r'), ('n', '\n'), ('\\', '\\'), ('"', '"')],
        0x20 ≤ x.1.toNat ∧ x.1.toNat < 0x7F := by decide
      simp only [List.mem_cons, List.not_mem_nil, or_false] at h
      rcases h with rfl | rfl
      · decide
      · exact this _ m
    · simp only [List.mem_singleton] at h
      subst h
      exact .inl ⟨hd, h2, h1⟩
    · right
      simp only [List.mem_cons, List.mem_append, List.not_mem_nil, or_false] at h
      rcases h with rfl | rfl | rfl | h | rfl
      · decide
      · decide
      · decide
      · have := hex_mem _ _ h
        have key : ∀ x ∈ ['0', '1', '2', '3', '4', '5', '6', '7', '8', '9', 'a', 'b', 'c', 'd',
            'e', 'f'], 0x20 ≤ x.toNat ∧ x.toNat < 0x7F := by decide
        exact key _ this
      · decide
  · exact .inr (by decide)

theorem str_line (plain : Char → Bool) (s : Text) (b : Bool) : '\n' ∉ str plain s b := by
  intro h
  rcases str_mem h with ⟨-, -, h⟩ | ⟨h, -⟩
  · exact h rfl
  · revert h; decide

theorem char_quoted (plain : Char → Bool) (c : Char) :
    char plain c = Spec.quotedChar plain c := by
  unfold char Spec.quotedChar Spec.backslashed
  by_cases h0 : c = '\x00'
  · subst h0; rfl
  by_cases h1 : c = '\t'
  · subst h1; rfl
  by_cases h2 : c = '\r'
  · subst h2; rfl
  by_cases h3 : c = '\n'
  · subst h3; rfl
  by_cases h4 : c = '\\'
  · subst h4; rfl
  by_cases h5 : c = '"'
  · subst h5; rfl
  have b : ∀ d, c ≠ d → (c == d) = false := fun d h => by simpa using h
  simp only [h0, h1, h2, h3, h4, h5, if_false, List.lookup, b _ h0, b _ h1, b _ h2, b _ h3, b _ h4,
    b _ h5]
  simp

theorem str_quoted (plain : Char → Bool) (s : Text) (b : Bool) :
    str plain s b = Spec.quoted plain s := by
  unfold str Spec.quoted
  rw [show char plain = Spec.quotedChar plain from funext (char_quoted plain)]
  simp

/-! ## Calls -/

theorem items_onLine (o : Text) (x : Printed) : items (o ++ ['(']) [x] [')'] false =
    Spec.called o (x false) := by
  simp [items, Spec.called]

theorem items_lines {o : Text} (ho : '\n' ∉ o) (x : Printed) :
    Spec.linesOf (items (o ++ ['(']) [x] [')'] true) =
      Spec.calledLines o (Spec.linesOf (x true)) := by
  have : items (o ++ ['(']) [x] [')'] true =
      ended ([o ++ ['(']] ++ Spec.shifted 4 (Spec.closed (Spec.linesOf (x true)))) ++ [')'] := by
    simp [items, indent_item, ended]
  rw [this, linesOf_ended]
  · rfl
  · intro y hy
    rcases List.mem_append.1 hy with hy | hy
    · simp only [List.mem_singleton] at hy
      subst hy
      simpa using ho
    · exact item_line _ y hy
  · simp

/-- A call of a fixed name can be read. -/
theorem call_readable {f : S → Printed} {b : Bool} (h : Spec.Delimited (f · b)) (o : Text) :
    Readable fun x => items o [f x] [')'] b := by
  intro x y t u e
  cases b with
  | false =>
    simp only [items, Bool.false_eq_true, if_false, List.flatMap_nil, List.append_nil,
      List.append_assoc, List.cons_append, List.nil_append, List.append_cancel_left_eq] at e
    obtain ⟨rfl, -, e1⟩ := Delimited.same h (.inr rfl) (.inr rfl) e
    exact ⟨rfl, e1⟩
  | true =>
    simp only [items, if_true, List.flatMap_cons, List.flatMap_nil, List.append_nil,
      List.append_assoc, List.cons_append, List.nil_append, List.append_cancel_left_eq,
      List.cons.injEq, true_and] at e
    obtain ⟨rfl, e1⟩ := item_readable h _ _ _ _ e
    exact ⟨rfl, by simpa using e1⟩

theorem literalType_readable {fi : I → Printed} {ft : L → Printed} {b : Bool}
    (hi : Spec.Delimited (fi · b)) (ht : Spec.Delimited (ft · b)) :
    Readable (literalType fi ft · b) := by
  intro x y t u e
  cases x with
  | any i =>
    cases y with
    | any j =>
      obtain ⟨rfl, e1⟩ := call_readable hi _ _ _ _ _ e
      exact ⟨rfl, e1⟩
    | langString j => cases b <;> simp [literalType, items] at e
  | langString i =>
    cases y with
    | any j => cases b <;> simp [literalType, items] at e
    | langString j =>
      obtain ⟨rfl, e1⟩ := call_readable ht _ _ _ _ _ e
      exact ⟨rfl, e1⟩

theorem prefixed_readable {E : S → Text} (h : Readable E) (p : Text) :
    Readable fun x => p ++ E x := by
  intro x y t u e
  simp only [List.append_assoc, List.append_cancel_left_eq] at e
  exact h x y t u e

theorem literal_readable {borrowed : Bool} {plain : Char → Bool} {fi : I → Printed}
    {ft : L → Printed} {b : Bool} (hi : Spec.Delimited (fi · b)) (ht : Spec.Delimited (ft · b)) :
    Readable (literal borrowed plain fi ft · b) := by
  intro x y t u e
  obtain ⟨v, k⟩ := x
  obtain ⟨v', k'⟩ := y
  have hs := str_readable plain b
  have hk := literalType_readable hi ht
  cases b with
  | false =>
    simp only [literal, fields, Bool.false_eq_true, if_false, List.flatMap_nil, List.flatMap_cons,
      List.append_nil, List.append_assoc, List.cons_append, List.nil_append,
      List.append_cancel_left_eq, List.cons.injEq, true_and] at e
    obtain ⟨rfl, e1⟩ := hs _ _ _ _ e
    simp only [List.cons.injEq, true_and] at e1
    obtain ⟨rfl, e2⟩ := hk _ _ _ _ e1
    exact ⟨rfl, by simpa using e2⟩
  | true =>
    have hs' := item_readable (prefixed_readable hs ['v', 'a', 'l', 'u', 'e', ':', ' ']).delimited
    have hk' := item_readable (prefixed_readable hk ['t', 'y', 'p', 'e', '_', ':', ' ']).delimited
    simp only [literal, fields, if_true, List.flatMap_nil, List.flatMap_cons, List.append_nil,
      List.append_assoc, List.append_cancel_left_eq, List.cons_append, List.cons.injEq,
      true_and, List.nil_append] at e
    obtain ⟨rfl, e1⟩ := hs' v v' _ _ e
    obtain ⟨rfl, e2⟩ := hk' k k' _ _ e1
    exact ⟨rfl, by simpa using e2⟩

theorem term_readable {borrowed : Bool} {plain : Char → Bool} {fi : I → Printed}
    {ft : L → Printed} {b : Bool} (hi : Spec.Delimited (fi · b)) (ht : Spec.Delimited (ft · b)) :
    Readable (term borrowed plain fi ft · b) := by
  intro x y t u e
  cases x with
  | iri i =>
    cases y with
    | iri j =>
      obtain ⟨rfl, e1⟩ := call_readable hi _ _ _ _ _ e
      exact ⟨rfl, e1⟩
    | literal j => cases b <;> simp [term, items] at e
  | literal i =>
    cases y with
    | iri j => cases b <;> simp [term, items] at e
    | literal j =>
      obtain ⟨rfl, e1⟩ := call_readable (literal_readable hi ht).delimited _ _ _ _ _ e
      exact ⟨rfl, e1⟩

theorem localTerm_readable {borrowed : Bool} {plain : Char → Bool} {fi : I → Printed}
    {ft : L → Printed} {b : Bool} (hi : Spec.Delimited (fi · b)) (ht : Spec.Delimited (ft · b)) :
    Readable (localTerm borrowed plain fi ft · b) := by
  intro x y t u e
  cases x with
  | anonymous i =>
    cases y with
    | anonymous j =>
      obtain ⟨rfl, e1⟩ := call_readable (str_readable plain b).delimited _ _ _ _ _ e
      exact ⟨rfl, e1⟩
    | named j => cases b <;> simp [localTerm, items] at e
  | named i =>
    cases y with
    | anonymous j => cases b <;> simp [localTerm, items] at e
    | named j =>
      obtain ⟨rfl, e1⟩ := call_readable (term_readable hi ht).delimited _ _ _ _ _ e
      exact ⟨rfl, e1⟩

theorem idRef_readable {plain : Char → Bool} {fi : I → Printed} {b : Bool}
    (hi : Spec.Delimited (fi · b)) : Readable (idRef plain fi · b) := by
  intro x y t u e
  cases x with
  | blankId i =>
    cases y with
    | blankId j =>
      obtain ⟨rfl, e1⟩ := call_readable (str_readable plain b).delimited _ _ _ _ _ e
      exact ⟨rfl, e1⟩
    | iri j => cases b <;> simp [idRef, items] at e
  | iri i =>
    cases y with
    | blankId j => cases b <;> simp [idRef, items] at e
    | iri j =>
      obtain ⟨rfl, e1⟩ := call_readable hi _ _ _ _ _ e
      exact ⟨rfl, e1⟩

/-! ## One line -/

theorem literalName_eq (borrowed : Bool) : ['L', 'i', 't', 'e', 'r', 'a', 'l'] ++
    (if borrowed then ['R', 'e', 'f'] else []) = Spec.literalName borrowed := by
  cases borrowed <;> rfl

theorem literalType_onLine (fi : I → Printed) (ft : L → Printed) (x : LiteralType I L) :
    literalType fi ft x false = Spec.typeOnLine (fi · false) (ft · false) x := by
  cases x
  · exact items_onLine ['A', 'n', 'y'] _
  · exact items_onLine ['L', 'a', 'n', 'g', 'S', 't', 'r', 'i', 'n', 'g'] _

theorem literal_onLine (borrowed : Bool) (plain : Char → Bool) (fi : I → Printed)
    (ft : L → Printed) (x : Literal I L) : literal borrowed plain fi ft x false =
      Spec.literalOnLine borrowed plain (fi · false) (ft · false) x := by
  unfold literal Spec.literalOnLine
  rw [literalName_eq]
  simp [fields, str_quoted, literalType_onLine]

theorem term_onLine (borrowed : Bool) (plain : Char → Bool) (fi : I → Printed)
    (ft : L → Printed) (x : Term I L) : term borrowed plain fi ft x false =
      Spec.termOnLine borrowed plain (fi · false) (ft · false) x := by
  cases x with
  | iri i => exact items_onLine ['I', 'r', 'i'] _
  | literal x =>
    exact (items_onLine ['L', 'i', 't', 'e', 'r', 'a', 'l'] _).trans
      (congrArg _ (literal_onLine borrowed plain fi ft x))

theorem localTerm_onLine (borrowed : Bool) (plain : Char → Bool) (fi : I → Printed)
    (ft : L → Printed) (x : LocalTerm Text I L) : localTerm borrowed plain fi ft x false =
      Spec.localOnLine borrowed plain (fi · false) (ft · false) x := by
  cases x with
  | anonymous b =>
    exact (items_onLine ['A', 'n', 'o', 'n', 'y', 'm', 'o', 'u', 's'] _).trans
      (congrArg _ (str_quoted plain b false))
  | named x =>
    exact (items_onLine ['N', 'a', 'm', 'e', 'd'] _).trans
      (congrArg _ (term_onLine borrowed plain fi ft x))

theorem idRef_onLine (plain : Char → Bool) (fi : I → Printed) (x : Id Text I) :
    idRef plain fi x false = Spec.idOnLine plain (fi · false) x := by
  cases x with
  | blankId b =>
    exact (items_onLine ['B', 'l', 'a', 'n', 'k', 'I', 'd'] _).trans
      (congrArg _ (str_quoted plain b false))
  | iri i => exact items_onLine ['I', 'r', 'i'] _

/-! ## Lines -/

theorem line_only {t : Text} (h : '\n' ∉ t) : Spec.linesOf t = [t] := by
  have := linesOf_append h [] (x := []) (l := []) rfl
  simpa using this

theorem str_lines (plain : Char → Bool) (s : Text) (b : Bool) :
    Spec.linesOf (str plain s b) = [Spec.quoted plain s] := by
  rw [line_only (str_line plain s b), str_quoted]

theorem literalType_lines (fi : I → Printed) (ft : L → Printed) (x : LiteralType I L) :
    Spec.linesOf (['t', 'y', 'p', 'e', '_', ':', ' '] ++ literalType fi ft x true) =
      Spec.typeLines (fi · true) (ft · true) x := by
  have form : ∀ (o : Text) (p : Printed), ['t', 'y', 'p', 'e', '_', ':', ' '] ++
      items o [p] [')'] true = items (['t', 'y', 'p', 'e', '_', ':', ' '] ++ o) [p] [')'] true := by
    intro o p
    simp [items]
  cases x
  · rw [literalType, form]
    exact items_lines (o := ['t', 'y', 'p', 'e', '_', ':', ' ', 'A', 'n', 'y']) (by decide) _
  · rw [literalType, form]
    exact items_lines (o := ['t', 'y', 'p', 'e', '_', ':', ' ', 'L', 'a', 'n', 'g', 'S', 't', 'r',
      'i', 'n', 'g']) (by decide) _

theorem literal_lines (borrowed : Bool) (plain : Char → Bool) (fi : I → Printed)
    (ft : L → Printed) (x : Literal I L) : Spec.linesOf (literal borrowed plain fi ft x true) =
      Spec.literalLines borrowed plain (fi · true) (ft · true) x := by
  have hv : '\n' ∉ ['v', 'a', 'l', 'u', 'e', ':', ' '] ++ str plain x.value true := by
    simpa using str_line plain x.value true
  have e : literal borrowed plain fi ft x true =
      ended ([Spec.literalName borrowed ++ [' ', '{']] ++
        Spec.shifted 4 (Spec.closed (Spec.linesOf
          (['v', 'a', 'l', 'u', 'e', ':', ' '] ++ str plain x.value true))) ++
        Spec.shifted 4 (Spec.closed (Spec.linesOf
          (['t', 'y', 'p', 'e', '_', ':', ' '] ++ literalType fi ft x.type_ true)))) ++ ['}'] := by
    unfold literal
    rw [literalName_eq]
    simp only [fields, if_true, List.flatMap_cons, List.flatMap_nil]
    rw [show ∀ t : Text, ['v', 'a', 'l', 'u', 'e'] ++ ':' :: ' ' :: t ++ [',', '\n'] =
        ['v', 'a', 'l', 'u', 'e', ':', ' '] ++ t ++ [',', '\n'] from fun _ => rfl,
      show ∀ t : Text, ['t', 'y', 'p', 'e', '_'] ++ ':' :: ' ' :: t ++ [',', '\n'] =
        ['t', 'y', 'p', 'e', '_', ':', ' '] ++ t ++ [',', '\n'] from fun _ => rfl,
      indent_item, indent_item]
    simp [ended]
  rw [e, linesOf_ended, literalType_lines, line_only hv, str_quoted]
  · simp [Spec.literalLines, Spec.closed, Spec.shifted]
  · intro y hy
    simp only [List.mem_append, List.mem_singleton] at hy
    rcases hy with (rfl | hy) | hy
    · cases borrowed <;> decide
    · exact item_line _ y hy
    · exact item_line _ y hy
  · decide

theorem term_lines (borrowed : Bool) (plain : Char → Bool) (fi : I → Printed)
    (ft : L → Printed) (x : Term I L) : Spec.linesOf (term borrowed plain fi ft x true) =
      Spec.lonelyLines borrowed plain (fi · true) (ft · true) x := by
  cases x with
  | iri i => exact items_lines (o := ['I', 'r', 'i']) (by decide) _
  | literal x =>
    exact (items_lines (o := ['L', 'i', 't', 'e', 'r', 'a', 'l']) (by decide) _).trans
      (congrArg _ (literal_lines borrowed plain fi ft x))

theorem localTerm_lines (borrowed : Bool) (plain : Char → Bool) (fi : I → Printed)
    (ft : L → Printed) (x : LocalTerm Text I L) :
    Spec.linesOf (localTerm borrowed plain fi ft x true) =
      Spec.localLines borrowed plain (fi · true) (ft · true) x := by
  cases x with
  | anonymous b =>
    exact (items_lines (o := ['A', 'n', 'o', 'n', 'y', 'm', 'o', 'u', 's']) (by decide) _).trans
      (congrArg _ (str_lines plain b true))
  | named x =>
    exact (items_lines (o := ['N', 'a', 'm', 'e', 'd']) (by decide) _).trans
      (congrArg _ (term_lines borrowed plain fi ft x))

theorem idRef_lines (plain : Char → Bool) (fi : I → Printed) (x : Id Text I) :
    Spec.linesOf (idRef plain fi x true) = Spec.idLines plain (fi · true) x := by
  cases x with
  | blankId b =>
    exact (items_lines (o := ['B', 'l', 'a', 'n', 'k', 'I', 'd']) (by decide) _).trans
      (congrArg _ (str_lines plain b true))
  | iri i => exact items_lines (o := ['I', 'r', 'i']) (by decide) _

end Debugging

end RdfTypes
