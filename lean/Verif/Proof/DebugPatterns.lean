import Verif.Spec.DebugPatterns
import Verif.Proof.DebugTerms
import Verif.Proof.Pattern

/-!
# Proofs about the `Debug` output of patterns
-/

namespace RdfTypes

namespace Debugging

variable {R X A Y : Type}

/-- The last word of a pattern. -/
def final (f : X → Printed) : Text × Option X → Printed
  | (w, none) => fun _ => w
  | (w, some x) => items (w ++ ['(']) [f x] [')']

/-- A word around what is given and the words after it. -/
def node (f : R → Printed) : Text × Option R → Printed → Printed
  | (w, none), e => items (w ++ ['(']) [e] [')']
  | (w, some r), e => items (w ++ ['(']) [f r, e] [')']

theorem triplePattern_eq (f : R → Printed) (p : CanonicalTriplePattern R) : triplePattern f p =
    node f (Spec.subjectWord p.subject) (node f (Spec.predicateWord p.predicate)
      (final f (Spec.objectWord p.object))) := by
  rcases p with (o | o | ⟨_, o⟩) | ⟨_, (o | ⟨_, o⟩)⟩ <;> cases o <;> rfl

theorem quadPattern_eq (f : R → Printed) (p : CanonicalQuadPattern R) : quadPattern f p =
    node f (Spec.subjectWord p.subject) (node f (Spec.predicateWord p.predicate)
      (node f (Spec.objectWord p.object) (final (option f) (Spec.graphWord p.graph)))) := by
  rcases p with (o | o | ⟨_, o⟩) | ⟨_, (o | ⟨_, o⟩)⟩ <;> cases o <;> rename_i g <;> cases g <;> rfl

/-! ## One line -/

theorem final_onLine (f : X → Printed) (s : Text × Option X) :
    final f s false = Spec.lastOnLine (f · false) s := by
  rcases s with ⟨w, _ | x⟩ <;> simp [final, Spec.lastOnLine, items]

theorem node_onLine (f : R → Printed) (s : Text × Option R) (e : Printed)
    (l : List (Text × Option R)) (t : Text) (h : e false = Spec.wordsOnLine (f · false) l t) :
    node f s e false = Spec.wordsOnLine (f · false) (s :: l) t := by
  rcases s with ⟨w, _ | x⟩ <;> simp [node, Spec.wordsOnLine, items, h]

theorem option_onLine (f : R → Printed) (g : Option R) :
    option f g false = Spec.graphOnLine (f · false) g := by
  cases g <;> simp [option, items, Spec.graphOnLine]

/-! ## Lines -/

theorem items2_lines {o : Text} (ho : '\n' ∉ o) (x y : Printed) :
    Spec.linesOf (items (o ++ ['(']) [x, y] [')'] true) =
      [o ++ ['(']] ++ Spec.shifted 4 (Spec.closed (Spec.linesOf (x true))) ++
        Spec.shifted 4 (Spec.closed (Spec.linesOf (y true))) ++ [[')']] := by
  have : items (o ++ ['(']) [x, y] [')'] true =
      ended ([o ++ ['(']] ++ Spec.shifted 4 (Spec.closed (Spec.linesOf (x true))) ++
        Spec.shifted 4 (Spec.closed (Spec.linesOf (y true)))) ++ [')'] := by
    simp [items, indent_item, ended]
  rw [this, linesOf_ended]
  · intro z hz
    rcases List.mem_append.1 hz with hz | hz
    · rcases List.mem_append.1 hz with hz | hz
      · simp only [List.mem_singleton] at hz
        subst hz
        simpa using ho
      · exact item_line _ z hz
    · exact item_line _ z hz
  · simp

theorem final_lines (f : X → Printed) {s : Text × Option X} (hs : '\n' ∉ s.1) :
    Spec.linesOf (final f s true) = Spec.lastLines (fun x => Spec.linesOf (f x true)) s := by
  rcases s with ⟨w, _ | x⟩
  · exact line_only hs
  · exact items_lines hs _

theorem node_lines (f : R → Printed) {s : Text × Option R} (hs : '\n' ∉ s.1) (e : Printed)
    (l : List (Text × Option R)) (t : List Text)
    (h : Spec.linesOf (e true) = Spec.wordsLines (fun r => Spec.linesOf (f r true)) l t) :
    Spec.linesOf (node f s e true) =
      Spec.wordsLines (fun r => Spec.linesOf (f r true)) (s :: l) t := by
  rcases s with ⟨w, _ | x⟩
  · rw [Spec.wordsLines, ← h]
    exact items_lines hs _
  · rw [Spec.wordsLines, ← h]
    exact items2_lines hs _ _

theorem option_own_lines (f : R → Printed) (g : Option R) :
    Spec.linesOf (option f g true) = Spec.nameLines (fun r => Spec.linesOf (f r true)) g := by
  cases g with
  | none => exact line_only (t := ['N', 'o', 'n', 'e']) (by decide)
  | some g => exact items_lines (o := ['S', 'o', 'm', 'e']) (by decide) _

/-! ## Telling patterns apart -/

/-- Characters that are in no word; all but the last can follow one. -/
def follows : Text := ['(', ',', ')', '\n']

theorem word_same {l m t u : Text} {c d : Char} (hl : ∀ x ∈ l, x ∉ follows)
    (hm : ∀ x ∈ m, x ∉ follows) (hc : c ∈ follows) (hd : d ∈ follows)
    (e : l ++ c :: t = m ++ d :: u) : l = m ∧ c = d ∧ t = u := by
  induction l generalizing m with
  | nil =>
    cases m with
    | nil => simpa using e
    | cons x m =>
      simp only [List.nil_append, List.cons_append, List.cons.injEq] at e
      exact absurd (e.1 ▸ hc) (hm x (by simp))
  | cons y l ih =>
    cases m with
    | nil =>
      simp only [List.nil_append, List.cons_append, List.cons.injEq] at e
      exact absurd (e.1 ▸ hd) (hl y (by simp))
    | cons x m =>
      simp only [List.cons_append, List.cons.injEq] at e
      obtain ⟨e1, e2⟩ := ih (fun z hz => hl z (by simp [hz])) (fun z hz => hm z (by simp [hz])) e.2
      exact ⟨by rw [e.1, e1], e2⟩

/-- Words that tell whether something is given. -/
structure Slots (sl : A → Text × Option R) : Prop where
  word : ∀ a, ∀ x ∈ (sl a).1, x ∉ follows
  given : ∀ a b, (sl a).1 = (sl b).1 → (sl a).2.isSome = (sl b).2.isSome
  inj : ∀ a b, sl a = sl b → a = b

theorem items_begin (w : Text) (l : List Printed) (b : Bool) :
    ∃ t, items ['('] l [')'] b = '(' :: t ∧ items (w ++ ['(']) l [')'] b = w ++ '(' :: t := by
  cases l with
  | nil => exact ⟨_, rfl, by simp [items]⟩
  | cons x l => cases b <;> exact ⟨_, rfl, by simp [items]⟩

theorem pair_readable {f : R → Printed} {h : Y → Printed} {b : Bool}
    (hf : Spec.Delimited (f · b)) (hh : Spec.Delimited (h · b)) {r r' : R} {y y' : Y} {t u : Text}
    (e : items ['('] [f r, h y] [')'] b ++ t = items ['('] [f r', h y'] [')'] b ++ u) :
    r = r' ∧ y = y' ∧ t = u := by
  cases b with
  | false =>
    simp only [items, Bool.false_eq_true, if_false, List.flatMap_cons, List.flatMap_nil,
      List.append_nil, List.append_assoc, List.cons_append, List.nil_append, List.cons.injEq,
      true_and] at e
    obtain ⟨rfl, -, e⟩ := Delimited.same hf (.inl rfl) (.inl rfl) e
    simp only [List.cons.injEq, true_and] at e
    obtain ⟨rfl, -, e⟩ := Delimited.same hh (.inr rfl) (.inr rfl) e
    exact ⟨rfl, rfl, e⟩
  | true =>
    simp only [items, if_true, List.flatMap_cons, List.flatMap_nil,
      List.append_nil, List.append_assoc, List.cons_append, List.nil_append, List.cons.injEq,
      true_and] at e
    obtain ⟨rfl, e1⟩ := item_readable hf _ _ _ _ e
    obtain ⟨rfl, e2⟩ := item_readable hh _ _ _ _ e1
    exact ⟨rfl, rfl, by simpa using e2⟩

theorem node_readable {sl : A → Text × Option R} (hs : Slots sl) {f : R → Printed}
    {h : Y → Printed} {b : Bool} (hf : Spec.Delimited (f · b)) (hh : Spec.Delimited (h · b)) :
    Readable fun x : A × Y => node f (sl x.1) (h x.2) b := by
  rintro ⟨a, y⟩ ⟨a', y'⟩ t u e
  have hw := hs.word a
  have hw' := hs.word a'
  have hg := hs.given a a'
  have hi := hs.inj a a'
  dsimp only at e
  generalize sl a = s at *
  generalize sl a' = s' at *
  have begins : ∀ (w w' : Text) (l l' : List Printed), (∀ x ∈ w, x ∉ follows) →
      (∀ x ∈ w', x ∉ follows) →
      items (w ++ ['(']) l [')'] b ++ t = items (w' ++ ['(']) l' [')'] b ++ u →
      w = w' ∧ items ['('] l [')'] b ++ t = items ['('] l' [')'] b ++ u := by
    intro w w' l l' hw hw' e
    obtain ⟨v, e1, e2⟩ := items_begin w l b
    obtain ⟨v', e3, e4⟩ := items_begin w' l' b
    rw [e2, e4, List.append_assoc, List.append_assoc] at e
    obtain ⟨h1, -, h2⟩ := word_same hw hw' (by simp [follows]) (by simp [follows]) e
    exact ⟨h1, by rw [e1, e3]; exact congrArg ('(' :: ·) h2⟩
  rcases s with ⟨w, _ | r⟩ <;> rcases s' with ⟨w', _ | r'⟩ <;> simp only [node] at e
  · obtain ⟨e1, e2⟩ := begins w w' _ _ hw hw' e
    obtain ⟨rfl, e3⟩ := call_readable hh _ _ _ _ _ e2
    subst e1
    exact ⟨by rw [hi rfl], e3⟩
  · obtain ⟨e1, -⟩ := begins w w' _ _ hw hw' e
    cases hg e1
  · obtain ⟨e1, -⟩ := begins w w' _ _ hw hw' e
    cases hg e1
  · obtain ⟨e1, e2⟩ := begins w w' _ _ hw hw' e
    obtain ⟨rfl, rfl, e3⟩ := pair_readable hf hh e2
    subst e1
    exact ⟨by rw [hi rfl], e3⟩

theorem final_delimited {sl : A → Text × Option X} (hs : Slots sl) {f : X → Printed} {b : Bool}
    (hf : Spec.Delimited (f · b)) : Spec.Delimited fun a => final f (sl a) b := by
  intro a a' c d t u hc hd e
  have hw := hs.word a
  have hw' := hs.word a'
  have hg := hs.given a a'
  have hi := hs.inj a a'
  have hc' : c ∈ follows := by rcases hc with rfl | rfl <;> decide
  have hd' : d ∈ follows := by rcases hd with rfl | rfl <;> decide
  have ho : '(' ∈ follows := by decide
  dsimp only at e
  generalize sl a = s at *
  generalize sl a' = s' at *
  rcases s with ⟨w, _ | x⟩ <;> rcases s' with ⟨w', _ | x'⟩
  · obtain ⟨e1, -⟩ := word_same hw hw' hc' hd' e
    exact hi (Prod.ext e1 rfl)
  · obtain ⟨v, -, e2⟩ := items_begin w' [f x'] b
    rw [final, final, e2, List.append_assoc] at e
    obtain ⟨e1, -⟩ := word_same hw hw' hc' ho e
    cases hg e1
  · obtain ⟨v, -, e2⟩ := items_begin w [f x] b
    rw [final, final, e2, List.append_assoc] at e
    obtain ⟨e1, -⟩ := word_same hw hw' ho hd' e
    cases hg e1
  · obtain ⟨v, e1, e2⟩ := items_begin w [f x] b
    obtain ⟨v', e3, e4⟩ := items_begin w' [f x'] b
    rw [final, final, e2, e4, List.append_assoc, List.append_assoc] at e
    obtain ⟨h1, -, h2⟩ := word_same hw hw' ho ho e
    have h3 : items ['('] [f x] [')'] b ++ c :: t = items ['('] [f x'] [')'] b ++ d :: u := by
      rw [e1, e3]
      exact congrArg ('(' :: ·) h2
    obtain ⟨rfl, -⟩ := call_readable hf _ _ _ _ _ h3
    exact hi (Prod.ext h1 rfl)

theorem subject_slots : Slots (Spec.subjectWord (R := R)) where
  word a := by cases a <;> simp [Spec.subjectWord, follows]
  given a b := by cases a <;> cases b <;> simp [Spec.subjectWord]
  inj a b := by cases a <;> cases b <;> simp [Spec.subjectWord]

theorem predicate_slots : Slots (Spec.predicateWord (R := R)) where
  word a := by cases a <;> simp [Spec.predicateWord, follows]
  given a b := by cases a <;> cases b <;> simp [Spec.predicateWord]
  inj a b := by cases a <;> cases b <;> simp [Spec.predicateWord]

theorem object_slots : Slots (Spec.objectWord (R := R)) where
  word a := by cases a <;> simp [Spec.objectWord, follows]
  given a b := by cases a <;> cases b <;> simp [Spec.objectWord]
  inj a b := by cases a <;> cases b <;> simp [Spec.objectWord]

theorem graph_slots : Slots (Spec.graphWord (R := R)) where
  word a := by cases a <;> simp [Spec.graphWord, follows]
  given a b := by cases a <;> cases b <;> simp [Spec.graphWord]
  inj a b := by cases a <;> cases b <;> simp [Spec.graphWord]

theorem Slots.line {sl : A → Text × Option R} (h : Slots sl) (a : A) : '\n' ∉ (sl a).1 :=
  fun hm => h.word a _ hm (by decide)

theorem quadPattern_readable {f : R → Printed} {b : Bool} (h : Spec.Delimited (f · b)) :
    Readable (quadPattern f · b) := by
  have h4 := final_delimited graph_slots (option_readable h).delimited
  have h3 := (node_readable object_slots h h4).delimited
  have h2 := (node_readable predicate_slots h h3).delimited
  have h1 := node_readable subject_slots h h2
  intro x y t u e
  dsimp only at e
  rw [quadPattern_eq, quadPattern_eq] at e
  obtain ⟨e1, e2⟩ := h1 (x.subject, x.predicate, x.object, x.graph)
    (y.subject, y.predicate, y.object, y.graph) _ _ e
  simp only [Prod.mk.injEq] at e1
  exact ⟨Proof.quad_parts_inj e1.1 e1.2.1 e1.2.2.1 e1.2.2.2, e2⟩

theorem triplePattern_readable {f : R → Printed} {b : Bool} (h : Spec.Delimited (f · b)) :
    Readable (triplePattern f · b) := by
  have h3 := final_delimited object_slots h
  have h2 := (node_readable predicate_slots h h3).delimited
  have h1 := node_readable subject_slots h h2
  intro x y t u e
  dsimp only at e
  rw [triplePattern_eq, triplePattern_eq] at e
  obtain ⟨e1, e2⟩ := h1 (x.subject, x.predicate, x.object) (y.subject, y.predicate, y.object) _ _ e
  simp only [Prod.mk.injEq] at e1
  exact ⟨Proof.triple_parts_inj e1.1 e1.2.1 e1.2.2, e2⟩

theorem resourceOrVar_readable {f : R → Printed} {fx : X → Printed} {b : Bool}
    (h : Spec.Delimited (f · b)) (hx : Spec.Delimited (fx · b)) :
    Readable (resourceOrVar f fx · b) := by
  intro x y t u e
  cases x with
  | resource i =>
    cases y with
    | resource j =>
      obtain ⟨rfl, e1⟩ := call_readable h _ _ _ _ _ e
      exact ⟨rfl, e1⟩
    | var j => cases b <;> simp [resourceOrVar, items] at e
  | var i =>
    cases y with
    | resource j => cases b <;> simp [resourceOrVar, items] at e
    | var j =>
      obtain ⟨rfl, e1⟩ := call_readable hx _ _ _ _ _ e
      exact ⟨rfl, e1⟩

end Debugging

end RdfTypes
