import Verif.Model.PatternMatching

/-! # The pattern matching loop -/

set_option linter.unusedSectionVars false
set_option linter.unusedSimpArgs false

namespace RdfTypes

/-- Ascending, with possible repetitions. -/
def NonDecreasing (l : List Nat) : Prop := l.Pairwise (· ≤ ·)

theorem NatSet.Asc.nonDecreasing {l : NatSet} (h : l.Asc) : NonDecreasing l :=
  List.Pairwise.imp Nat.le_of_lt h

theorem mem_insertSorted {i n : Nat} {l : List Nat} :
    n ∈ insertSorted i l ↔ n = i ∨ n ∈ l := by
  induction l with
  | nil => simp [insertSorted]
  | cons j l ih =>
    unfold insertSorted
    split
    · simp
    · simp only [List.mem_cons, ih]
      grind

theorem nonDecreasing_insertSorted {i : Nat} {l : List Nat} (h : NonDecreasing l) :
    NonDecreasing (insertSorted i l) := by
  unfold NonDecreasing at h ⊢
  induction l with
  | nil => simp [insertSorted]
  | cons j l ih =>
    obtain ⟨h1, h2⟩ := List.pairwise_cons.1 h
    unfold insertSorted
    split
    · rename_i hij
      refine List.pairwise_cons.2 ⟨?_, h⟩
      intro n hn
      rcases List.mem_cons.1 hn with rfl | hn
      · exact hij
      · exact Nat.le_trans hij (h1 n hn)
    · refine List.pairwise_cons.2 ⟨?_, ih h2⟩
      intro n hn
      rcases mem_insertSorted.1 hn with rfl | hn
      · omega
      · exact h1 n hn

theorem mem_sortIndexes {n : Nat} {l : List Nat} : n ∈ sortIndexes l ↔ n ∈ l := by
  induction l with
  | nil => simp [sortIndexes]
  | cons j l ih => simp [sortIndexes, mem_insertSorted, ih]

theorem nonDecreasing_sortIndexes (l : List Nat) : NonDecreasing (sortIndexes l) := by
  induction l with
  | nil => simp [sortIndexes, NonDecreasing]
  | cons j l ih => exact nonDecreasing_insertSorted ih

theorem skipTo_spec {i : Nat} {l : List Nat} (h : NonDecreasing l) :
    NonDecreasing (skipTo i l) ∧ ∀ n, n ∈ skipTo i l ↔ n ∈ l ∧ i ≤ n := by
  induction l with
  | nil => simp [skipTo, NonDecreasing]
  | cons j l ih =>
    obtain ⟨h1, h2⟩ := List.pairwise_cons.1 h
    obtain ⟨i1, i2⟩ := ih h2
    unfold skipTo
    split
    · refine ⟨i1, fun n => ?_⟩
      rw [i2, List.mem_cons]
      grind
    · refine ⟨h, fun n => ?_⟩
      rw [List.mem_cons]
      constructor
      · intro hn
        refine ⟨hn, ?_⟩
        rcases hn with rfl | hn
        · omega
        · have := h1 n hn
          omega
      · exact And.left

/-! ## Constraints -/

/-- What a list of indexes left to visit becomes after a call about index `i`. -/
def SameFrom (i : Nat) (A A' : Nat → Prop) : Prop := ∀ n, i ≤ n → (A' n ↔ A n)

/-- The answer `r` about index `i` is right for the allowed keys `A`; `Key n` tells
which keys are in use. -/
def Answers (i : Nat) (Key A : Nat → Prop) : Except (Option Nat) Unit → Prop
  | .ok () => A i
  | .error none => ∀ n, i ≤ n → Key n → ¬ A n
  | .error (some j) => i < j ∧ ∀ n, i ≤ n → n < j → Key n → ¬ A n

theorem fixedNext_spec {i : Nat} {l : List Nat} (h : NonDecreasing l) (Key : Nat → Prop) :
    NonDecreasing (fixedNext i l).1 ∧ SameFrom i (· ∈ l) (· ∈ (fixedNext i l).1) ∧
      Answers i Key (· ∈ l) (fixedNext i l).2 := by
  obtain ⟨h1, h2⟩ := skipTo_spec (i := i) h
  unfold fixedNext
  cases hs : skipTo i l with
  | nil =>
    rw [hs] at h2
    refine ⟨by simp [NonDecreasing], ?_, ?_⟩
    · intro n hn
      have := h2 n
      simp at this
      simp
      intro hm
      have := this hm
      omega
    · intro n hn _ hm
      have := (h2 n).2 ⟨hm, hn⟩
      simp at this
  | cons j l' =>
    rw [hs] at h1 h2
    refine ⟨h1, ?_, ?_⟩
    · intro n hn
      show n ∈ j :: l' ↔ n ∈ l
      rw [h2]
      simp [hn]
    · have hj := (h2 j).1 (by simp)
      show Answers i Key (· ∈ l) (if j = i then .ok () else .error (some j))
      split
      · rename_i e
        subst e
        exact hj.1
      · rename_i hne
        refine ⟨by omega, ?_⟩
        intro n hn hnj _ hm
        have := (h2 n).2 ⟨hm, hn⟩
        rcases List.mem_cons.1 this with rfl | hl
        · omega
        · have := (List.pairwise_cons.1 h1).1 n hl
          omega

namespace SubjectConstraints

def Good : SubjectConstraints → Prop
  | .fixed l => NonDecreasing l
  | _ => True

def Allows : SubjectConstraints → Nat → Prop
  | .none, _ => False
  | .any, _ => True
  | .fixed l, n => n ∈ l

theorem next_spec {c : SubjectConstraints} (h : c.Good) (i : Nat) :
    (c.next i).1.Good ∧ SameFrom i c.Allows (c.next i).1.Allows ∧
    match (c.next i).2 with
    | Option.none => ∀ n, i ≤ n → ¬ c.Allows n
    | some j => i ≤ j ∧ c.Allows j ∧ ∀ n, i ≤ n → c.Allows n → j ≤ n := by
  cases c with
  | none => simp [next, Good, SameFrom, Allows]
  | any => simp [next, Good, SameFrom, Allows]
  | fixed l =>
    obtain ⟨h1, h2⟩ := skipTo_spec (i := i) h
    refine ⟨h1, ?_, ?_⟩
    · intro n hn
      show n ∈ skipTo i l ↔ n ∈ l
      rw [h2]
      simp [hn]
    · show match (skipTo i l).head? with
        | Option.none => ∀ n, i ≤ n → ¬ n ∈ l
        | some j => i ≤ j ∧ j ∈ l ∧ ∀ n, i ≤ n → n ∈ l → j ≤ n
      cases hs : skipTo i l with
      | nil =>
        intro n hn hm
        have := (h2 n).2 ⟨hm, hn⟩
        rw [hs] at this
        cases this
      | cons j l' =>
        rw [hs] at h1 h2
        have hj := (h2 j).1 (by simp)
        refine ⟨hj.2, hj.1, ?_⟩
        intro n hn hm
        rcases List.mem_cons.1 ((h2 n).2 ⟨hm, hn⟩) with rfl | hl
        · exact Nat.le_refl _
        · exact (List.pairwise_cons.1 h1).1 n hl

end SubjectConstraints

namespace PredicateConstraints

def Good : PredicateConstraints → Prop
  | .fixed l => NonDecreasing l
  | _ => True

def Allows : PredicateConstraints → Nat → (s p : Nat) → Prop
  | .none, _, _, _ => False
  | .any, _, _, _ => True
  | .sameAsSubject, _, s, p => s = p
  | .fixed l, n, _, _ => n ∈ l

theorem next_good {c : PredicateConstraints} (h : c.Good) (i s p : Nat) :
    (c.next i s p).1.Good ∧
    ∀ n, i ≤ n → ∀ s' p', (c.next i s p).1.Allows n s' p' ↔ c.Allows n s' p' := by
  cases c with
  | fixed l =>
    obtain ⟨h1, h2, -⟩ := fixedNext_spec (i := i) h (fun _ => True)
    exact ⟨h1, fun n hn _ _ => h2 n hn⟩
  | _ => simp [next, Good]

theorem next_answers {c : PredicateConstraints} (h : c.Good) {i s p : Nat}
    (S P : Nat → Nat) (Key : Nat → Prop) (hs : S i = s) (hp : P i = p) (hi : Key i) :
    Answers i Key (fun n => c.Allows n (S n) (P n)) (c.next i s p).2 := by
  subst hs hp
  cases c with
  | fixed l => exact (fixedNext_spec (i := i) h Key).2.2
  | none => intro n _ _ h; exact h
  | any => trivial
  | sameAsSubject =>
    simp only [next, sameNext, beq_iff_eq]
    split
    · assumption
    · rename_i hne
      refine ⟨by omega, ?_⟩
      intro n h1 h2 _
      have : n = i := by omega
      subst this
      exact hne

end PredicateConstraints

namespace ObjectConstraints

def Good : ObjectConstraints → Prop
  | .fixed l => NonDecreasing l
  | _ => True

def Allows : ObjectConstraints → Nat → (s p o : Nat) → Prop
  | .none, _, _, _, _ => False
  | .any, _, _, _, _ => True
  | .sameAsSubject, _, s, _, o => s = o
  | .sameAsPredicate, _, _, p, o => p = o
  | .fixed l, n, _, _, _ => n ∈ l

theorem next_good {c : ObjectConstraints} (h : c.Good) (i s p o : Nat) :
    (c.next i s p o).1.Good ∧
    ∀ n, i ≤ n → ∀ s' p' o', (c.next i s p o).1.Allows n s' p' o' ↔ c.Allows n s' p' o' := by
  cases c with
  | fixed l =>
    obtain ⟨h1, h2, -⟩ := fixedNext_spec (i := i) h (fun _ => True)
    exact ⟨h1, fun n hn _ _ _ => h2 n hn⟩
  | _ => simp [next, Good]

theorem next_answers {c : ObjectConstraints} (h : c.Good) {i s p o : Nat}
    (S P O : Nat → Nat) (Key : Nat → Prop) (hs : S i = s) (hp : P i = p) (ho : O i = o)
    (hi : Key i) :
    Answers i Key (fun n => c.Allows n (S n) (P n) (O n)) (c.next i s p o).2 := by
  subst hs hp ho
  cases c with
  | fixed l => exact (fixedNext_spec (i := i) h Key).2.2
  | none => intro n _ _ h; exact h
  | any => trivial
  | sameAsSubject =>
    simp only [next, sameNext, beq_iff_eq]
    split
    · assumption
    · rename_i hne
      refine ⟨by omega, ?_⟩
      intro n h1 h2 _
      have : n = i := by omega
      subst this
      exact hne
  | sameAsPredicate =>
    simp only [next, sameNext, beq_iff_eq]
    split
    · assumption
    · rename_i hne
      refine ⟨by omega, ?_⟩
      intro n h1 h2 _
      have : n = i := by omega
      subst this
      exact hne

end ObjectConstraints

namespace GraphConstraints

def Good : GraphConstraints → Prop
  | .fixed l => NonDecreasing l
  | _ => True

def Allows : GraphConstraints → Nat → Quad Nat → Prop
  | .none, _, _ => False
  | .any, _, _ => True
  | .sameAsSubject, _, q => some q.s = q.g
  | .sameAsPredicate, _, q => some q.p = q.g
  | .sameAsObject, _, q => some q.o = q.g
  | .fixed l, n, _ => n ∈ l

theorem next_good {c : GraphConstraints} (h : c.Good) (i : Nat) (q : Quad Nat) :
    (c.next i q).1.Good ∧
    ∀ n, i ≤ n → ∀ q', (c.next i q).1.Allows n q' ↔ c.Allows n q' := by
  cases c with
  | fixed l =>
    obtain ⟨h1, h2, -⟩ := fixedNext_spec (i := i) h (fun _ => True)
    exact ⟨h1, fun n hn _ => h2 n hn⟩
  | _ => simp [next, Good]

theorem next_answers {c : GraphConstraints} (h : c.Good) {i : Nat} {q : Quad Nat}
    (Q : Nat → Quad Nat) (Key : Nat → Prop) (hq : Q i = q) (hi : Key i) :
    Answers i Key (fun n => c.Allows n (Q n)) (c.next i q).2 := by
  subst hq
  cases c with
  | fixed l => exact (fixedNext_spec (i := i) h Key).2.2
  | none => intro n _ _ h; exact h
  | any => trivial
  | sameAsSubject =>
    simp only [next, sameNext, beq_iff_eq]
    split
    · assumption
    · rename_i hne
      refine ⟨by omega, ?_⟩
      intro n h1 h2 _
      have : n = i := by omega
      subst this
      exact hne
  | sameAsPredicate =>
    simp only [next, sameNext, beq_iff_eq]
    split
    · assumption
    · rename_i hne
      refine ⟨by omega, ?_⟩
      intro n h1 h2 _
      have : n = i := by omega
      subst this
      exact hne
  | sameAsObject =>
    simp only [next, sameNext, beq_iff_eq]
    split
    · assumption
    · rename_i hne
      refine ⟨by omega, ?_⟩
      intro n h1 h2 _
      have : n = i := by omega
      subst this
      exact hne

end GraphConstraints

/-! ## Kinds of constraints

What is known of the constraints of a search: `g` if some part of the pattern is
given, `r` if some part repeats another; the keys listed are in use. -/

section kind

variable {σ : Type} (get : Nat → Option σ) (g r : Prop)

def PredicateConstraints.Kind : PredicateConstraints → Prop
  | .none => g
  | .any => True
  | .sameAsSubject => r
  | .fixed l => g ∧ ∀ k ∈ l, get k ≠ Option.none

def ObjectConstraints.Kind : ObjectConstraints → Prop
  | .none => g
  | .any => True
  | .sameAsSubject | .sameAsPredicate => r
  | .fixed l => g ∧ ∀ k ∈ l, get k ≠ Option.none

def GraphConstraints.Kind : GraphConstraints → Prop
  | .none => g
  | .any => True
  | .sameAsSubject | .sameAsPredicate | .sameAsObject => r
  | .fixed l => g ∧ ∀ k ∈ l, get k ≠ Option.none

end kind

/-! ## Filters -/

/-- The statement stored at a key in use. -/
def At {σ : Type} (get : Nat → Option σ) (P : Nat → σ → Prop) (n : Nat) : Prop :=
  ∃ q, get n = some q ∧ P n q

/-- What the loop needs to know about the predicate, object and graph constraints. -/
structure FilterLaws {F σ : Type} (filter : Nat → σ → F → F × Except (Option Nat) Unit)
    (Good : F → Prop) (Allows : F → Nat → σ → Prop) : Prop where
  good : ∀ {f i q}, Good f → Good (filter i q f).1 ∧
    ∀ n, i ≤ n → ∀ q', Allows (filter i q f).1 n q' ↔ Allows f n q'
  answers : ∀ {f i q} {get : Nat → Option σ}, Good f → get i = some q →
    Answers i (fun n => ∃ q', get n = some q') (At get (Allows f)) (filter i q f).2

theorem Answers.imp_error {i : Nat} {Key A B : Nat → Prop} {j : Option Nat}
    (h : Answers i Key A (.error j)) (hBA : ∀ n, Key n → B n → A n) :
    Answers i Key B (.error j) := by
  cases j with
  | none => exact fun n hn hk hb => h n hn hk (hBA n hk hb)
  | some j => exact ⟨h.1, fun n hn hj hk hb => h.2 n hn hj hk (hBA n hk hb)⟩

theorem at_getD {σ : Type} {get : Nat → Option σ} {P : Nat → σ → Prop} {q : σ} {n : Nat}
    (h : At get P n) : P n ((get n).getD q) := by
  obtain ⟨q', hq, hp⟩ := h
  simpa [hq] using hp

namespace QuadFilter

def Good (f : QuadFilter) : Prop := f.predicate.Good ∧ f.object.Good ∧ f.graph.Good

def Allows (f : QuadFilter) (n : Nat) (q : Quad Nat) : Prop :=
  f.predicate.Allows n q.s q.p ∧ f.object.Allows n q.s q.p q.o ∧ f.graph.Allows n q

theorem laws : FilterLaws QuadFilter.next Good Allows where
  good := by
    intro f i q h
    obtain ⟨h1, h2, h3⟩ := h
    obtain ⟨p1, p2⟩ := PredicateConstraints.next_good h1 i q.s q.p
    obtain ⟨o1, o2⟩ := ObjectConstraints.next_good h2 i q.s q.p q.o
    obtain ⟨g1, g2⟩ := GraphConstraints.next_good h3 i q
    unfold QuadFilter.next
    generalize f.predicate.next i q.s q.p = P at *
    generalize f.object.next i q.s q.p q.o = O at *
    generalize f.graph.next i q = G at *
    obtain ⟨pc, pr⟩ := P
    obtain ⟨oc, or⟩ := O
    obtain ⟨gc, gr⟩ := G
    rcases pr with _ | _ <;> rcases or with _ | _ <;> rcases gr with _ | _ <;>
      simp_all +contextual [Good, Allows]
  answers := by
    intro f i q get h hq
    obtain ⟨h1, h2, h3⟩ := h
    have hk : (fun n => ∃ q', get n = some q') i := ⟨q, hq⟩
    have p3 := PredicateConstraints.next_answers h1 (i := i) (s := q.s) (p := q.p)
      (fun n => ((get n).getD q).s) (fun n => ((get n).getD q).p)
      (fun n => ∃ q', get n = some q') (by simp [hq]) (by simp [hq]) hk
    have o3 := ObjectConstraints.next_answers h2 (i := i) (s := q.s) (p := q.p) (o := q.o)
      (fun n => ((get n).getD q).s) (fun n => ((get n).getD q).p) (fun n => ((get n).getD q).o)
      (fun n => ∃ q', get n = some q') (by simp [hq]) (by simp [hq]) (by simp [hq]) hk
    have g3 := GraphConstraints.next_answers h3 (i := i) (q := q)
      (fun n => (get n).getD q) (fun n => ∃ q', get n = some q') (by simp [hq]) hk
    unfold QuadFilter.next
    generalize f.predicate.next i q.s q.p = P at *
    generalize f.object.next i q.s q.p q.o = O at *
    generalize f.graph.next i q = G at *
    obtain ⟨pc, pr⟩ := P
    obtain ⟨oc, or⟩ := O
    obtain ⟨gc, gr⟩ := G
    rcases pr with _ | _
    · exact p3.imp_error (fun n _ hb => (at_getD hb).1)
    · rcases or with _ | _
      · exact o3.imp_error (fun n _ hb => (at_getD hb).2.1)
      · rcases gr with _ | _
        · exact g3.imp_error (fun n _ hb => (at_getD hb).2.2)
        · simp only [Answers, hq, Option.getD_some] at p3 o3 g3
          exact ⟨q, hq, p3, o3, g3⟩

end QuadFilter

namespace TripleFilter

def Good (f : TripleFilter) : Prop := f.predicate.Good ∧ f.object.Good

def Allows (f : TripleFilter) (n : Nat) (q : Triple Nat) : Prop :=
  f.predicate.Allows n q.s q.p ∧ f.object.Allows n q.s q.p q.o

theorem laws : FilterLaws TripleFilter.next Good Allows where
  good := by
    intro f i q h
    obtain ⟨h1, h2⟩ := h
    obtain ⟨p1, p2⟩ := PredicateConstraints.next_good h1 i q.s q.p
    obtain ⟨o1, o2⟩ := ObjectConstraints.next_good h2 i q.s q.p q.o
    unfold TripleFilter.next
    generalize f.predicate.next i q.s q.p = P at *
    generalize f.object.next i q.s q.p q.o = O at *
    obtain ⟨pc, pr⟩ := P
    obtain ⟨oc, or⟩ := O
    rcases pr with _ | _ <;> rcases or with _ | _ <;> simp_all +contextual [Good, Allows]
  answers := by
    intro f i q get h hq
    obtain ⟨h1, h2⟩ := h
    have hk : (fun n => ∃ q', get n = some q') i := ⟨q, hq⟩
    have p3 := PredicateConstraints.next_answers h1 (i := i) (s := q.s) (p := q.p)
      (fun n => ((get n).getD q).s) (fun n => ((get n).getD q).p)
      (fun n => ∃ q', get n = some q') (by simp [hq]) (by simp [hq]) hk
    have o3 := ObjectConstraints.next_answers h2 (i := i) (s := q.s) (p := q.p) (o := q.o)
      (fun n => ((get n).getD q).s) (fun n => ((get n).getD q).p) (fun n => ((get n).getD q).o)
      (fun n => ∃ q', get n = some q') (by simp [hq]) (by simp [hq]) (by simp [hq]) hk
    unfold TripleFilter.next
    generalize f.predicate.next i q.s q.p = P at *
    generalize f.object.next i q.s q.p q.o = O at *
    obtain ⟨pc, pr⟩ := P
    obtain ⟨oc, or⟩ := O
    rcases pr with _ | _
    · exact p3.imp_error (fun n _ hb => (at_getD hb).1)
    · rcases or with _ | _
      · exact o3.imp_error (fun n _ hb => (at_getD hb).2)
      · simp only [Answers, hq, Option.getD_some] at p3 o3
        exact ⟨q, hq, p3, o3⟩

end TripleFilter

/-! ## The loop -/

namespace Matcher

variable {F σ : Type} {filter : Nat → σ → F → F × Except (Option Nat) Unit}
  {Good : F → Prop} {Allows : F → Nat → σ → Prop}

/-- Key `n`, holding `q`, satisfies all constraints. -/
def Accepts (Allows : F → Nat → σ → Prop) (m : Matcher F) (n : Nat) (q : σ) : Prop :=
  m.subject.Allows n ∧ Allows m.filter n q

def Ok (Good : F → Prop) (m : Matcher F) : Prop := m.subject.Good ∧ Good m.filter

/-- No vacant key is reached before an accepted one: the loop stops at vacant
keys. -/
def Live (Allows : F → Nat → σ → Prop) (get : Nat → Option σ) (m : Matcher F) : Prop :=
  ∀ n k q, m.i ≤ n → n ≤ k → m.subject.Allows n → get k = some q → m.Accepts Allows k q →
    get n ≠ none

/-- `m'` is `m` some steps later. -/
structure Later (Good : F → Prop) (Allows : F → Nat → σ → Prop) (m m' : Matcher F) : Prop where
  le : m.i ≤ m'.i
  ok : m'.Ok Good
  same : ∀ n q, m'.i ≤ n → (m'.Accepts Allows n q ↔ m.Accepts Allows n q)
  subj : ∀ n, m'.i ≤ n → (m'.subject.Allows n ↔ m.subject.Allows n)

theorem Later.refl {m : Matcher F} (h : m.Ok Good) : Later Good Allows m m :=
  ⟨Nat.le_refl _, h, fun _ _ _ => Iff.rfl, fun _ _ => Iff.rfl⟩

theorem Later.trans {a b c : Matcher F} (h : Later Good Allows a b) (h' : Later Good Allows b c) :
    Later Good Allows a c :=
  ⟨Nat.le_trans h.le h'.le, h'.ok,
    fun n q hn => (h'.same n q hn).trans (h.same n q (Nat.le_trans h'.le hn)),
    fun n hn => (h'.subj n hn).trans (h.subj n (Nat.le_trans h'.le hn))⟩

theorem Later.live {get : Nat → Option σ} {m m' : Matcher F} (h : Later Good Allows m m')
    (hl : Live Allows get m) : Live Allows get m' := by
  intro n k q hn hk hs hq ha
  exact hl n k q (Nat.le_trans h.le hn) hk ((h.subj n hn).1 hs) hq
    ((h.same k q (Nat.le_trans hn hk)).1 ha)

/-- What a call to `next` returns. -/
def NextSpec (Good : F → Prop) (Allows : F → Nat → σ → Prop) (get : Nat → Option σ)
    (m : Matcher F) : Option (Nat × σ) × Matcher F → Prop
  | (some (i, q), m') => m.i ≤ i ∧ get i = some q ∧ m.Accepts Allows i q ∧ m'.i = i + 1 ∧
      Later Good Allows m m' ∧
      (∀ n q', m.i ≤ n → n < i → get n = some q' → ¬ m.Accepts Allows n q')
  | (none, _) => Live Allows get m →
      ∀ n q, m.i ≤ n → get n = some q → ¬ m.Accepts Allows n q

theorem loop_spec (L : FilterLaws filter Good Allows) {get : Nat → Option σ} {cap : Nat}
    (hcap : ∀ n q, get n = some q → n < cap) :
    ∀ (fuel : Nat) (m : Matcher F), m.Ok Good → cap ≤ m.i + fuel →
    ∃ r, m.loop get filter cap fuel = .ok r ∧ NextSpec Good Allows get m r := by
  intro fuel
  induction fuel with
  | zero =>
    intro m hm hf
    refine ⟨(none, m), ?_, ?_⟩
    · have : ¬ m.i < cap := by omega
      simp [loop, this]
    · intro _ n q hn hq
      have := hcap n q hq
      omega
  | succ fuel ih =>
    intro m hm hf
    unfold loop
    by_cases hi : m.i < cap
    · simp only [hi, if_true]
      obtain ⟨s1, s2, s3⟩ := SubjectConstraints.next_spec hm.1 m.i
      generalize m.subject.next m.i = S at *
      obtain ⟨s, o⟩ := S
      cases o with
      | none =>
        refine ⟨_, rfl, ?_⟩
        intro _ n q hn _ ha
        exact s3 n hn ha.1
      | some i =>
        obtain ⟨hle, hai, hmin⟩ := s3
        simp only at s1 s2
        cases hg : get i with
        | none =>
          refine ⟨_, by simp only [hg]; rfl, ?_⟩
          intro hl n q hn hq ha
          exact hl i n q hle (hmin n hn ha.1) hai hq ha hg
        | some q =>
          obtain ⟨f1, f2⟩ := L.good (i := i) (q := q) hm.2
          have f3 := L.answers (i := i) (q := q) hm.2 hg
          cases hF : filter i q m.filter with
          | mk f r =>
          simp only [hF, hg] at f1 f2 f3 ⊢
          -- nothing before `i` is accepted
          have hbefore : ∀ n q', m.i ≤ n → n < i → get n = some q' → ¬ m.Accepts Allows n q' := by
            intro n q' hn hni _ ha
            have := hmin n hn ha.1
            omega
          have hlater : ∀ j, i ≤ j → Later Good Allows m ⟨s, f, j⟩ := by
            intro j hj
            refine ⟨Nat.le_trans hle hj, ⟨s1, f1⟩, ?_, ?_⟩
            · intro n q' hn
              simp only at hn
              exact and_congr (s2 n (by omega)) (f2 n (by omega) q')
            · intro n hn
              simp only at hn
              exact s2 n (by omega)
          rcases r with j | u
          · cases j with
            | none =>
              refine ⟨_, rfl, ?_⟩
              intro _ n q' hn hq' ha
              by_cases hni : n < i
              · exact hbefore n q' hn hni hq' ha
              · exact f3 n (by omega) ⟨q', hq'⟩ ⟨q', hq', ha.2⟩
            | some j =>
              obtain ⟨hij, hno⟩ := f3
              have hl := hlater j (by omega)
              obtain ⟨r, e, hr⟩ := ih ⟨s, f, j⟩ hl.ok (by simp only; omega)
              refine ⟨r, e, ?_⟩
              have hskip : ∀ n q', m.i ≤ n → n < j → get n = some q' →
                  ¬ m.Accepts Allows n q' := by
                intro n q' hn hnj hq' ha
                by_cases hni : n < i
                · exact hbefore n q' hn hni hq' ha
                · exact hno n (by omega) hnj ⟨q', hq'⟩ ⟨q', hq', ha.2⟩
              obtain ⟨o, m'⟩ := r
              cases o with
              | none =>
                intro hlive n q' hn hq' ha
                by_cases hnj : n < j
                · exact hskip n q' hn hnj hq' ha
                · exact hr (hl.live hlive) n q' (by simp only; omega) hq'
                    ((hl.same n q' (by simp only; omega)).2 ha)
              | some x =>
                obtain ⟨k, q''⟩ := x
                obtain ⟨r1, r2, r3, r4, r5, r6⟩ := hr
                simp only at r1
                refine ⟨by omega, r2, (hl.same k q'' r1).1 r3, r4, hl.trans r5, ?_⟩
                intro n q' hn hnk hq' ha
                by_cases hnj : n < j
                · exact hskip n q' hn hnj hq' ha
                · exact r6 n q' (by simp only; omega) hnk hq'
                    ((hl.same n q' (by simp only; omega)).2 ha)
          · obtain ⟨q', hq', hall⟩ := f3
            rw [hg] at hq'
            cases hq'
            exact ⟨(some (i, q), ⟨s, f, i + 1⟩), rfl, hle, hg, ⟨hai, hall⟩, rfl,
              hlater (i + 1) (by omega), hbefore⟩
    · simp only [hi, if_false]
      refine ⟨_, rfl, ?_⟩
      intro _ n q hn hq
      have := hcap n q hq
      omega

/-- The common form of the `matchNext` functions. -/
def nextWith {X : Type} (get : Nat → Option σ)
    (filter : Nat → σ → F → F × Except (Option Nat) Unit) (cap : Nat) (read : σ → Res X)
    (m : Matcher F) : Res (Option X × Matcher F) := do
  match ← m.loop get filter cap cap with
  | (none, m') => pure (none, m')
  | (some (_, q), m') => do
    let x ← read q
    pure (some x, m')

variable {X : Type}

theorem nextWith_spec (L : FilterLaws filter Good Allows) {get : Nat → Option σ} {cap : Nat}
    (hcap : ∀ n q, get n = some q → n < cap) {read : σ → Res X} {V : Nat → Option X}
    (hread : ∀ n q, get n = some q → ∃ x, read q = .ok x ∧ V n = some x)
    {m : Matcher F} (hm : m.Ok Good) :
    ∃ o m', nextWith get filter cap read m = .ok (o, m') ∧
      match o with
      | some x => ∃ i q, V i = some x ∧ NextSpec Good Allows get m (some (i, q), m')
      | none => NextSpec Good Allows get m (none, m') := by
  obtain ⟨⟨o, m'⟩, e, hr⟩ := loop_spec L hcap cap m hm (by omega)
  unfold nextWith
  rw [e]
  cases o with
  | none => exact ⟨none, m', rfl, hr⟩
  | some p =>
    obtain ⟨i, q⟩ := p
    obtain ⟨x, hx, hv⟩ := hread i q hr.2.1
    exact ⟨some x, m', by simp [hx, bind, Except.bind, pure, Except.pure], i, q, hv, hr⟩

/-- Running a pattern matching iterator to its end visits keys in ascending order. -/
theorem collectAll_spec (L : FilterLaws filter Good Allows) {get : Nat → Option σ} {cap : Nat}
    (hcap : ∀ n q, get n = some q → n < cap) {read : σ → Res X} {V : Nat → Option X}
    (hread : ∀ n q, get n = some q → ∃ x, read q = .ok x ∧ V n = some x) :
    ∀ (fuel : Nat) (m : Matcher F), m.Ok Good → m.i ≤ cap → cap < m.i + fuel →
    ∃ xs ks, collectAll (nextWith get filter cap read) fuel m = .ok xs ∧
      ks.map V = xs.map some ∧ NatSet.Asc ks ∧
      (∀ k ∈ ks, m.i ≤ k ∧ ∃ q, get k = some q ∧ m.Accepts Allows k q) ∧
      (Live Allows get m → ∀ k q, m.i ≤ k → get k = some q → m.Accepts Allows k q → k ∈ ks) := by
  intro fuel
  induction fuel with
  | zero =>
    intro m hm hi hf
    omega
  | succ fuel ih =>
    intro m hm hi hf
    obtain ⟨o, m', e, hr⟩ := nextWith_spec L hcap hread hm
    cases o with
    | none =>
      refine ⟨[], [], by simp [collectAll, e, bind, Except.bind, pure, Except.pure], rfl,
        NatSet.asc_nil, by simp, ?_⟩
      intro hl k q hk hq ha
      exact absurd ha (hr hl k q hk hq)
    | some x =>
      obtain ⟨i, q, hv, h1, h2, h3, h4, h5, h6⟩ := hr
      obtain ⟨xs, ks, e', hmap, hasc, hin, hall⟩ := ih m' h5.ok (by
        have := hcap i q h2
        omega) (by omega)
      refine ⟨x :: xs, i :: ks, ?_, by simp [hv, hmap], ?_, ?_, ?_⟩
      · simp [collectAll, e, e', bind, Except.bind, pure, Except.pure]
      · refine List.pairwise_cons.2 ⟨?_, hasc⟩
        intro k hk
        have := (hin k hk).1
        omega
      · intro k hk
        rcases List.mem_cons.1 hk with rfl | hk
        · exact ⟨h1, q, h2, h3⟩
        · obtain ⟨hk1, q', hk2, hk3⟩ := hin k hk
          exact ⟨Nat.le_trans h5.le hk1, q', hk2, (h5.same k q' hk1).1 hk3⟩
      · intro hl k q' hk hq' ha
        rcases Nat.lt_trichotomy k i with hlt | rfl | hgt
        · exact absurd ha (h6 k q' hk hlt hq')
        · exact List.mem_cons_self
        · exact List.mem_cons_of_mem _ (hall (h5.live hl) k q' (by omega) hq'
            ((h5.same k q' (by omega)).2 ha))

end Matcher

end RdfTypes
