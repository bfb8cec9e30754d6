import Verif.Proof.Matcher
import Verif.Proof.RemoveGraph
import Verif.Proof.Pattern
import Verif.Spec.Pattern

/-! # Constraints made from a pattern -/

set_option linter.unusedSectionVars false
set_option linter.unusedSimpArgs false

namespace RdfTypes

variable {R : Type} [Ord R] [Std.TransOrd R] [Std.LawfulEqOrd R]

section generic

variable {σ S : Type} [Ord S] [Std.TransOrd S] [Std.LawfulEqOrd S] {sh : Shape σ S R}
variable {res : Slab (IndexedResource R)} {ridx : Index} {st : Slab σ} {sidx : Index}

/-- The slot holds a listed term satisfying `P`. -/
def SlotIn (res : Slab (IndexedResource R)) (ridx : Index) (P : R → Prop) (i : Nat) : Prop :=
  i ∈ ridx ∧ ∃ r, (indexOps R).val res i = some r ∧ P r

/-- The list holds, in order, keys of statements with a term satisfying `P` at
position `p`, all of them if the table has no duplicates; in general, those whose
slot is listed. -/
structure Finds (sh : Shape σ S R) (res : Slab (IndexedResource R)) (ridx : Index) (st : Slab σ)
    (p : Pos) (P : R → Prop) (l : List Nat) : Prop where
  sorted : NonDecreasing l
  sound : ∀ k, k ∈ l → ∃ y r, sh.sval (indexOps R) res st k = some y ∧ sh.compV y p = some r ∧ P r
  complete : (indexOps R).Clean res ridx → ∀ k y r,
    sh.sval (indexOps R) res st k = some y → sh.compV y p = some r → P r → k ∈ l
  slots : ∀ k q, st.get k = some q → (k ∈ l ↔ ∃ i, sh.comp q p = some i ∧ SlotIn res ridx P i)

theorem Finds.live {p : Pos} {P : R → Prop} {l : List Nat} (h : Finds sh res ridx st p P l)
    {k : Nat} (hk : k ∈ l) : ∃ q, st.get k = some q := by
  obtain ⟨y, r, hy, -⟩ := h.sound k hk
  unfold Shape.sval at hy
  cases hq : st.get k with
  | none => simp [hq] at hy
  | some q => exact ⟨q, rfl⟩

theorem Finds.occ {p : Pos} {P : R → Prop} {l : List Nat} (h : Finds sh res ridx st p P l) :
    ∀ k ∈ l, st.get k ≠ none := by
  intro k hk
  obtain ⟨q, hq⟩ := h.live hk
  simp [hq]

/-- What looking up a resource finds. -/
theorem Inv.lookup_spec (H : ShapeLaws sh) (h : Inv sh (indexOps R) IndexRep res ridx st sidx)
    {o : Option Nat} {r : R}
    (ho : ∀ i, o = some i ↔ i ∈ ridx ∧ (indexOps R).val res i = some r) (p : Pos) :
    Finds sh res ridx st p (· = r) (match o.bind res.get with
      | some x => x.at_ p
      | none => []) := by
  have sound : ∀ i x, o = some i → res.get i = some x → ∀ k, k ∈ x.at_ p →
      ∃ y r', sh.sval (indexOps R) res st k = some y ∧ sh.compV y p = some r' ∧ r' = r := by
    intro i x hi hx k hk
    obtain ⟨hm, hv⟩ := (ho i).1 hi
    obtain ⟨q, hq, hc⟩ := ((h.table.rep i x hx p).2 k).1 hk
    obtain ⟨y, hy⟩ := h.sval_exists H hq
    obtain ⟨q', hq', hcomp⟩ := Shape.sval_comp H hy
    rw [hq] at hq'
    cases hq'
    have := hcomp p
    simp only [hc] at this
    obtain ⟨r', hr', hy'⟩ := this
    rw [hv] at hr'
    cases hr'
    exact ⟨y, r, hy, hy', rfl⟩
  have complete : (indexOps R).Clean res ridx → ∀ k y, sh.sval (indexOps R) res st k = some y →
      sh.compV y p = some r → ∃ i x, o = some i ∧ res.get i = some x ∧ k ∈ x.at_ p := by
    intro hc k y hy hr
    obtain ⟨q, hq, hcomp⟩ := Shape.sval_comp H hy
    have := hcomp p
    cases hi : sh.comp q p with
    | none =>
      simp only [hi] at this
      rw [this] at hr
      cases hr
    | some i =>
      simp only [hi] at this
      obtain ⟨r', hr', hy'⟩ := this
      rw [hr] at hy'
      cases hy'
      cases hx : res.get i with
      | none => simp [ResOps.val, hx] at hr'
      | some x =>
        refine ⟨i, x, (ho i).2 ⟨hc i r hr', hr'⟩, hx, ?_⟩
        exact ((h.table.rep i x hx p).2 k).2 ⟨q, hq, hi⟩
  constructor
  · cases o with
    | none => simp [NonDecreasing]
    | some i =>
      cases hx : res.get i with
      | none => simp [NonDecreasing, hx]
      | some x =>
        simp only [Option.bind_some, hx]
        exact (h.table.rep i x hx p).1.nonDecreasing
  · intro k hk
    cases o with
    | none => simp at hk
    | some i =>
      cases hx : res.get i with
      | none => simp [hx] at hk
      | some x =>
        simp only [Option.bind_some, hx] at hk
        exact sound i x rfl hx k hk
  · intro hc k y r' hy hr e
    cases e
    obtain ⟨i, x, rfl, hx, hk⟩ := complete hc k y hy hr
    simpa [hx] using hk
  · intro k q hq
    have hs : ∀ i, SlotIn res ridx (· = r) i ↔ o = some i := by
      intro i
      rw [ho i]
      refine and_congr_right fun _ => ?_
      constructor
      · rintro ⟨r', hr', rfl⟩
        exact hr'
      · exact fun hr' => ⟨r, hr', rfl⟩
    simp only [hs]
    cases o with
    | none => simp
    | some i =>
      have hv := ((ho i).1 rfl).2
      cases hx : res.get i with
      | none => simp [ResOps.val, hx] at hv
      | some x =>
        simp only [Option.bind_some, hx]
        rw [(h.table.rep i x hx p).2 k]
        constructor
        · rintro ⟨q', hq', hc⟩
          rw [hq] at hq'
          cases hq'
          exact ⟨i, hc, rfl⟩
        · rintro ⟨j, hc, e⟩
          cases e
          exact ⟨q, hq, hc⟩

/-- `load` reads, for any type of constraints, the keys found at position `p` for
terms satisfying `P`. -/
def Loads (sh : Shape σ S R) (res : Slab (IndexedResource R)) (ridx : Index) (st : Slab σ)
    (p : Pos) (P : R → Prop) (load : (C : Type) → C → (List Nat → C) → Res C) : Prop :=
  (∃ l, Finds sh res ridx st p P l ∧ ∀ C n f, load C n f = .ok (f l)) ∨
  (Finds sh res ridx st p P [] ∧ ∀ C n f, load C n f = .ok n)

variable {get : R → Res (Option (IndexedResource R))}

/-- The lookup function of the container. -/
def Looks (get : R → Res (Option (IndexedResource R))) (res : Slab (IndexedResource R))
    (ridx : Index) : Prop :=
  ∀ r, ∃ o, get r = .ok (o.bind res.get) ∧
    ∀ i, o = some i ↔ i ∈ ridx ∧ (indexOps R).val res i = some r

theorem fixedOf_loads (H : ShapeLaws sh) (h : Inv sh (indexOps R) IndexRep res ridx st sidx)
    (hget : Looks get res ridx) (p : Pos) (r : R) :
    Loads sh res ridx st p (· = r) (fun _ n f => fixedOf get n f p r) := by
  obtain ⟨o, e, ho⟩ := hget r
  have hf := h.lookup_spec H ho p
  cases hx : o.bind res.get with
  | none =>
    right
    rw [hx] at hf
    exact ⟨hf, fun C n f => by simp [fixedOf, e, hx, bind, Except.bind, pure, Except.pure]⟩
  | some x =>
    left
    rw [hx] at hf
    exact ⟨_, hf, fun C n f => by simp [fixedOf, e, hx, bind, Except.bind, pure, Except.pure]⟩

theorem multiIndexes_spec (H : ShapeLaws sh) (h : Inv sh (indexOps R) IndexRep res ridx st sidx)
    (hget : Looks get res ridx) (p : Pos) (rs : List R) :
    ∃ l, multiIndexes get p rs = .ok l ∧ Finds sh res ridx st p (· ∈ rs) (sortIndexes l) := by
  induction rs with
  | nil => exact ⟨[], rfl, by simp [sortIndexes, NonDecreasing], by simp [sortIndexes], by simp,
      by simp [sortIndexes, SlotIn]⟩
  | cons r rs ih =>
    obtain ⟨l, e, hl⟩ := ih
    obtain ⟨o, e', ho⟩ := hget r
    have hf := h.lookup_spec H ho p
    refine ⟨_, by simp only [multiIndexes, e, e', bind, Except.bind, pure, Except.pure]; rfl, ?_⟩
    constructor
    · exact nonDecreasing_sortIndexes _
    · intro k hk
      rw [mem_sortIndexes, List.mem_append] at hk
      rcases hk with hk | hk
      · obtain ⟨y, r', h1, h2, h3⟩ := hf.sound k hk
        exact ⟨y, r', h1, h2, by simp [h3]⟩
      · obtain ⟨y, r', h1, h2, h3⟩ := hl.sound k (mem_sortIndexes.2 hk)
        exact ⟨y, r', h1, h2, by simp [h3]⟩
    · intro hc k y r' h1 h2 h3
      rw [mem_sortIndexes, List.mem_append]
      rcases List.mem_cons.1 h3 with e | h3
      · exact Or.inl (hf.complete hc k y r' h1 h2 e)
      · exact Or.inr (mem_sortIndexes.1 (hl.complete hc k y r' h1 h2 h3))
    · intro k q hq
      rw [mem_sortIndexes, List.mem_append]
      refine (or_congr (hf.slots k q hq)
        ((mem_sortIndexes (l := l)).symm.trans (hl.slots k q hq))).trans ?_
      simp only [SlotIn, List.mem_cons]
      grind

theorem fixedOfMulti_loads (H : ShapeLaws sh) (h : Inv sh (indexOps R) IndexRep res ridx st sidx)
    (hget : Looks get res ridx) (p : Pos) (rs : List R) :
    Loads sh res ridx st p (· ∈ rs) (fun _ n f => fixedOfMulti get n f p rs) := by
  obtain ⟨l, e, hl⟩ := multiIndexes_spec H h hget p rs
  cases l with
  | nil =>
    right
    exact ⟨hl, fun C n f => by simp [fixedOfMulti, e, bind, Except.bind, pure, Except.pure]⟩
  | cons a l =>
    left
    exact ⟨_, hl, fun C n f => by simp [fixedOfMulti, e, bind, Except.bind, pure, Except.pure]⟩

/-! ## Parts of patterns, where `I` says which terms an annotation stands for -/

variable {α : Type}

/-- What a subject part demands. -/
def SubjectIn (I : α → R → Prop) : PatternSubject α → R → Prop
  | .any, _ => True
  | .given a, s => I a s

def PredicateIn (I : α → R → Prop) : PatternPredicate α → (s p : R) → Prop
  | .any, _, _ => True
  | .sameAsSubject, s, p => p = s
  | .given a, _, p => I a p

def ObjectIn (I : α → R → Prop) : PatternObject α → (s p o : R) → Prop
  | .any, _, _, _ => True
  | .sameAsSubject, s, _, o => o = s
  | .sameAsPredicate, _, p, o => o = p
  | .given a, _, _, o => I a o

def GraphIn (I : α → R → Prop) : PatternGraph α → Quad R → Prop
  | .any, _ => True
  | .sameAsSubject, q => q.g = some q.s
  | .sameAsPredicate, q => q.g = some q.p
  | .sameAsObject, q => q.g = some q.o
  | .given (some a), q => ∃ g, q.g = some g ∧ I a g
  | .given none, q => q.g = none

/-- `Allowed` stands for `Wanted` on the statements of the table. -/
structure Right (sh : Shape σ S R) (res : Slab (IndexedResource R)) (ridx : Index) (st : Slab σ)
    (Allowed : Nat → σ → Prop) (Wanted : S → Prop) : Prop where
  sound : ∀ k q y, st.get k = some q → sh.sval (indexOps R) res st k = some y → Allowed k q →
    Wanted y
  complete : (indexOps R).Clean res ridx → ∀ k q y, st.get k = some q →
    sh.sval (indexOps R) res st k = some y → Wanted y → Allowed k q

theorem Right.and {A B : Nat → σ → Prop} {W V : S → Prop} (h : Right sh res ridx st A W)
    (h' : Right sh res ridx st B V) :
    Right sh res ridx st (fun k q => A k q ∧ B k q) (fun y => W y ∧ V y) :=
  ⟨fun k q y hq hy ha => ⟨h.sound k q y hq hy ha.1, h'.sound k q y hq hy ha.2⟩,
    fun hc k q y hq hy ha => ⟨h.complete hc k q y hq hy ha.1, h'.complete hc k q y hq hy ha.2⟩⟩

theorem Right.true : Right sh res ridx st (fun _ _ => True) (fun _ => True) :=
  ⟨fun _ _ _ _ _ _ => trivial, fun _ _ _ _ _ _ _ => trivial⟩

theorem Finds.right {p : Pos} {P : R → Prop} {l : List Nat} (h : Finds sh res ridx st p P l) :
    Right sh res ridx st (fun k _ => k ∈ l) (fun y => ∃ r, sh.compV y p = some r ∧ P r) := by
  constructor
  · intro k q y hq hy hk
    obtain ⟨y', r, hy', hr, hp⟩ := h.sound k hk
    rw [hy] at hy'
    cases hy'
    exact ⟨r, hr, hp⟩
  · rintro hc k q y hq hy ⟨r, hr, hp⟩
    exact h.complete hc k y r hy hr hp

/-- Same slots hold the same values; without duplicates, same values are in the
same slot. -/
theorem Right.same (H : ShapeLaws sh) (h : Inv sh (indexOps R) IndexRep res ridx st sidx)
    (p p' : Pos) (hp : ∀ q, ∃ i, sh.comp q p = some i) :
    Right sh res ridx st (fun _ q => sh.comp q p = sh.comp q p')
      (fun y => sh.compV y p' = sh.compV y p) := by
  constructor
  · intro k q y hq hy e
    obtain ⟨q', hq', hcomp⟩ := Shape.sval_comp H hy
    rw [hq] at hq'
    cases hq'
    obtain ⟨i, hi⟩ := hp q
    have h1 := hcomp p
    have h2 := hcomp p'
    rw [← e] at h2
    simp only [hi] at h1 h2
    obtain ⟨r, hr, h1⟩ := h1
    obtain ⟨r', hr', h2⟩ := h2
    rw [h1, h2, ← hr, ← hr']
  · intro hc k q y hq hy e
    obtain ⟨q', hq', hcomp⟩ := Shape.sval_comp H hy
    rw [hq] at hq'
    cases hq'
    obtain ⟨i, hi⟩ := hp q
    have h1 := hcomp p
    have h2 := hcomp p'
    simp only [hi] at h1
    obtain ⟨r, hr, h1⟩ := h1
    rw [h1] at e
    cases hj : sh.comp q p' with
    | none =>
      simp only [hj] at h2
      rw [h2] at e
      cases e
    | some j =>
      simp only [hj] at h2
      obtain ⟨r', hr', h2⟩ := h2
      rw [h2] at e
      cases e
      rw [hi, h.table.sorted.inj (hc i r hr) (hc j r hr') hr hr']

theorem Right.congr {A B : Nat → σ → Prop} {W V : S → Prop} (h : Right sh res ridx st A W)
    (hA : ∀ k q, B k q ↔ A k q) (hW : ∀ y, V y ↔ W y) : Right sh res ridx st B V :=
  ⟨fun k q y hq hy ha => (hW y).2 (h.sound k q y hq hy ((hA k q).1 ha)),
    fun hc k q y hq hy hw => (hA k q).2 (h.complete hc k q y hq hy ((hW y).1 hw))⟩

variable {I : α → R → Prop} {load : Pos → α → (C : Type) → C → (List Nat → C) → Res C}

/-- Subject constraints made by `load`. -/
theorem subject_right (hl : ∀ p a, Loads sh res ridx st p (I a) (load p a)) {S₀ : S → R}
    (hS : ∀ y, sh.compV y .subj = some (S₀ y)) {s₀ : σ → Nat}
    (hs : ∀ y, sh.comp y .subj = some (s₀ y))
    {new : PatternSubject α → Res SubjectConstraints} (h1 : new .any = .ok .any)
    (h2 : ∀ a, new (.given a) = load .subj a _ .none .fixed) (pat : PatternSubject α) :
    ∃ c, new pat = .ok c ∧ c.Good ∧
      Right sh res ridx st (fun k _ => c.Allows k) (fun y => SubjectIn I pat (S₀ y)) ∧
      (pat = .any ∨ ∀ k, c.Allows k → ∃ q, st.get k = some q) ∧ (pat = .any → c = .any) ∧
      ∀ k q, st.get k = some q →
        (c.Allows k ↔ SubjectIn (fun a => SlotIn res ridx (I a)) pat (s₀ q)) := by
  cases pat with
  | any => exact ⟨.any, h1, trivial, .true, Or.inl rfl, fun _ => rfl, fun _ _ _ => Iff.rfl⟩
  | given a =>
    rw [h2]
    rcases hl .subj a with ⟨l, hf, e⟩ | ⟨hf, e⟩
    · refine ⟨_, e _ _ _, hf.sorted, hf.right.congr (fun _ _ => Iff.rfl) ?_,
        Or.inr fun k hk => hf.live hk, (fun h => by cases h), fun k q hq => ?_⟩
      · intro y; simp [hS, SubjectIn]
      · simpa [hs, SubjectIn, SubjectConstraints.Allows] using hf.slots k q hq
    · refine ⟨_, e _ _ _, trivial, hf.right.congr ?_ ?_, Or.inr fun k hk => hk.elim,
        (fun h => by cases h), fun k q hq => ?_⟩
      · intro k q; simp [SubjectConstraints.Allows]
      · intro y; simp [hS, SubjectIn]
      · simpa [hs, SubjectIn, SubjectConstraints.Allows] using hf.slots k q hq

/-- Predicate constraints made by `load`. -/
theorem predicate_right (H : ShapeLaws sh) (h : Inv sh (indexOps R) IndexRep res ridx st sidx)
    (hl : ∀ p a, Loads sh res ridx st p (I a) (load p a)) {S₀ P₀ : S → R}
    (hS : ∀ y, sh.compV y .subj = some (S₀ y)) (hP : ∀ y, sh.compV y .pred = some (P₀ y))
    {s₀ p₀ : σ → Nat}
    (hs : ∀ y, sh.comp y .subj = some (s₀ y)) (hp : ∀ y, sh.comp y .pred = some (p₀ y))
    {new : PatternPredicate α → Res PredicateConstraints} (h1 : new .any = .ok .any)
    (h2 : new .sameAsSubject = .ok .sameAsSubject)
    (h3 : ∀ a, new (.given a) = load .pred a _ .none .fixed) (pat : PatternPredicate α) :
    ∃ c, new pat = .ok c ∧ c.Good ∧
      Right sh res ridx st (fun k q => c.Allows k (s₀ q) (p₀ q))
        (fun y => PredicateIn I pat (S₀ y) (P₀ y)) ∧
      c.Kind st.get (∃ a, pat = .given a) (pat = .sameAsSubject) ∧
      ∀ k q, st.get k = some q → (c.Allows k (s₀ q) (p₀ q) ↔
        PredicateIn (fun a => SlotIn res ridx (I a)) pat (s₀ q) (p₀ q)) := by
  cases pat with
  | any => exact ⟨.any, h1, trivial, .true, trivial, fun _ _ _ => Iff.rfl⟩
  | sameAsSubject =>
    refine ⟨_, h2, trivial, (Right.same H h .subj .pred (fun q => ⟨_, hs q⟩)).congr ?_ ?_, rfl,
      fun _ _ _ => eq_comm⟩
    · intro k q; simp [PredicateConstraints.Allows, hs, hp]
    · intro y; simp [PredicateIn, hS, hP]
  | given a =>
    rw [h3]
    rcases hl .pred a with ⟨l, hf, e⟩ | ⟨hf, e⟩
    · refine ⟨_, e _ _ _, hf.sorted, hf.right.congr (fun _ _ => Iff.rfl) ?_,
        ⟨⟨a, rfl⟩, hf.occ⟩, fun k q hq => ?_⟩
      · intro y; simp [hP, PredicateIn]
      · simpa [hp, PredicateIn, PredicateConstraints.Allows] using hf.slots k q hq
    · refine ⟨_, e _ _ _, trivial, hf.right.congr ?_ ?_, ⟨a, rfl⟩, fun k q hq => ?_⟩
      · intro k q; simp [PredicateConstraints.Allows]
      · intro y; simp [hP, PredicateIn]
      · simpa [hp, PredicateIn, PredicateConstraints.Allows] using hf.slots k q hq

/-- Object constraints made by `load`. -/
theorem object_right (H : ShapeLaws sh) (h : Inv sh (indexOps R) IndexRep res ridx st sidx)
    (hl : ∀ p a, Loads sh res ridx st p (I a) (load p a)) {S₀ P₀ O₀ : S → R}
    (hS : ∀ y, sh.compV y .subj = some (S₀ y)) (hP : ∀ y, sh.compV y .pred = some (P₀ y))
    (hO : ∀ y, sh.compV y .obj = some (O₀ y))
    {s₀ p₀ o₀ : σ → Nat}
    (hs : ∀ y, sh.comp y .subj = some (s₀ y)) (hp : ∀ y, sh.comp y .pred = some (p₀ y))
    (ho : ∀ y, sh.comp y .obj = some (o₀ y))
    {new : PatternObject α → Res ObjectConstraints} (h1 : new .any = .ok .any)
    (h2 : new .sameAsSubject = .ok .sameAsSubject)
    (h2' : new .sameAsPredicate = .ok .sameAsPredicate)
    (h3 : ∀ a, new (.given a) = load .obj a _ .none .fixed) (pat : PatternObject α) :
    ∃ c, new pat = .ok c ∧ c.Good ∧
      Right sh res ridx st (fun k q => c.Allows k (s₀ q) (p₀ q) (o₀ q))
        (fun y => ObjectIn I pat (S₀ y) (P₀ y) (O₀ y)) ∧
      c.Kind st.get (∃ a, pat = .given a) (pat = .sameAsSubject ∨ pat = .sameAsPredicate) ∧
      ∀ k q, st.get k = some q → (c.Allows k (s₀ q) (p₀ q) (o₀ q) ↔
        ObjectIn (fun a => SlotIn res ridx (I a)) pat (s₀ q) (p₀ q) (o₀ q)) := by
  cases pat with
  | any => exact ⟨.any, h1, trivial, .true, trivial, fun _ _ _ => Iff.rfl⟩
  | sameAsSubject =>
    refine ⟨_, h2, trivial, (Right.same H h .subj .obj (fun q => ⟨_, hs q⟩)).congr ?_ ?_, .inl rfl,
      fun _ _ _ => eq_comm⟩
    · intro k q; simp [ObjectConstraints.Allows, hs, ho]
    · intro y; simp [ObjectIn, hS, hO]
  | sameAsPredicate =>
    refine ⟨_, h2', trivial, (Right.same H h .pred .obj (fun q => ⟨_, hp q⟩)).congr ?_ ?_, .inr rfl,
      fun _ _ _ => eq_comm⟩
    · intro k q; simp [ObjectConstraints.Allows, hp, ho]
    · intro y; simp [ObjectIn, hP, hO]
  | given a =>
    rw [h3]
    rcases hl .obj a with ⟨l, hf, e⟩ | ⟨hf, e⟩
    · refine ⟨_, e _ _ _, hf.sorted, hf.right.congr (fun _ _ => Iff.rfl) ?_,
        ⟨⟨a, rfl⟩, hf.occ⟩, fun k q hq => ?_⟩
      · intro y; simp [hO, ObjectIn]
      · simpa [ho, ObjectIn, ObjectConstraints.Allows] using hf.slots k q hq
    · refine ⟨_, e _ _ _, trivial, hf.right.congr ?_ ?_, ⟨a, rfl⟩, fun k q hq => ?_⟩
      · intro k q; simp [ObjectConstraints.Allows]
      · intro y; simp [hO, ObjectIn]
      · simpa [ho, ObjectIn, ObjectConstraints.Allows] using hf.slots k q hq

end generic

namespace IndexedBTreeDataset

theorem looks {d : IndexedBTreeDataset R} (h : d.WF) :
    Looks d.getResource d.resources d.resourcesIndexes := by
  intro r
  obtain ⟨o, e, ho⟩ := h.inv.table.indexOf_spec r
  refine ⟨o, ?_, ho⟩
  cases o <;>
    simp [getResource, indexOfResource, e, bind, Except.bind, pure, Except.pure]

/-- Graph constraints made by `load`. -/
theorem graph_right {d : IndexedBTreeDataset R} (h : d.WF) {α : Type} {I : α → R → Prop}
    {load : Pos → α → (C : Type) → C → (List Nat → C) → Res C}
    (hl : ∀ p a, Loads (quadShape R) d.resources d.resourcesIndexes d.quads p (I a) (load p a))
    {new : PatternGraph α → Res GraphConstraints} (h1 : new .any = .ok .any)
    (h2 : new .sameAsSubject = .ok .sameAsSubject)
    (h3 : new .sameAsPredicate = .ok .sameAsPredicate)
    (h4 : new .sameAsObject = .ok .sameAsObject)
    (h5 : ∀ a, new (.given (some a)) = load .graph a _ .none .fixed)
    (h6 : new (.given none) = .ok (.fixed d.defaultGraph)) (pat : PatternGraph α) :
    ∃ c, new pat = .ok c ∧ c.Good ∧
      Right (quadShape R) d.resources d.resourcesIndexes d.quads c.Allows (GraphIn I pat) ∧
      c.Kind d.quads.get (∃ a, pat = .given a)
        (pat = .sameAsSubject ∨ pat = .sameAsPredicate ∨ pat = .sameAsObject) ∧
      ∀ k q, d.quads.get k = some q → (c.Allows k q ↔
        GraphIn (fun a => SlotIn d.resources d.resourcesIndexes (I a)) pat q) := by
  have H := quadShape_laws (R := R)
  cases pat with
  | any => exact ⟨.any, h1, trivial, .true, trivial, fun _ _ _ => Iff.rfl⟩
  | sameAsSubject =>
    exact ⟨_, h2, trivial, (Right.same H h.inv .subj .graph (fun q => ⟨_, rfl⟩)).congr
      (fun _ _ => Iff.rfl) (fun _ => Iff.rfl), .inl rfl, fun _ _ _ => eq_comm⟩
  | sameAsPredicate =>
    exact ⟨_, h3, trivial, (Right.same H h.inv .pred .graph (fun q => ⟨_, rfl⟩)).congr
      (fun _ _ => Iff.rfl) (fun _ => Iff.rfl), .inr (.inl rfl), fun _ _ _ => eq_comm⟩
  | sameAsObject =>
    exact ⟨_, h4, trivial, (Right.same H h.inv .obj .graph (fun q => ⟨_, rfl⟩)).congr
      (fun _ _ => Iff.rfl) (fun _ => Iff.rfl), .inr (.inr rfl), fun _ _ _ => eq_comm⟩
  | given a =>
    cases a with
    | none =>
      have key : ∀ k q y, d.quads.get k = some q → d.sval k = some y →
          (k ∈ d.defaultGraph ↔ y.g = none) := by
        intro k q y hq hy
        obtain ⟨q', hq', hcomp⟩ := Shape.sval_comp H hy
        rw [hq] at hq'
        cases hq'
        have := hcomp .graph
        rw [h.dflt]
        simp only [hq]
        cases hg : q.g with
        | none => simp_all [quadShape]
        | some g =>
          simp only [quadShape, hg] at this
          obtain ⟨r, -, hr⟩ := this
          simp [hr, hg]
      refine ⟨_, h6, h.dfltAsc.nonDecreasing, ⟨?_, ?_⟩, ⟨⟨_, rfl⟩, ?_⟩, ?_⟩
      · intro k q y hq hy ha
        exact (key k q y hq hy).1 ha
      · intro _ k q y hq hy ha
        exact (key k q y hq hy).2 ha
      · intro k hk
        have := (h.dflt k).1 hk
        grind
      · intro k q hq
        show k ∈ d.defaultGraph ↔ q.g = none
        rw [h.dflt]
        simp [hq]
    | some a =>
      rw [h5]
      rcases hl .graph a with ⟨l, hf, e⟩ | ⟨hf, e⟩
      · exact ⟨_, e _ _ _, hf.sorted, hf.right.congr (fun _ _ => Iff.rfl) (fun _ => Iff.rfl),
          ⟨⟨_, rfl⟩, hf.occ⟩, hf.slots⟩
      · refine ⟨_, e _ _ _, trivial, hf.right.congr ?_ (fun _ => Iff.rfl), ⟨_, rfl⟩,
          fun k q hq => ?_⟩
        · intro k q; simp [GraphConstraints.Allows]
        · exact ⟨False.elim, fun h' => nomatch (hf.slots k q hq).2 h'⟩

/-- A matcher that looks for the quads satisfying `Wanted`. -/
structure MatcherFor (d : IndexedBTreeDataset R) (Wanted : Quad R → Prop) (subjAny : Prop)
    (m : Matcher QuadFilter) : Prop where
  ok : m.Ok QuadFilter.Good
  right : Right (quadShape R) d.resources d.resourcesIndexes d.quads
    (m.Accepts QuadFilter.Allows) Wanted
  subj : subjAny ∨ ∀ k, m.subject.Allows k → ∃ q, d.quads.get k = some q

/-- The quads that satisfy the four parts. -/
def PartsIn {α : Type} (I : α → R → Prop) (s : PatternSubject α) (p : PatternPredicate α)
    (o : PatternObject α) (g : PatternGraph α) (q : Quad R) : Prop :=
  SubjectIn I s q.s ∧ PredicateIn I p q.s q.p ∧ ObjectIn I o q.s q.p q.o ∧ GraphIn I g q

/-- What is known of the constraints of a matcher from its pattern. -/
structure KindOf {α : Type} (d : IndexedBTreeDataset R) (pat : CanonicalQuadPattern α)
    (m : Matcher QuadFilter) : Prop where
  subject : pat.subject = .any → m.subject = .any
  predicate : m.filter.predicate.Kind d.quads.get (∃ a, pat.predicate = .given a)
    (pat.predicate = .sameAsSubject)
  object : m.filter.object.Kind d.quads.get (∃ a, pat.object = .given a)
    (pat.object = .sameAsSubject ∨ pat.object = .sameAsPredicate)
  graph : m.filter.graph.Kind d.quads.get (∃ a, pat.graph = .given a)
    (pat.graph = .sameAsSubject ∨ pat.graph = .sameAsPredicate ∨ pat.graph = .sameAsObject)

theorem matcher_kind {d : IndexedBTreeDataset R} (h : d.WF) (pat : CanonicalQuadPattern R) :
    ∃ m, d.matcher pat = .ok m ∧ m.i = 0 ∧
      MatcherFor d (PartsIn (fun a r => r = a) pat.subject pat.predicate pat.object pat.graph)
        (pat.subject = .any) m ∧ KindOf d pat m ∧
      ∀ k q, d.quads.get k = some q → (m.Accepts QuadFilter.Allows k q ↔
        PartsIn (fun a => SlotIn d.resources d.resourcesIndexes (· = a))
          pat.subject pat.predicate pat.object pat.graph q) := by
  have H := quadShape_laws (R := R)
  have hl := fixedOf_loads H h.inv (looks h)
  obtain ⟨s, es, gs, rs, ls, ks, ts⟩ := subject_right (S₀ := fun y : Quad R => y.s) hl (fun _ => rfl)
    (s₀ := fun y : Quad Nat => y.s) (fun _ => rfl)
    (new := SubjectConstraints.new d.getResource) rfl (fun _ => rfl) pat.subject
  obtain ⟨p, ep, gp, rp, kp, tp⟩ := predicate_right H h.inv hl (S₀ := fun y : Quad R => y.s)
    (P₀ := fun y : Quad R => y.p) (fun _ => rfl) (fun _ => rfl) (s₀ := fun y : Quad Nat => y.s)
    (p₀ := fun y : Quad Nat => y.p) (fun _ => rfl) (fun _ => rfl)
    (new := PredicateConstraints.new d.getResource) rfl rfl (fun _ => rfl) pat.predicate
  obtain ⟨o, eo, go, ro, ko, to⟩ := object_right H h.inv hl (S₀ := fun y : Quad R => y.s)
    (P₀ := fun y : Quad R => y.p) (O₀ := fun y : Quad R => y.o) (fun _ => rfl) (fun _ => rfl)
    (fun _ => rfl) (s₀ := fun y : Quad Nat => y.s) (p₀ := fun y : Quad Nat => y.p)
    (o₀ := fun y : Quad Nat => y.o) (fun _ => rfl) (fun _ => rfl) (fun _ => rfl)
    (new := ObjectConstraints.new d.getResource) rfl rfl rfl (fun _ => rfl) pat.object
  obtain ⟨g, eg, gg, rg, kg, tg⟩ := graph_right h hl
    (new := GraphConstraints.new d.getResource d.defaultGraph) rfl rfl rfl rfl (fun _ => rfl) rfl
    pat.graph
  exact ⟨⟨s, ⟨p, o, g⟩, 0⟩, by simp [matcher, es, ep, eo, eg, bind, Except.bind, pure, Except.pure],
    rfl, ⟨⟨gs, gp, go, gg⟩, rs.and (rp.and (ro.and rg)), ls⟩, ⟨ks, kp, ko, kg⟩, fun k q hq =>
      and_congr (ts k q hq) (and_congr (tp k q hq) (and_congr (to k q hq) (tg k q hq)))⟩

theorem multiMatcher_kind {d : IndexedBTreeDataset R} (h : d.WF)
    (pat : CanonicalQuadPattern (List R)) :
    ∃ m, d.multiMatcher pat = .ok m ∧ m.i = 0 ∧
      MatcherFor d (PartsIn (fun a r => r ∈ a) pat.subject pat.predicate pat.object pat.graph)
        (pat.subject = .any) m ∧ KindOf d pat m ∧
      ∀ k q, d.quads.get k = some q → (m.Accepts QuadFilter.Allows k q ↔
        PartsIn (fun a => SlotIn d.resources d.resourcesIndexes (· ∈ a))
          pat.subject pat.predicate pat.object pat.graph q) := by
  have H := quadShape_laws (R := R)
  have hl := fixedOfMulti_loads H h.inv (looks h)
  obtain ⟨s, es, gs, rs, ls, ks, ts⟩ := subject_right (S₀ := fun y : Quad R => y.s) hl (fun _ => rfl)
    (s₀ := fun y : Quad Nat => y.s) (fun _ => rfl)
    (new := SubjectConstraints.newMulti d.getResource) rfl (fun _ => rfl) pat.subject
  obtain ⟨p, ep, gp, rp, kp, tp⟩ := predicate_right H h.inv hl (S₀ := fun y : Quad R => y.s)
    (P₀ := fun y : Quad R => y.p) (fun _ => rfl) (fun _ => rfl) (s₀ := fun y : Quad Nat => y.s)
    (p₀ := fun y : Quad Nat => y.p) (fun _ => rfl) (fun _ => rfl)
    (new := PredicateConstraints.newMulti d.getResource) rfl rfl (fun _ => rfl) pat.predicate
  obtain ⟨o, eo, go, ro, ko, to⟩ := object_right H h.inv hl (S₀ := fun y : Quad R => y.s)
    (P₀ := fun y : Quad R => y.p) (O₀ := fun y : Quad R => y.o) (fun _ => rfl) (fun _ => rfl)
    (fun _ => rfl) (s₀ := fun y : Quad Nat => y.s) (p₀ := fun y : Quad Nat => y.p)
    (o₀ := fun y : Quad Nat => y.o) (fun _ => rfl) (fun _ => rfl) (fun _ => rfl)
    (new := ObjectConstraints.newMulti d.getResource) rfl rfl rfl (fun _ => rfl) pat.object
  obtain ⟨g, eg, gg, rg, kg, tg⟩ := graph_right h hl
    (new := GraphConstraints.newMulti d.getResource d.defaultGraph) rfl rfl rfl rfl (fun _ => rfl)
    rfl pat.graph
  exact ⟨⟨s, ⟨p, o, g⟩, 0⟩,
    by simp [multiMatcher, Proof.intoParts_eq, es, ep, eo, eg, bind, Except.bind, pure, Except.pure],
    rfl, ⟨⟨gs, gp, go, gg⟩, rs.and (rp.and (ro.and rg)), ls⟩, ⟨ks, kp, ko, kg⟩, fun k q hq =>
      and_congr (ts k q hq) (and_congr (tp k q hq) (and_congr (to k q hq) (tg k q hq)))⟩

theorem matcher_spec {d : IndexedBTreeDataset R} (h : d.WF) (pat : CanonicalQuadPattern R) :
    ∃ m, d.matcher pat = .ok m ∧ m.i = 0 ∧
      MatcherFor d (PartsIn (fun a r => r = a) pat.subject pat.predicate pat.object pat.graph)
        (pat.subject = .any) m := by
  obtain ⟨m, e, hi, hm, -⟩ := matcher_kind h pat
  exact ⟨m, e, hi, hm⟩

theorem multiMatcher_spec {d : IndexedBTreeDataset R} (h : d.WF)
    (pat : CanonicalQuadPattern (List R)) :
    ∃ m, d.multiMatcher pat = .ok m ∧ m.i = 0 ∧
      MatcherFor d (PartsIn (fun a r => r ∈ a) pat.subject pat.predicate pat.object pat.graph)
        (pat.subject = .any) m := by
  obtain ⟨m, e, hi, hm, -⟩ := multiMatcher_kind h pat
  exact ⟨m, e, hi, hm⟩

/-- No vacant slot comes before an occupied one. -/
def Dense (d : IndexedBTreeDataset R) : Prop :=
  ∀ n k q, n ≤ k → d.quads.get k = some q → d.quads.get n ≠ none

theorem MatcherFor.live {d : IndexedBTreeDataset R} {W : Quad R → Prop} {subjAny : Prop}
    {m : Matcher QuadFilter} (h : MatcherFor d W subjAny m) (hd : ¬ subjAny ∨ d.Dense) :
    m.Live QuadFilter.Allows d.quads.get := by
  intro n k q _ hk hs hq _ hn
  rcases hd with hd | hd
  · rcases h.subj with hs' | hs'
    · exact hd hs'
    · obtain ⟨q', hq'⟩ := hs' n hs
      rw [hn] at hq'
      cases hq'
  · exact hd n k q hk hq hn

/-- Values of stored quads. -/
theorem read_ok {d : IndexedBTreeDataset R} (h : d.WF) (n : Nat) (q : Quad Nat)
    (hq : d.quads.get n = some q) :
    ∃ x, (indexOps R).quadWithResources d.resources q = .ok x ∧ d.sval n = some x := by
  obtain ⟨x, hx⟩ := h.inv.sval_exists quadShape_laws hq
  refine ⟨x, ?_, hx⟩
  have := readQuad_eq hx
  simpa [ResOps.readQuad, Slab.index, hq, bind, Except.bind] using this

theorem matchNext_eq (cap : Nat) (d : IndexedBTreeDataset R) :
    d.matchNext cap =
      Matcher.nextWith d.quads.get QuadFilter.next cap ((indexOps R).quadWithResources d.resources) := by
  funext m
  unfold matchNext Matcher.nextWith
  cases m.loop d.quads.get QuadFilter.next cap cap with
  | error e => rfl
  | ok r =>
    obtain ⟨o, m'⟩ := r
    cases o <;> rfl

theorem run_spec {d : IndexedBTreeDataset R} (h : d.WF) {cap : Nat}
    (hcap : d.quads.entries.length ≤ cap) {W : Quad R → Prop} {subjAny : Prop}
    {m : Matcher QuadFilter} (hm : MatcherFor d W subjAny m) (hi : m.i = 0) :
    ∃ xs, collectAll (d.matchNext cap) (cap + 1) m = .ok xs ∧ xs.Nodup ∧
      (∀ y ∈ xs, d.abs y ∧ W y) ∧
      (d.Clean → ¬ subjAny ∨ d.Dense → ∀ y, d.abs y → W y → y ∈ xs) := by
  obtain ⟨xs, ks, e, hmap, hasc, hsound, hcomp⟩ := Matcher.collectAll_spec QuadFilter.laws
    (get := d.quads.get) (cap := cap)
    (fun n q hq => Nat.lt_of_lt_of_le (Slab.lt_of_get hq) hcap) (V := d.sval)
    (read_ok h) (cap + 1) m hm.ok (by omega) (by omega)
  have hmem : ∀ y, y ∈ xs ↔ ∃ k ∈ ks, d.sval k = some y := by
    intro y
    have : some y ∈ xs.map some ↔ ∃ k ∈ ks, d.sval k = some y := by
      rw [← hmap, List.mem_map]
    simpa using this
  refine ⟨xs, by rw [matchNext_eq]; exact e, ?_, ?_, ?_⟩
  · have h1 : (ks.map d.sval).Nodup := by
      refine List.pairwise_map.2 ?_
      refine List.Pairwise.imp_of_mem ?_ hasc
      intro a b ha hb hlt heq
      obtain ⟨q, hq, -⟩ := (hsound a ha).2
      obtain ⟨x, hx⟩ := h.inv.sval_exists quadShape_laws hq
      have hx' : d.sval b = some x := by rw [← heq]; exact hx
      have := h.inv.sval_inj quadShape_laws hx hx'
      omega
    rw [hmap] at h1
    exact (List.pairwise_map.1 h1).imp (fun hne e => hne (by rw [e]))
  · intro y hy
    obtain ⟨k, hk, hv⟩ := (hmem y).1 hy
    obtain ⟨-, q, hq, ha⟩ := hsound k hk
    exact ⟨⟨k, hv⟩, hm.right.sound k q y hq hv ha⟩
  · rintro hc hd y ⟨k, hk⟩ hw
    obtain ⟨q, hq, -⟩ := Shape.sval_comp quadShape_laws hk
    exact (hmem y).2 ⟨k, hcomp (hm.live hd) k q (by omega) hq (hm.right.complete hc k q y hq hk hw),
      hk⟩

theorem partsIn_iff (pat : CanonicalQuadPattern R) (q : Quad R) :
    PartsIn (fun a r => r = a) pat.subject pat.predicate pat.object pat.graph q ↔
      Spec.matchesQuad pat q := by
  rw [Proof.matchesQuad_iff_parts]
  unfold PartsIn
  refine and_congr ?_ (and_congr ?_ (and_congr ?_ ?_))
  · cases pat.subject <;> rfl
  · cases pat.predicate <;> rfl
  · cases pat.object <;> rfl
  · cases hg : pat.graph with
    | given g =>
      cases g <;> simp [GraphIn, Spec.graphHolds]
    | _ => rfl

theorem patternMatching_spec {d : IndexedBTreeDataset R} (h : d.WF) {cap : Nat}
    (hcap : d.quads.entries.length ≤ cap) (pat : CanonicalQuadPattern R) :
    ∃ xs, d.patternMatching cap pat = .ok xs ∧ xs.Nodup ∧
      (∀ y ∈ xs, d.abs y ∧ Spec.matchesQuad pat y) ∧
      (d.Clean → pat.subject ≠ .any ∨ d.Dense → ∀ y, d.abs y → Spec.matchesQuad pat y → y ∈ xs) := by
  obtain ⟨m, e, hi, hm⟩ := matcher_spec h pat
  obtain ⟨xs, e', h1, h2, h3⟩ := run_spec h hcap hm hi
  simp only [partsIn_iff] at h2 h3
  exact ⟨xs, by simp [patternMatching, e, e', bind, Except.bind], h1, h2, h3⟩

theorem multiPatternMatching_spec {d : IndexedBTreeDataset R} (h : d.WF) {cap : Nat}
    (hcap : d.quads.entries.length ≤ cap) (pat : CanonicalQuadPattern (List R)) :
    ∃ xs, d.multiPatternMatching cap pat = .ok xs ∧ xs.Nodup ∧
      (∀ y ∈ xs, d.abs y ∧
        PartsIn (fun a r => r ∈ a) pat.subject pat.predicate pat.object pat.graph y) ∧
      (d.Clean → pat.subject ≠ .any ∨ d.Dense → ∀ y, d.abs y →
        PartsIn (fun a r => r ∈ a) pat.subject pat.predicate pat.object pat.graph y → y ∈ xs) := by
  obtain ⟨m, e, hi, hm⟩ := multiMatcher_spec h pat
  obtain ⟨xs, e', h1, h2, h3⟩ := run_spec h hcap hm hi
  exact ⟨xs, by simp [multiPatternMatching, e, e', bind, Except.bind], h1, h2, h3⟩

/-! ## First match -/

/-- The first item of a matcher. -/
theorem first_spec {d : IndexedBTreeDataset R} (h : d.WF) {cap : Nat}
    (hcap : d.quads.entries.length ≤ cap) {W : Quad R → Prop} {subjAny : Prop}
    {m : Matcher QuadFilter} (hm : MatcherFor d W subjAny m) (hi : m.i = 0) :
    ∃ o m', d.matchNext cap m = .ok (o, m') ∧
      (∀ y, o = some y → d.abs y ∧ W y) ∧
      (d.Clean → ¬ subjAny ∨ d.Dense → ∀ y, d.abs y → W y → o ≠ none) := by
  obtain ⟨o, m', e, ho⟩ := Matcher.nextWith_spec QuadFilter.laws (get := d.quads.get) (cap := cap)
    (fun n q hq => Nat.lt_of_lt_of_le (Slab.lt_of_get hq) hcap) (V := d.sval) (read_ok h) hm.ok
  refine ⟨o, m', by rw [matchNext_eq]; exact e, ?_, ?_⟩
  · rintro y rfl
    obtain ⟨i, q, hv, -, hq, ha, -⟩ := ho
    exact ⟨⟨i, hv⟩, hm.right.sound i q y hq hv ha⟩
  · rintro hc hd y ⟨k, hk⟩ hw rfl
    obtain ⟨q, hq, -⟩ := Shape.sval_comp quadShape_laws hk
    exact ho (hm.live hd) k q (by omega) hq (hm.right.complete hc k q y hq hk hw)

/-! ## Extraction -/

theorem extractLoop_spec {cap : Nat} {W : Quad R → Prop} {c : Prop} (n : Nat) :
    ∀ {d : IndexedBTreeDataset R} {m : Matcher QuadFilter}, d.WF →
    d.quads.entries.length ≤ cap → m.Ok QuadFilter.Good →
    (∀ k q y, m.i ≤ k → d.quads.get k = some q → d.sval k = some y →
      m.Accepts QuadFilter.Allows k q → W y) →
    (c → m.Live QuadFilter.Allows d.quads.get ∧ ∀ k q y, m.i ≤ k → d.quads.get k = some q →
      d.sval k = some y → W y → m.Accepts QuadFilter.Allows k q) →
    ∃ d' xs ended, extractLoop cap n d m = .ok (d', xs, ended) ∧ Removed d xs d' ∧
      (∀ y ∈ xs, W y) ∧ (ended = false → xs.length = n) ∧ xs.length ≤ n ∧ xs.length ≤ cap - m.i ∧
      (c → ended = true → ∀ k y, m.i ≤ k → d.sval k = some y → W y → y ∈ xs) := by
  induction n with
  | zero =>
    intro d m h hcap hok hs hc
    exact ⟨d, [], false, rfl, .nil d, by simp, by simp, by simp, by simp, by simp⟩
  | succ n ih =>
    intro d m h hcap hok hs hc
    obtain ⟨⟨o, m'⟩, e, hsp⟩ := Matcher.loop_spec QuadFilter.laws (get := d.quads.get) (cap := cap)
      (fun n q hq => Nat.lt_of_lt_of_le (Slab.lt_of_get hq) hcap) cap m hok (by omega)
    cases o with
    | none =>
      refine ⟨d, [], true, ?_, .nil d, by simp, by simp, by simp, by simp, ?_⟩
      · simp [extractLoop, extractNext, e, bind, Except.bind, pure, Except.pure]
      · intro hc' _ k y hk hv hw
        obtain ⟨hl, ha⟩ := hc hc'
        obtain ⟨q, hq, -⟩ := Shape.sval_comp quadShape_laws hv
        exact absurd (ha k q y hk hq hv hw) (hsp hl k q hk hq)
    | some iq =>
      obtain ⟨i, q⟩ := iq
      obtain ⟨hle, hq, hacc, hi', hlater, hskip⟩ := hsp
      obtain ⟨x, hr, hx⟩ := read_ok h i q hq
      obtain ⟨q', d1, e1, r⟩ := removeByIndex_spec h hx
      have hget : ∀ k, m'.i ≤ k → d1.quads.get k = d.quads.get k := by
        intro k hk
        rw [r.quads, Slab.get_erase]
        have : k ≠ i := by omega
        simp [this]
      have hval : ∀ k, m'.i ≤ k → d1.sval k = d.sval k := by
        intro k hk
        rw [r.sval]
        have : k ≠ i := by omega
        simp [this]
      obtain ⟨d', xs, ended, e2, hrem, hw, hlen, hle', hcap', hdone⟩ := ih (d := d1) (m := m') r.wf
        (by rw [r.quads]; simpa [Slab.erase] using hcap) hlater.ok
        (by
          intro k q y hk hq hv ha
          rw [hget k hk] at hq
          rw [hval k hk] at hv
          exact hs k q y (by have := hlater.le; omega) hq hv ((hlater.same k q hk).1 ha))
        (by
          intro hc'
          obtain ⟨hl, ha⟩ := hc hc'
          refine ⟨?_, ?_⟩
          · intro n k q hn hk hsub hq hacc' hnone
            rw [hget n hn] at hnone
            rw [hget k (by omega)] at hq
            exact hlater.live hl n k q hn hk hsub hq hacc' hnone
          · intro k q y hk hq hv hwy
            rw [hget k hk] at hq
            rw [hval k hk] at hv
            exact (hlater.same k q hk).2 (ha k q y (by have := hlater.le; omega) hq hv hwy))
      refine ⟨d', x :: xs, ended, ?_, .cons r hrem, ?_, ?_, by simpa using hle', ?_, ?_⟩
      · simp [extractLoop, extractNext, e, hr, e1, e2, bind, Except.bind, pure, Except.pure]
      · intro y hy
        rcases List.mem_cons.1 hy with rfl | hy
        · exact hs i q y hle hq hx hacc
        · exact hw y hy
      · intro he
        simp [hlen he]
      · have := Slab.lt_of_get hq
        simp only [List.length_cons]
        omega
      · intro hc' he k y hk hv hwy
        obtain ⟨hl, ha⟩ := hc hc'
        obtain ⟨q2, hq2, -⟩ := Shape.sval_comp quadShape_laws hv
        rcases Nat.lt_trichotomy k i with hki | rfl | hki
        · exact absurd (ha k q2 y hk hq2 hv hwy) (hskip k q2 hk hki hq2)
        · rw [hx] at hv
          cases hv
          simp
        · have hk' : m'.i ≤ k := by omega
          refine List.mem_cons.2 (Or.inr (hdone hc' he k y hk' ?_ hwy))
          rw [hval k hk', hv]

theorem extractPatternMatching_spec {d : IndexedBTreeDataset R} (h : d.WF) {cap : Nat}
    (hcap : d.quads.entries.length ≤ cap) (pat : CanonicalQuadPattern R) (n : Nat) :
    ∃ d' xs ended, d.extractPatternMatching cap pat n = .ok (d', xs, ended) ∧
      Removed d xs d' ∧ (∀ y ∈ xs, Spec.matchesQuad pat y) ∧ (ended = false → xs.length = n) ∧
      xs.length ≤ n ∧ xs.length ≤ cap ∧
      (d.Clean → pat.subject ≠ .any ∨ d.Dense → ended = true →
        ∀ y, d.abs y → Spec.matchesQuad pat y → y ∈ xs) := by
  obtain ⟨m, e, hi, hm⟩ := matcher_spec h pat
  obtain ⟨d', xs, ended, e', h1, h2, h3, h5, h6, h4⟩ := extractLoop_spec
    (W := PartsIn (fun a r => r = a) pat.subject pat.predicate pat.object pat.graph)
    (c := d.Clean ∧ (pat.subject ≠ .any ∨ d.Dense)) n h hcap hm.ok
    (fun k q y _ hq hv ha => hm.right.sound k q y hq hv ha)
    (fun hc => ⟨hm.live hc.2, fun k q y _ hq hv hw => hm.right.complete hc.1 k q y hq hv hw⟩)
  simp only [partsIn_iff] at h2 h4
  refine ⟨d', xs, ended, by simp [extractPatternMatching, e, e', bind, Except.bind], h1, h2, h3, h5,
    by omega, ?_⟩
  rintro hc hd he y ⟨k, hk⟩ hw
  exact h4 ⟨hc, hd⟩ he k y (by omega) hk hw

end IndexedBTreeDataset

namespace IndexedBTreeGraph

theorem looks {d : IndexedBTreeGraph R} (h : d.WF) :
    Looks d.getResource d.resources d.resourcesIndexes := by
  intro r
  obtain ⟨o, e, ho⟩ := h.inv.table.indexOf_spec r
  refine ⟨o, ?_, ho⟩
  cases o <;>
    simp [getResource, indexOfResource, e, bind, Except.bind, pure, Except.pure]

/-- A matcher that looks for the triples satisfying `Wanted`. -/
structure MatcherFor (d : IndexedBTreeGraph R) (Wanted : Triple R → Prop) (subjAny : Prop)
    (m : Matcher TripleFilter) : Prop where
  ok : m.Ok TripleFilter.Good
  right : Right (tripleShape R) d.resources d.resourcesIndexes d.triples
    (m.Accepts TripleFilter.Allows) Wanted
  subj : subjAny ∨ ∀ k, m.subject.Allows k → ∃ q, d.triples.get k = some q

theorem partsIn_iff (pat : CanonicalTriplePattern R) (q : Triple R) :
    (SubjectIn (fun a r => r = a) pat.subject q.s ∧
      PredicateIn (fun a r => r = a) pat.predicate q.s q.p ∧
      ObjectIn (fun a r => r = a) pat.object q.s q.p q.o) ↔ Spec.matchesTriple pat q := by
  rw [Proof.matchesTriple_iff_parts]
  refine and_congr ?_ (and_congr ?_ ?_)
  · cases pat.subject <;> rfl
  · cases pat.predicate <;> rfl
  · cases pat.object <;> rfl

/-- What is known of the constraints of a matcher from its pattern. -/
structure KindOf {α : Type} (d : IndexedBTreeGraph R) (pat : CanonicalTriplePattern α)
    (m : Matcher TripleFilter) : Prop where
  subject : pat.subject = .any → m.subject = .any
  predicate : m.filter.predicate.Kind d.triples.get (∃ a, pat.predicate = .given a)
    (pat.predicate = .sameAsSubject)
  object : m.filter.object.Kind d.triples.get (∃ a, pat.object = .given a)
    (pat.object = .sameAsSubject ∨ pat.object = .sameAsPredicate)

theorem matcher_kind {d : IndexedBTreeGraph R} (h : d.WF) (pat : CanonicalTriplePattern R) :
    ∃ m, d.matcher pat = .ok m ∧ m.i = 0 ∧
      MatcherFor d (Spec.matchesTriple pat) (pat.subject = .any) m ∧ KindOf d pat m ∧
      ∀ k q, d.triples.get k = some q → (m.Accepts TripleFilter.Allows k q ↔
        SubjectIn (fun a => SlotIn d.resources d.resourcesIndexes (· = a)) pat.subject q.s ∧
        PredicateIn (fun a => SlotIn d.resources d.resourcesIndexes (· = a)) pat.predicate q.s q.p ∧
        ObjectIn (fun a => SlotIn d.resources d.resourcesIndexes (· = a)) pat.object q.s q.p q.o) := by
  have H := tripleShape_laws (R := R)
  have hl := fixedOf_loads H h.inv (looks h)
  obtain ⟨s, es, gs, rs, ls, ks, ts⟩ := subject_right (S₀ := fun y : Triple R => y.s) hl (fun _ => rfl)
    (s₀ := fun y : Triple Nat => y.s) (fun _ => rfl)
    (new := SubjectConstraints.new d.getResource) rfl (fun _ => rfl) pat.subject
  obtain ⟨p, ep, gp, rp, kp, tp⟩ := predicate_right H h.inv hl (S₀ := fun y : Triple R => y.s)
    (P₀ := fun y : Triple R => y.p) (fun _ => rfl) (fun _ => rfl) (s₀ := fun y : Triple Nat => y.s)
    (p₀ := fun y : Triple Nat => y.p) (fun _ => rfl) (fun _ => rfl)
    (new := PredicateConstraints.new d.getResource) rfl rfl (fun _ => rfl) pat.predicate
  obtain ⟨o, eo, go, ro, ko, to⟩ := object_right H h.inv hl (S₀ := fun y : Triple R => y.s)
    (P₀ := fun y : Triple R => y.p) (O₀ := fun y : Triple R => y.o) (fun _ => rfl) (fun _ => rfl)
    (fun _ => rfl) (s₀ := fun y : Triple Nat => y.s) (p₀ := fun y : Triple Nat => y.p)
    (o₀ := fun y : Triple Nat => y.o) (fun _ => rfl) (fun _ => rfl) (fun _ => rfl)
    (new := ObjectConstraints.new d.getResource) rfl rfl rfl (fun _ => rfl) pat.object
  exact ⟨⟨s, ⟨p, o⟩, 0⟩, by simp [matcher, es, ep, eo, bind, Except.bind, pure, Except.pure],
    rfl, ⟨⟨gs, gp, go⟩, (rs.and (rp.and ro)).congr (fun _ _ => Iff.rfl)
      (fun y => (partsIn_iff pat y).symm), ls⟩, ⟨ks, kp, ko⟩, fun k q hq =>
      and_congr (ts k q hq) (and_congr (tp k q hq) (to k q hq))⟩

theorem matcher_spec {d : IndexedBTreeGraph R} (h : d.WF) (pat : CanonicalTriplePattern R) :
    ∃ m, d.matcher pat = .ok m ∧ m.i = 0 ∧
      MatcherFor d (Spec.matchesTriple pat) (pat.subject = .any) m := by
  obtain ⟨m, e, hi, hm, -⟩ := matcher_kind h pat
  exact ⟨m, e, hi, hm⟩

/-- No vacant slot comes before an occupied one. -/
def Dense (d : IndexedBTreeGraph R) : Prop :=
  ∀ n k q, n ≤ k → d.triples.get k = some q → d.triples.get n ≠ none

theorem MatcherFor.live {d : IndexedBTreeGraph R} {W : Triple R → Prop} {subjAny : Prop}
    {m : Matcher TripleFilter} (h : MatcherFor d W subjAny m) (hd : ¬ subjAny ∨ d.Dense) :
    m.Live TripleFilter.Allows d.triples.get := by
  intro n k q _ hk hs hq _ hn
  rcases hd with hd | hd
  · rcases h.subj with hs' | hs'
    · exact hd hs'
    · obtain ⟨q', hq'⟩ := hs' n hs
      rw [hn] at hq'
      cases hq'
  · exact hd n k q hk hq hn

theorem read_ok {d : IndexedBTreeGraph R} (h : d.WF) (n : Nat) (q : Triple Nat)
    (hq : d.triples.get n = some q) :
    ∃ x, (indexOps R).tripleWithResources d.resources q = .ok x ∧ d.sval n = some x := by
  obtain ⟨x, hx⟩ := h.inv.sval_exists tripleShape_laws hq
  refine ⟨x, ?_, hx⟩
  have := readTriple_eq hx
  simpa [ResOps.readTriple, Slab.index, hq, bind, Except.bind] using this

theorem matchNext_eq (cap : Nat) (d : IndexedBTreeGraph R) :
    d.matchNext cap =
      Matcher.nextWith d.triples.get TripleFilter.next cap ((indexOps R).tripleWithResources d.resources) := by
  funext m
  unfold matchNext Matcher.nextWith
  cases m.loop d.triples.get TripleFilter.next cap cap with
  | error e => rfl
  | ok r =>
    obtain ⟨o, m'⟩ := r
    cases o <;> rfl

theorem run_spec {d : IndexedBTreeGraph R} (h : d.WF) {cap : Nat}
    (hcap : d.triples.entries.length ≤ cap) {W : Triple R → Prop} {subjAny : Prop}
    {m : Matcher TripleFilter} (hm : MatcherFor d W subjAny m) (hi : m.i = 0) :
    ∃ xs, collectAll (d.matchNext cap) (cap + 1) m = .ok xs ∧ xs.Nodup ∧
      (∀ y ∈ xs, d.abs y ∧ W y) ∧
      (d.Clean → ¬ subjAny ∨ d.Dense → ∀ y, d.abs y → W y → y ∈ xs) := by
  obtain ⟨xs, ks, e, hmap, hasc, hsound, hcomp⟩ := Matcher.collectAll_spec TripleFilter.laws
    (get := d.triples.get) (cap := cap)
    (fun n q hq => Nat.lt_of_lt_of_le (Slab.lt_of_get hq) hcap) (V := d.sval)
    (read_ok h) (cap + 1) m hm.ok (by omega) (by omega)
  have hmem : ∀ y, y ∈ xs ↔ ∃ k ∈ ks, d.sval k = some y := by
    intro y
    have : some y ∈ xs.map some ↔ ∃ k ∈ ks, d.sval k = some y := by
      rw [← hmap, List.mem_map]
    simpa using this
  refine ⟨xs, by rw [matchNext_eq]; exact e, ?_, ?_, ?_⟩
  · have h1 : (ks.map d.sval).Nodup := by
      refine List.pairwise_map.2 ?_
      refine List.Pairwise.imp_of_mem ?_ hasc
      intro a b ha hb hlt heq
      obtain ⟨q, hq, -⟩ := (hsound a ha).2
      obtain ⟨x, hx⟩ := h.inv.sval_exists tripleShape_laws hq
      have hx' : d.sval b = some x := by rw [← heq]; exact hx
      have := h.inv.sval_inj tripleShape_laws hx hx'
      omega
    rw [hmap] at h1
    exact (List.pairwise_map.1 h1).imp (fun hne e => hne (by rw [e]))
  · intro y hy
    obtain ⟨k, hk, hv⟩ := (hmem y).1 hy
    obtain ⟨-, q, hq, ha⟩ := hsound k hk
    exact ⟨⟨k, hv⟩, hm.right.sound k q y hq hv ha⟩
  · rintro hc hd y ⟨k, hk⟩ hw
    obtain ⟨q, hq, -⟩ := Shape.sval_comp tripleShape_laws hk
    exact (hmem y).2 ⟨k, hcomp (hm.live hd) k q (by omega) hq (hm.right.complete hc k q y hq hk hw),
      hk⟩

theorem patternMatching_spec {d : IndexedBTreeGraph R} (h : d.WF) {cap : Nat}
    (hcap : d.triples.entries.length ≤ cap) (pat : CanonicalTriplePattern R) :
    ∃ xs, d.patternMatching cap pat = .ok xs ∧ xs.Nodup ∧
      (∀ y ∈ xs, d.abs y ∧ Spec.matchesTriple pat y) ∧
      (d.Clean → pat.subject ≠ .any ∨ d.Dense →
        ∀ y, d.abs y → Spec.matchesTriple pat y → y ∈ xs) := by
  obtain ⟨m, e, hi, hm⟩ := matcher_spec h pat
  obtain ⟨xs, e', h1, h2, h3⟩ := run_spec h hcap hm hi
  exact ⟨xs, by simp [patternMatching, e, e', bind, Except.bind], h1, h2, h3⟩

theorem first_spec {d : IndexedBTreeGraph R} (h : d.WF) {cap : Nat}
    (hcap : d.triples.entries.length ≤ cap) {W : Triple R → Prop} {subjAny : Prop}
    {m : Matcher TripleFilter} (hm : MatcherFor d W subjAny m) (hi : m.i = 0) :
    ∃ o m', d.matchNext cap m = .ok (o, m') ∧
      (∀ y, o = some y → d.abs y ∧ W y) ∧
      (d.Clean → ¬ subjAny ∨ d.Dense → ∀ y, d.abs y → W y → o ≠ none) := by
  obtain ⟨o, m', e, ho⟩ := Matcher.nextWith_spec TripleFilter.laws (get := d.triples.get)
    (cap := cap) (fun n q hq => Nat.lt_of_lt_of_le (Slab.lt_of_get hq) hcap) (V := d.sval)
    (read_ok h) hm.ok
  refine ⟨o, m', by rw [matchNext_eq]; exact e, ?_, ?_⟩
  · rintro y rfl
    obtain ⟨i, q, hv, -, hq, ha, -⟩ := ho
    exact ⟨⟨i, hv⟩, hm.right.sound i q y hq hv ha⟩
  · rintro hc hd y ⟨k, hk⟩ hw rfl
    obtain ⟨q, hq, -⟩ := Shape.sval_comp tripleShape_laws hk
    exact ho (hm.live hd) k q (by omega) hq (hm.right.complete hc k q y hq hk hw)

end IndexedBTreeGraph

end RdfTypes
