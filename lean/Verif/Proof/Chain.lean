import Verif.Proof.StatementTable

/-! # Acquiring and releasing all the resources of a statement -/

set_option linter.unusedSectionVars false
set_option linter.unusedSimpArgs false

namespace RdfTypes

variable {R ρ : Type} [Ord R]

/-- Every resource of the table is listed by the index, possibly through
another slot of the same value. -/
def ResOps.Covers (ops : ResOps R ρ) (res : Slab ρ) (idx : Index) : Prop :=
  ∀ i r, ops.val res i = some r → ∃ j, j ∈ idx ∧ ops.val res j = some r

/-- Every slot of the table is listed by the index. -/
def ResOps.Clean (ops : ResOps R ρ) (res : Slab ρ) (idx : Index) : Prop :=
  ∀ i r, ops.val res i = some r → i ∈ idx

theorem ResOps.Clean.covers {ops : ResOps R ρ} {res : Slab ρ} {idx : Index}
    (h : ops.Clean res idx) : ops.Covers res idx :=
  fun i r hi => ⟨i, h i r hi, hi⟩

theorem ResOps.clean_empty (ops : ResOps R ρ) : ops.Clean Slab.empty [] := by
  intro i r hi
  simp [ResOps.val] at hi

namespace Acquired

variable {ops : ResOps R ρ} {res res' : Slab ρ} {idx idx' : Index} {r : R}
  {found : Option Nat} {i' : Nat} {rep : Bool}

theorem mono (h : Acquired rep ops res idx r found res' idx' i') {j : Nat} {x : R}
    (hj : ops.val res j = some x) : ops.val res' j = some x := by
  rw [h.val]
  by_cases e : j = i'
  · subst e
    cases hf : found with
    | none => rw [h.fresh hf] at hj; cases hj
    | some i =>
      obtain ⟨rfl, -, hi⟩ := h.hit i hf
      rw [hi] at hj
      simpa using hj
  · simp [e, hj]

theorem self (h : Acquired rep ops res idx r found res' idx' i') : ops.val res' i' = some r := by
  simp [h.val]

theorem val_cases (h : Acquired rep ops res idx r found res' idx' i') {j : Nat} {x : R}
    (hj : ops.val res' j = some x) : ops.val res j = some x ∨ (j = i' ∧ x = r ) := by
  rw [h.val] at hj
  by_cases e : j = i'
  · simp only [e, if_true, Option.some.injEq] at hj
    exact Or.inr ⟨e, hj.symm⟩
  · simp only [e, if_false] at hj
    exact Or.inl hj

theorem covers (h : Acquired rep ops res idx r found res' idx' i')
    (hc : ops.Covers res idx) : ops.Covers res' idx' := by
  intro j x hj
  cases hf : found with
  | some i =>
    obtain ⟨rfl, rfl, hi⟩ := h.hit i hf
    rcases h.val_cases hj with hj | ⟨rfl, rfl⟩
    · obtain ⟨n, hn, hx⟩ := hc j x hj
      exact ⟨n, hn, h.mono hx⟩
    · obtain ⟨n, hn, hx⟩ := hc _ _ hi
      exact ⟨n, hn, h.mono hx⟩
  | none =>
    rcases h.val_cases hj with hj | ⟨rfl, rfl⟩
    · obtain ⟨n, hn, hx⟩ := hc j x hj
      by_cases hxr : x = r
      · subst hxr
        exact h.cover hf
      · exact ⟨n, h.keep n hn (by rw [hx]; simpa using hxr), h.mono hx⟩
    · exact h.cover hf

/-- The index stays complete when the resource was found, or is new. -/
theorem clean (h : Acquired rep ops res idx r found res' idx' i')
    (hc : ops.Clean res idx) (hnew : found = none → ∀ i, ops.val res i ≠ some r) :
    ops.Clean res' idx' := by
  intro j x hj
  cases hf : found with
  | some i =>
    obtain ⟨rfl, rfl, hi⟩ := h.hit i hf
    rcases h.val_cases hj with hj | ⟨rfl, rfl⟩
    · exact hc j x hj
    · exact hc _ _ hi
  | none =>
    rcases h.val_cases hj with hj | ⟨rfl, rfl⟩
    · refine h.keep j (hc j x hj) ?_
      rw [hj]
      intro e
      exact hnew hf j (by rw [hj]; exact e)
    · obtain ⟨n, hn, hx⟩ := h.cover hf
      rcases h.val_cases hx with hx' | ⟨rfl, -⟩
      · exact absurd hx' (hnew hf n)
      · exact hn

end Acquired

namespace Released

variable {ops : ResOps R ρ} {res res' : Slab ρ} {idx idx' : Index} {r : R} {i : Nat} {b : Bool}

theorem val_or (h : Released ops res idx r i res' idx' b) (j : Nat) :
    ops.val res' j = none ∨ ops.val res' j = ops.val res j := by
  rw [h.val]
  split
  · exact Or.inl rfl
  · exact Or.inr rfl

theorem val_some (h : Released ops res idx r i res' idx' b) {j : Nat} {x : R}
    (hj : ops.val res' j = some x) : ops.val res j = some x := by
  rcases h.val_or j with e | e
  · rw [e] at hj; cases hj
  · rw [← e]; exact hj

theorem sub (h : Released ops res idx r i res' idx' b) {j : Nat} (hj : j ∈ idx') : j ∈ idx := by
  cases b with
  | true => exact ((h.gone rfl j).1 hj).1
  | false => rw [h.kept rfl] at hj; exact hj

end Released

variable [Std.TransOrd R] [Std.LawfulEqOrd R]

theorem Released.clean {ops : ResOps R ρ} {res res' : Slab ρ} {idx idx' : Index} {r : R} {i : Nat}
    {b : Bool} (h : Released ops res idx r i res' idx' b) (hs : Index.Sorted (ops.val res) idx)
    (hi : ops.val res i = some r) (hc : ops.Clean res idx) : ops.Clean res' idx' := by
  intro j x hj
  have hj' := h.val_some hj
  cases b with
  | false =>
    rw [h.kept rfl]
    exact hc j x hj'
  | true =>
    refine (h.gone rfl j).2 ⟨hc j x hj', ?_⟩
    intro e
    have : j = i := hs.inj (hc j x hj') (hc i r hi) e hi
    rw [h.val] at hj
    simp [this] at hj

/-- Components of quads. -/
def quadShape (R : Type) : Shape (Quad Nat) (Quad R) R where
  comp q := fun
    | .subj => some q.s
    | .pred => some q.p
    | .obj => some q.o
    | .graph => q.g
  compV q := fun
    | .subj => some q.s
    | .pred => some q.p
    | .obj => some q.o
    | .graph => q.g
  valued v q := do
    let s ← v q.s
    let p ← v q.p
    let o ← v q.o
    match q.g with
    | none => some ⟨s, p, o, none⟩
    | some g => do
      let g ← v g
      some ⟨s, p, o, some g⟩

/-- Components of triples. -/
def tripleShape (R : Type) : Shape (Triple Nat) (Triple R) R where
  comp t := fun
    | .subj => some t.s
    | .pred => some t.p
    | .obj => some t.o
    | .graph => none
  compV t := fun
    | .subj => some t.s
    | .pred => some t.p
    | .obj => some t.o
    | .graph => none
  valued v t := do
    let s ← v t.s
    let p ← v t.p
    let o ← v t.o
    some ⟨s, p, o⟩

theorem forall_pos {P : Pos → Prop} :
    (∀ p, P p) ↔ P .subj ∧ P .pred ∧ P .obj ∧ P .graph :=
  ⟨fun h => ⟨h _, h _, h _, h _⟩, fun ⟨a, b, c, d⟩ p => by cases p <;> assumption⟩

omit [Ord R] [Std.TransOrd R] [Std.LawfulEqOrd R] in
theorem quadShape_laws : ShapeLaws (quadShape R) where
  valued_iff := by
    rintro v ⟨s, p, o, g⟩ ⟨s', p', o', g'⟩
    rw [forall_pos]
    simp only [quadShape]
    cases hs : v s <;> cases hp : v p <;> cases ho : v o <;> cases g <;>
      simp [bind, Option.bind, hs, hp, ho]
    · grind
    · rename_i g
      cases hg : v g <;> simp <;> grind
  valued_exists := by
    rintro v ⟨s, p, o, g⟩ h
    obtain ⟨s', hs⟩ := h .subj s rfl
    obtain ⟨p', hp⟩ := h .pred p rfl
    obtain ⟨o', ho⟩ := h .obj o rfl
    cases g with
    | none => exact ⟨⟨s', p', o', none⟩, by simp [quadShape, hs, hp, ho]⟩
    | some g =>
      obtain ⟨g', hg⟩ := h .graph g rfl
      exact ⟨⟨s', p', o', some g'⟩, by simp [quadShape, hs, hp, ho, hg]⟩

omit [Ord R] [Std.TransOrd R] [Std.LawfulEqOrd R] in
theorem tripleShape_laws : ShapeLaws (tripleShape R) where
  valued_iff := by
    rintro v ⟨s, p, o⟩ ⟨s', p', o'⟩
    rw [forall_pos]
    simp only [tripleShape]
    cases hs : v s <;> cases hp : v p <;> cases ho : v o <;>
      simp [bind, Option.bind, hs, hp, ho]
    grind
  valued_exists := by
    rintro v ⟨s, p, o⟩ h
    obtain ⟨s', hs⟩ := h .subj s rfl
    obtain ⟨p', hp⟩ := h .pred p rfl
    obtain ⟨o', ho⟩ := h .obj o rfl
    exact ⟨⟨s', p', o'⟩, by simp [tripleShape, hs, hp, ho]⟩

/-- The resources occurring in a statement. -/
def Shape.Occurs {σ S R : Type} (sh : Shape σ S R) (x : S) (r : R) : Prop :=
  ∃ p, sh.compV x p = some r

/-- No resource occurs at two positions of the statement, unless it satisfies
`known`. -/
def Shape.RepeatsOnly {σ S R : Type} (sh : Shape σ S R) (known : R → Prop) (x : S) : Prop :=
  ∀ p p' r, p ≠ p' → sh.compV x p = some r → sh.compV x p' = some r → known r

section ops

variable {ops : ResOps R ρ} {Rep : ρ → (Pos → Nat → Prop) → Prop}
variable {res : Slab ρ} {idx : Index} {E : Nat → Pos → Nat → Prop}

theorem readQuad_eq {quads : Slab (Quad Nat)} {k : Nat} {x : Quad R}
    (h : (quadShape R).sval ops res quads k = some x) : ops.readQuad res quads k = .ok x := by
  unfold Shape.sval at h
  cases hq : quads.get k with
  | none => simp [hq] at h
  | some q =>
    simp only [hq, Option.bind_some] at h
    have h' := (quadShape_laws.valued_iff.1 h)
    obtain ⟨⟨s, hs, es⟩, ⟨p, hp, ep⟩, ⟨o, ho, eo⟩, hg⟩ := forall_pos.1 h'
    simp only [quadShape, Option.some.injEq] at es ep eo hg
    unfold ResOps.val at hs hp ho
    rw [Option.map_eq_some_iff] at hs hp ho
    obtain ⟨xs, hxs, rfl⟩ := hs
    obtain ⟨xp, hxp, rfl⟩ := hp
    obtain ⟨xo, hxo, rfl⟩ := ho
    unfold ResOps.readQuad ResOps.quadWithResources
    cases hqg : q.g with
    | none =>
      simp only [hqg] at hg
      simp [Slab.index, hq, hxs, hxp, hxo, hqg, bind, Except.bind, pure, Except.pure]
      cases x
      simp_all
    | some g =>
      simp only [hqg] at hg
      obtain ⟨r, hr, hg⟩ := hg
      unfold ResOps.val at hr
      rw [Option.map_eq_some_iff] at hr
      obtain ⟨xg, hxg, rfl⟩ := hr
      simp [Slab.index, hq, hxs, hxp, hxo, hxg, hqg, bind, Except.bind, pure, Except.pure]
      cases x
      simp_all

theorem readTriple_eq {triples : Slab (Triple Nat)} {k : Nat} {x : Triple R}
    (h : (tripleShape R).sval ops res triples k = some x) :
    ops.readTriple res triples k = .ok x := by
  unfold Shape.sval at h
  cases hq : triples.get k with
  | none => simp [hq] at h
  | some q =>
    simp only [hq, Option.bind_some] at h
    have h' := (tripleShape_laws.valued_iff.1 h)
    obtain ⟨⟨s, hs, es⟩, ⟨p, hp, ep⟩, ⟨o, ho, eo⟩, -⟩ := forall_pos.1 h'
    simp only [tripleShape, Option.some.injEq] at es ep eo
    unfold ResOps.val at hs hp ho
    rw [Option.map_eq_some_iff] at hs hp ho
    obtain ⟨xs, hxs, rfl⟩ := hs
    obtain ⟨xp, hxp, rfl⟩ := hp
    obtain ⟨xo, hxo, rfl⟩ := ho
    unfold ResOps.readTriple ResOps.tripleWithResources
    simp [Slab.index, hq, hxs, hxp, hxo, bind, Except.bind, pure, Except.pure]
    cases x
    simp_all

theorem quadCmp_compares (quads : Slab (Quad Nat)) (x : Quad R) (l : Index) :
    Index.Compares ((quadShape R).sval ops res quads) x l (ops.quadCmp res quads x) := by
  intro i _ y hy
  simp [ResOps.quadCmp, readQuad_eq hy, bind, Except.bind, pure, Except.pure]

theorem quadIndexCmp_compares (quads : Slab (Quad Nat)) (x : Quad R) (j : Nat) (l : Index)
    (hj : (quadShape R).sval ops res quads j = some x) :
    Index.Compares ((quadShape R).sval ops res quads) x l (ops.quadIndexCmp res quads j) := by
  intro i _ y hy
  simp [ResOps.quadIndexCmp, readQuad_eq hy, readQuad_eq hj, bind, Except.bind, pure, Except.pure]

theorem tripleCmp_compares (triples : Slab (Triple Nat)) (x : Triple R) (l : Index) :
    Index.Compares ((tripleShape R).sval ops res triples) x l (ops.tripleCmp res triples x) := by
  intro i _ y hy
  simp [ResOps.tripleCmp, readTriple_eq hy, bind, Except.bind, pure, Except.pure]

theorem tripleIndexCmp_compares (triples : Slab (Triple Nat)) (x : Triple R) (j : Nat) (l : Index)
    (hj : (tripleShape R).sval ops res triples j = some x) :
    Index.Compares ((tripleShape R).sval ops res triples) x l
      (ops.tripleIndexCmp res triples j) := by
  intro i _ y hy
  simp [ResOps.tripleIndexCmp, readTriple_eq hy, readTriple_eq hj, bind, Except.bind, pure,
    Except.pure]

/-- Positions in the order in which the containers treat them. -/
def Pos.rank : Pos → Nat
  | .subj => 0
  | .pred => 1
  | .obj => 2
  | .graph => 3

/-- State after acquiring some of the resources of a statement: `done` tells at which
position, which resource, and in which slot. -/
structure Acquiring (rep : Bool) (ops : ResOps R ρ) (res : Slab ρ) (idx : Index) (res' : Slab ρ)
    (idx' : Index) (done : List (Pos × R × Nat)) : Prop where
  mono : ∀ j r, ops.val res j = some r → ops.val res' j = some r
  vals : ∀ a ∈ done, ops.val res' a.2.2 = some a.2.1
  kept : ∀ i ∈ idx, i ∈ idx'
  sub : ∀ i ∈ idx', i ∈ idx ∨ ∃ a ∈ done, a.2.2 = i
  hit : ∀ a ∈ done, ∀ i ∈ idx, ops.val res i = some a.2.1 → a.2.2 = i
  miss : ∀ a ∈ done, (∀ i ∈ idx, ops.val res i ≠ some a.2.1) → ops.val res a.2.2 = none
  apart : ∀ a ∈ done, ∀ b ∈ done, a.1 ≠ b.1 → a.2.2 = b.2.2 →
    ∃ i ∈ idx, ops.val res i = some a.2.1
  lead : ∀ a ∈ done, (∀ i ∈ idx, ops.val res i ≠ some a.2.1) →
    (∀ b ∈ done, (if rep then a.1.rank < b.1.rank else b.1.rank < a.1.rank) → b.2.1 ≠ a.2.1) →
    a.2.2 ∈ idx'

theorem Acquiring.start (rep : Bool) (res : Slab ρ) (idx : Index) :
    Acquiring rep ops res idx res idx [] := by
  constructor <;> simp

/-- One more resource acquired. -/
theorem Acquiring.step {rep : Bool} {res' res'' : Slab ρ} {idx' idx'' : Index}
    {done : List (Pos × R × Nat)} (h : Acquiring rep ops res idx res' idx' done)
    (hd : ∀ i ∈ idx, ∃ x, ops.val res i = some x) {pos : Pos} {r : R} {found : Option Nat} {i' : Nat}
    (hf : ∀ i, found = some i ↔ i ∈ idx ∧ ops.val res i = some r)
    (a : Acquired rep ops res' idx' r found res'' idx'' i')
    (hp : ∀ b ∈ done, b.1.rank < pos.rank) :
    Acquiring rep ops res idx res'' idx'' ((pos, r, i') :: done) := by
  have old : ∀ i ∈ idx, ∀ x, ops.val res' i = some x → ops.val res i = some x := by
    intro i hi x hx
    obtain ⟨y, hy⟩ := hd i hi
    rw [h.mono i y hy] at hx
    rw [hy, ← hx]
  have none_of : (∀ i ∈ idx, ops.val res i ≠ some r) → found = none := by
    intro hn
    cases hfd : found with
    | none => rfl
    | some i => exact absurd ((hf i).1 hfd).2 (hn i ((hf i).1 hfd).1)
  have not_of : found = none → ∀ i ∈ idx, ops.val res i ≠ some r := by
    intro hn i hi hv
    have := (hf i).2 ⟨hi, hv⟩
    rw [hn] at this
    cases this
  have keep : ∀ i ∈ idx', ops.val res' i ≠ some r → i ∈ idx'' := by
    intro i hi hv
    cases hfd : found with
    | some j => rw [(a.hit j hfd).2.1]; exact hi
    | none => exact a.keep i hi hv
  refine ⟨fun j x hx => a.mono (h.mono j x hx), ?_, ?_, ?_, ?_, ?_, ?_, ?_⟩
  · intro b hb
    rcases List.mem_cons.1 hb with rfl | hb
    · exact a.self
    · exact a.mono (h.vals b hb)
  · intro i hi
    cases hfd : found with
    | some j => rw [(a.hit j hfd).2.1]; exact h.kept i hi
    | none =>
      refine a.keep i (h.kept i hi) fun hv => ?_
      exact not_of hfd i hi (old i hi r hv)
  · intro i hi
    rcases a.sub i hi with hi | rfl
    · rcases h.sub i hi with hi | ⟨b, hb, e⟩
      · exact .inl hi
      · exact .inr ⟨b, by simp [hb], e⟩
    · exact .inr ⟨_, List.mem_cons_self, rfl⟩
  · intro b hb i hi hv
    rcases List.mem_cons.1 hb with rfl | hb
    · exact (a.hit i ((hf i).2 ⟨hi, hv⟩)).1
    · exact h.hit b hb i hi hv
  · intro b hb hn
    rcases List.mem_cons.1 hb with rfl | hb
    · have hv := a.fresh (none_of hn)
      cases hx : ops.val res i' with
      | none => rfl
      | some x =>
        rw [h.mono i' x hx] at hv
        cases hv
    · exact h.miss b hb hn
  · have new : ∀ b ∈ done, b.2.2 = i' → ∃ i ∈ idx, ops.val res i = some r := by
      intro b hb e
      cases hfd : found with
      | some j => exact ⟨j, (hf j).1 hfd⟩
      | none =>
        have := h.vals b hb
        rw [e, a.fresh hfd] at this
        cases this
    intro b hb c hc hbc e
    rcases List.mem_cons.1 hb with rfl | hb <;> rcases List.mem_cons.1 hc with rfl | hc
    · exact absurd rfl hbc
    · exact new c hc e.symm
    · obtain ⟨i, hi, hv⟩ := new b hb e
      have h1 := h.vals b hb
      have h2 := a.mono h1
      rw [e, a.self] at h2
      cases h2
      exact ⟨i, hi, hv⟩
    · exact h.apart b hb c hc hbc e
  · intro b hb hn hl
    cases hrep : rep with
    | false =>
      simp only [hrep, Bool.false_eq_true, if_false] at hl
      rcases List.mem_cons.1 hb with rfl | hb
      · have hno := none_of hn
        obtain ⟨i, hi, hv⟩ := a.cover hno
        rcases a.sub i hi with hi' | rfl
        · exfalso
          rcases a.val_cases hv with hv' | ⟨rfl, -⟩
          · rcases h.sub i hi' with hi0 | ⟨c, hc, rfl⟩
            · exact hn i hi0 (old i hi0 _ hv')
            · rw [h.vals c hc] at hv'
              cases hv'
              exact hl c (by simp [hc]) (hp c hc) rfl
          · rcases h.sub i hi' with hi0 | ⟨c, hc, e⟩
            · obtain ⟨y, hy⟩ := hd i hi0
              have := a.fresh hno
              rw [h.mono i y hy] at this
              cases this
            · have := a.fresh hno
              rw [← e, h.vals c hc] at this
              cases this
        · exact hi
      · refine a.first hrep _ (h.lead b hb hn fun c hc => ?_)
        simp only [hrep, Bool.false_eq_true, if_false]
        exact hl c (by simp [hc])
    | true =>
      simp only [hrep, if_true] at hl
      rcases List.mem_cons.1 hb with rfl | hb'
      · exact a.last hrep (none_of hn)
      · refine keep _ (h.lead b hb' hn fun c hc => ?_) ?_
        · simp only [hrep, if_true]
          exact hl c (by simp [hc])
        · rw [h.vals b hb']
          intro e
          exact hl _ List.mem_cons_self (hp b hb') (Option.some.inj e).symm

/-- Result of acquiring all the resources of statement `x`, stored as `q` at key
`k`. -/
structure AcquiredAll (rep : Bool) {σ S : Type} (sh : Shape σ S R) (ops : ResOps R ρ)
    (Rep : ρ → (Pos → Nat → Prop) → Prop) (res : Slab ρ) (idx : Index)
    (E : Nat → Pos → Nat → Prop) (k : Nat) (x : S) (res' : Slab ρ) (idx' : Index) (q : σ) :
    Prop where
  inv : ResInv ops Rep res' idx' (fun i p n => E i p n ∨ (n = k ∧ sh.comp q p = some i))
  mono : ∀ j r, ops.val res j = some r → ops.val res' j = some r
  valued : sh.valued (ops.val res') q = some x
  covers : ops.Covers res idx → ops.Covers res' idx'
  clean : ops.Clean res idx →
    sh.RepeatsOnly (fun r => ∃ i, ops.val res i = some r) x → ops.Clean res' idx'
  steps : ∃ done, Acquiring rep ops res idx res' idx' done ∧
    ∀ p r i, (p, r, i) ∈ done ↔ sh.compV x p = some r ∧ sh.comp q p = some i

/-- With a complete index, a resource not found is in no slot. -/
theorem ResOps.Clean.not_found (hc : ops.Clean res idx) {r : R} {found : Option Nat}
    (hf : ∀ i, found = some i ↔ i ∈ idx ∧ ops.val res i = some r) (hn : found = none) (i : Nat) :
    ops.val res i ≠ some r := by
  intro hi
  have := (hf i).2 ⟨hc i r hi, hi⟩
  rw [hn] at this
  cases this

theorem acquireTriple_spec (L : ResLaws ops Rep) (rep : Bool) (h : ResInv ops Rep res idx E)
    (k : Nat) (x : Triple R) (hfresh : ∀ i p, ¬ E i p k) :
    ∃ res' idx' q, ops.acquireTriple rep res idx k x = .ok (res', idx', q) ∧
      AcquiredAll rep (tripleShape R) ops Rep res idx E k x res' idx' q := by
  obtain ⟨s, p, o⟩ := x
  obtain ⟨sf, hsf, sf_iff⟩ := h.indexOf_spec s
  obtain ⟨pf, hpf, pf_iff⟩ := h.indexOf_spec p
  obtain ⟨of, hof, of_iff⟩ := h.indexOf_spec o
  obtain ⟨res1, idx1, i1, e1, inv1, a1⟩ := h.acquire_spec L rep .subj k s sf
    (fun i hi => ((sf_iff i).1 hi).2) (fun i => hfresh i _)
  obtain ⟨res2, idx2, i2, e2, inv2, a2⟩ := inv1.acquire_spec L rep .pred k p pf
    (fun i hi => a1.mono ((pf_iff i).1 hi).2)
    (by rintro i (hi | ⟨-, hi, -⟩)
        · exact hfresh i _ hi
        · cases hi)
  obtain ⟨res3, idx3, i3, e3, inv3, a3⟩ := inv2.acquire_spec L rep .obj k o of
    (fun i hi => a2.mono (a1.mono ((of_iff i).1 hi).2))
    (by rintro i ((hi | ⟨-, hi, -⟩) | ⟨-, hi, -⟩)
        · exact hfresh i _ hi
        · cases hi
        · cases hi)
  refine ⟨res3, idx3, ⟨i1, i2, i3⟩, ?_, ?_, ?_, ?_, ?_, ?_, ?_⟩
  · simp [ResOps.acquireTriple, hsf, hpf, hof, e1, e2, e3, bind, Except.bind, pure, Except.pure]
  · refine inv3.congr L ?_
    intro i p n
    cases p <;> simp [tripleShape] <;> grind
  · intro j r hj
    exact a3.mono (a2.mono (a1.mono hj))
  · rw [tripleShape_laws.valued_iff, forall_pos]
    exact ⟨⟨s, a3.mono (a2.mono a1.self), rfl⟩, ⟨p, a3.mono a2.self, rfl⟩, ⟨o, a3.self, rfl⟩, rfl⟩
  · intro hc
    exact a3.covers (a2.covers (a1.covers hc))
  · intro hc hr
    have n1 := hc.not_found sf_iff
    have n2 := hc.not_found pf_iff
    have n3 := hc.not_found of_iff
    refine a3.clean (a2.clean (a1.clean hc n1) ?_) ?_
    · intro hn i hi
      rcases a1.val_cases hi with hi | ⟨rfl, rfl⟩
      · exact n2 hn i hi
      · obtain ⟨j, hj⟩ := hr .subj .pred p (by simp) rfl rfl
        exact n2 hn j hj
    · intro hn i hi
      rcases a2.val_cases hi with hi | ⟨rfl, rfl⟩
      · rcases a1.val_cases hi with hi | ⟨rfl, rfl⟩
        · exact n3 hn i hi
        · obtain ⟨j, hj⟩ := hr .subj .obj o (by simp) rfl rfl
          exact n3 hn j hj
      · obtain ⟨j, hj⟩ := hr .pred .obj o (by simp) rfl rfl
        exact n3 hn j hj
  · have hd := h.sorted.defined
    have s1 := (Acquiring.start rep res idx).step hd (pos := .subj) sf_iff a1 (by simp)
    have s2 := s1.step hd (pos := .pred) pf_iff a2 (by simp [Pos.rank])
    have s3 := s2.step hd (pos := .obj) of_iff a3 (by simp [Pos.rank])
    refine ⟨_, s3, fun p r i => ?_⟩
    cases p <;> simp [tripleShape, eq_comm]

theorem acquireQuad_spec (L : ResLaws ops Rep) (rep : Bool) (h : ResInv ops Rep res idx E)
    (k : Nat) (x : Quad R) (hfresh : ∀ i p, ¬ E i p k) :
    ∃ res' idx' q, ops.acquireQuad rep res idx k x = .ok (res', idx', q) ∧
      AcquiredAll rep (quadShape R) ops Rep res idx E k x res' idx' q := by
  obtain ⟨s, p, o, g⟩ := x
  obtain ⟨sf, hsf, sf_iff⟩ := h.indexOf_spec s
  obtain ⟨pf, hpf, pf_iff⟩ := h.indexOf_spec p
  obtain ⟨of, hof, of_iff⟩ := h.indexOf_spec o
  obtain ⟨res1, idx1, i1, e1, inv1, a1⟩ := h.acquire_spec L rep .subj k s sf
    (fun i hi => ((sf_iff i).1 hi).2) (fun i => hfresh i _)
  obtain ⟨res2, idx2, i2, e2, inv2, a2⟩ := inv1.acquire_spec L rep .pred k p pf
    (fun i hi => a1.mono ((pf_iff i).1 hi).2)
    (by rintro i (hi | ⟨-, hi, -⟩)
        · exact hfresh i _ hi
        · cases hi)
  obtain ⟨res3, idx3, i3, e3, inv3, a3⟩ := inv2.acquire_spec L rep .obj k o of
    (fun i hi => a2.mono (a1.mono ((of_iff i).1 hi).2))
    (by rintro i ((hi | ⟨-, hi, -⟩) | ⟨-, hi, -⟩)
        · exact hfresh i _ hi
        · cases hi
        · cases hi)
  have clean3 : ops.Clean res idx →
      (quadShape R).RepeatsOnly (fun r => ∃ i, ops.val res i = some r) ⟨s, p, o, g⟩ →
      ops.Clean res3 idx3 := by
    intro hc hr
    have n1 := hc.not_found sf_iff
    have n2 := hc.not_found pf_iff
    have n3 := hc.not_found of_iff
    refine a3.clean (a2.clean (a1.clean hc n1) ?_) ?_
    · intro hn i hi
      rcases a1.val_cases hi with hi | ⟨rfl, rfl⟩
      · exact n2 hn i hi
      · obtain ⟨j, hj⟩ := hr .subj .pred p (by simp) rfl rfl
        exact n2 hn j hj
    · intro hn i hi
      rcases a2.val_cases hi with hi | ⟨rfl, rfl⟩
      · rcases a1.val_cases hi with hi | ⟨rfl, rfl⟩
        · exact n3 hn i hi
        · obtain ⟨j, hj⟩ := hr .subj .obj o (by simp) rfl rfl
          exact n3 hn j hj
      · obtain ⟨j, hj⟩ := hr .pred .obj o (by simp) rfl rfl
        exact n3 hn j hj
  have hd := h.sorted.defined
  have s1 := (Acquiring.start rep res idx).step hd (pos := .subj) sf_iff a1 (by simp)
  have s2 := s1.step hd (pos := .pred) pf_iff a2 (by simp [Pos.rank])
  have s3 := s2.step hd (pos := .obj) of_iff a3 (by simp [Pos.rank])
  cases g with
  | none =>
    refine ⟨res3, idx3, ⟨i1, i2, i3, none⟩, ?_, ?_, ?_, ?_, ?_, clean3, _, s3, fun p r i => by
      cases p <;> simp [quadShape, eq_comm]⟩
    · simp [ResOps.acquireQuad, hsf, hpf, hof, e1, e2, e3, bind, Except.bind, pure, Except.pure]
    · refine inv3.congr L ?_
      intro i p n
      cases p <;> simp [quadShape] <;> grind
    · intro j r hj
      exact a3.mono (a2.mono (a1.mono hj))
    · rw [quadShape_laws.valued_iff, forall_pos]
      exact ⟨⟨s, a3.mono (a2.mono a1.self), rfl⟩, ⟨p, a3.mono a2.self, rfl⟩,
        ⟨o, a3.self, rfl⟩, rfl⟩
    · intro hc
      exact a3.covers (a2.covers (a1.covers hc))
  | some g =>
    obtain ⟨gf, hgf, gf_iff⟩ := h.indexOf_spec g
    obtain ⟨res4, idx4, i4, e4, inv4, a4⟩ := inv3.acquire_spec L rep .graph k g gf
      (fun i hi => a3.mono (a2.mono (a1.mono ((gf_iff i).1 hi).2)))
      (by rintro i (((hi | ⟨-, hi, -⟩) | ⟨-, hi, -⟩) | ⟨-, hi, -⟩)
          · exact hfresh i _ hi
          · cases hi
          · cases hi
          · cases hi)
    have s4 := s3.step hd (pos := .graph) gf_iff a4 (by simp [Pos.rank])
    refine ⟨res4, idx4, ⟨i1, i2, i3, some i4⟩, ?_, ?_, ?_, ?_, ?_, ?_, _, s4, fun p r i => by
      cases p <;> simp [quadShape, eq_comm]⟩
    · simp [ResOps.acquireQuad, hsf, hpf, hof, hgf, e1, e2, e3, e4, bind, Except.bind, pure,
        Except.pure]
    · refine inv4.congr L ?_
      intro i p n
      cases p <;> simp [quadShape] <;> grind
    · intro j r hj
      exact a4.mono (a3.mono (a2.mono (a1.mono hj)))
    · rw [quadShape_laws.valued_iff, forall_pos]
      exact ⟨⟨s, a4.mono (a3.mono (a2.mono a1.self)), rfl⟩, ⟨p, a4.mono (a3.mono a2.self), rfl⟩,
        ⟨o, a4.mono a3.self, rfl⟩, ⟨g, a4.self, rfl⟩⟩
    · intro hc
      exact a4.covers (a3.covers (a2.covers (a1.covers hc)))
    · intro hc hr
      have n4 := hc.not_found gf_iff
      refine a4.clean (clean3 hc hr) ?_
      intro hn i hi
      rcases a3.val_cases hi with hi | ⟨rfl, rfl⟩
      · rcases a2.val_cases hi with hi | ⟨rfl, rfl⟩
        · rcases a1.val_cases hi with hi | ⟨rfl, rfl⟩
          · exact n4 hn i hi
          · obtain ⟨j, hj⟩ := hr .subj .graph g (by simp) rfl rfl
            exact n4 hn j hj
        · obtain ⟨j, hj⟩ := hr .pred .graph g (by simp) rfl rfl
          exact n4 hn j hj
      · obtain ⟨j, hj⟩ := hr .obj .graph g (by simp) rfl rfl
        exact n4 hn j hj

/-- State after releasing some of the resources of the statement stored at `k`:
`E` tells what is still used. -/
structure Releasing (ops : ResOps R ρ) (Rep : ρ → (Pos → Nat → Prop) → Prop)
    (res : Slab ρ) (idx : Index) (res' : Slab ρ) (idx' : Index)
    (E : Nat → Pos → Nat → Prop) : Prop where
  inv : ResInv ops Rep res' idx' E
  val : ∀ j, ops.val res' j = none ∨ ops.val res' j = ops.val res j
  clean : ops.Clean res idx → ops.Clean res' idx'
  index : ∀ j, j ∈ idx' ↔ j ∈ idx ∧
    ∀ i r, ops.val res i = some r → ops.val res' i = none → ops.val res j ≠ some r

theorem Releasing.start (h : ResInv ops Rep res idx E) : Releasing ops Rep res idx res idx E :=
  ⟨h, fun _ => Or.inr rfl, id, fun j => ⟨fun hj => ⟨hj, fun i r h1 h2 => by simp [h1] at h2⟩,
    And.left⟩⟩

/-- One more resource released. -/
theorem Releasing.step (L : ResLaws ops Rep) {res' : Slab ρ} {idx' : Index}
    (h : Releasing ops Rep res idx res' idx' E) (pos : Pos) (k i : Nat) (r : R)
    (cmp : Slab ρ → Nat → Res Ordering)
    (hcmp : ∀ res', ops.val res' i = some r → ∀ l, Index.Compares (ops.val res') r l (cmp res'))
    (hval : ops.val res i = some r) (hE : E i pos k) :
    ∃ res'' idx'' b, ops.release res' idx' pos k i cmp = .ok (res'', idx'', b) ∧
      Releasing ops Rep res idx res'' idx''
        (fun j p n => E j p n ∧ ¬ (j = i ∧ p = pos ∧ n = k)) ∧
      Released ops res' idx' r i res'' idx'' b := by
  have hval' : ops.val res' i = some r := by
    obtain ⟨x, hx⟩ := h.inv.val_isSome_of_used hE
    rcases h.val i with e | e
    · rw [e] at hx; cases hx
    · rw [e]; exact hval
  obtain ⟨res'', idx'', b, e, inv, rel⟩ := h.inv.release_spec L pos k i r cmp
    (fun res'' hv => hcmp res'' (by rw [hv]; exact hval') idx') hval' hE
  refine ⟨res'', idx'', b, e, ⟨inv, ?_, ?_, ?_⟩, rel⟩
  · intro j
    rcases rel.val_or j with e | e
    · exact Or.inl e
    · rw [e]; exact h.val j
  · intro hc
    exact rel.clean h.inv.sorted hval' (h.clean hc)
  · intro j
    cases b with
    | false =>
      have hv : ∀ n, ops.val res'' n = ops.val res' n := by simpa using rel.val
      rw [rel.kept rfl, h.index]
      simp only [hv]
    | true =>
      have hv : ∀ n, ops.val res'' n = if n = i then none else ops.val res' n := by
        simpa using rel.val
      have same : j ∈ idx' → ops.val res' j = ops.val res j := by
        intro hj
        obtain ⟨y, hy⟩ := h.inv.sorted.defined j hj
        rcases h.val j with e | e
        · rw [e] at hy; cases hy
        · exact e
      rw [rel.gone rfl j]
      constructor
      · rintro ⟨hj, hne⟩
        rw [same hj] at hne
        obtain ⟨hj', hl⟩ := (h.index j).1 hj
        refine ⟨hj', fun n x hn hx => ?_⟩
        rw [hv] at hx
        by_cases hni : n = i
        · subst hni
          rw [hval] at hn
          cases hn
          exact hne
        · simp only [hni, if_false] at hx
          exact hl n x hn hx
      · rintro ⟨hj, hl⟩
        have hj' : j ∈ idx' := (h.index j).2 ⟨hj, fun n x hn hx => hl n x hn (by
          rw [hv]; split <;> simp [hx])⟩
        refine ⟨hj', ?_⟩
        rw [same hj']
        exact hl i r hval (by simp [hv])

/-- Comparing by value and comparing by slot agree. -/
theorem cmp_by_value (i : Nat) (r : R) : ∀ res', ops.val res' i = some r →
    ∀ l, Index.Compares (ops.val res') r l (ops.resourceCmp res' r) :=
  fun res' _ l => ResInv.resourceCmp_compares res' r l

theorem cmp_by_index (i : Nat) (r : R) : ∀ res', ops.val res' i = some r →
    ∀ l, Index.Compares (ops.val res') r l (ops.resourceIndexCmp res' i) :=
  fun res' h l => ResInv.resourceIndexCmp_compares res' r i l h

end ops

end RdfTypes
