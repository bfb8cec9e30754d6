import Verif.Proof.Facts

/-! # Subjects, predicates, objects and graph names along histories -/

set_option linter.unusedSectionVars false
set_option linter.unusedSimpArgs false

namespace RdfTypes

open Container

/-! ## Removing the last statement with a term -/

section

variable {R ρ σ S : Type} [Ord R] [Std.TransOrd R] [Std.LawfulEqOrd R] [Ord S] [Std.TransOrd S]
  [Std.LawfulEqOrd S] {sh : Shape σ S R} {st : Slab σ} {ops : ResOps R ρ}
  {Rep : ρ → (Pos → Nat → Prop) → Prop} {res : Slab ρ} {ridx sidx : Index}

theorem Inv.only_user (H : ShapeLaws sh) (h : Inv sh ops Rep res ridx st sidx) {p : Pos} {k : Nat}
    {x : S} (hx : sh.sval ops res st k = some x)
    (hl : ∀ y, sh.abs ops res st y → sh.compV y p = sh.compV x p → y = x) {i : Nat}
    (hk : sh.uses st i p k) {n : Nat} (hn : sh.uses st i p n) : n = k := by
  obtain ⟨x', r, hx', hr, hc⟩ := h.comp_value H hk
  rw [hx] at hx'
  cases hx'
  obtain ⟨y, r', hy, hr', hc'⟩ := h.comp_value H hn
  rw [hr] at hr'
  cases hr'
  cases hl y ⟨n, hy⟩ (by rw [hc', hc])
  exact h.sval_inj H hy hx

end

variable {R : Type} [Ord R] [Std.TransOrd R] [Std.LawfulEqOrd R] {rep : Bool}

namespace IndexedBTreeDataset

/-- The set kept for a position. -/
def posSet (d : IndexedBTreeDataset R) : Pos → NatSet
  | .subj => d.subjects
  | .pred => d.predicates
  | .obj => d.objects
  | .graph => d.namedGraphs

theorem reach_full {P₀ P : (Quad R → Prop) → Op (Quad R) → Prop}
    (hP : ∀ A op, P A op → Spec.insertOnly A op) {d : IndexedBTreeDataset R} {A : Quad R → Prop}
    (h : Spec.DatasetReach rep P₀ P False d A) : d.Full := by
  refine reach_keeps (Q := Full) ?_ ?_ ?_ ?_ ?_ h
  · have hu : ∀ i p k, ¬ (quadShape R).uses (new : IndexedBTreeDataset R).quads i p k := by
      rintro i p k ⟨q, hq, -⟩
      simp [new] at hq
    exact ⟨fun i k hi => (hu _ _ _ hi).elim, fun i k hi => (hu _ _ _ hi).elim,
      fun i k hi => (hu _ _ _ hi).elim, ⟨NatSet.asc_nil, by simp [new]⟩⟩
  · intro g A d hg e
    obtain ⟨d1, e1, -, f, -⟩ := fromNonIndexed_spec ((BTreeDataset.laws rep).reach_stands hg).1
    rw [e] at e1
    cases e1
    exact f
  · intro d A x d' b hs hc hp e
    obtain ⟨d1, b1, e1, -, -, -, -, -, -, f, -⟩ := insert_spec rep hs.1 x
    rw [e] at e1
    cases e1
    exact f hc
  · intro d A k q x d' hs hc hp r
    exact (hP _ _ hp).elim
  · exact False.elim

/-- The set kept for a position other than the graph name stays complete when
only the last statement with a given term is removed. -/
theorem reach_posFull {P₀ P : (Quad R → Prop) → Op (Quad R) → Prop} {p : Pos} (hpg : p ≠ .graph)
    (hP : ∀ A op, P A op → Spec.lastWith (fun y => (quadShape R).compV y p) A op)
    {d : IndexedBTreeDataset R} {A : Quad R → Prop}
    (h : Spec.DatasetReach rep P₀ P False d A) :
    PosFull (quadShape R) d.quads p (d.posSet p) := by
  refine reach_keeps (Q := fun d => PosFull (quadShape R) d.quads p (d.posSet p)) ?_ ?_ ?_ ?_ ?_ h
  · rintro i k ⟨q, hq, -⟩
    simp [new] at hq
  · intro g A d hg e
    obtain ⟨d1, e1, -, f, -⟩ := fromNonIndexed_spec ((BTreeDataset.laws rep).reach_stands hg).1
    rw [e] at e1
    cases e1
    cases p
    · exact f.subj
    · exact f.pred
    · exact f.obj
    · exact (hpg rfl).elim
  · intro d A x d' b hs hc hp e
    obtain ⟨d1, b1, e1, -, -, -, hb, -, -, -, -, hi⟩ := insert_spec rep hs.1 x
    rw [e] at e1
    cases e1
    cases b with
    | false => rw [hb rfl]; exact hc
    | true =>
      obtain ⟨q, h1, h2, h3, h4⟩ := hi rfl
      have hw := hs.1.inv.wf
      rw [h1]
      cases p
      · simp only [posSet, h2]; exact hc.insert hw rfl
      · simp only [posSet, h3]; exact hc.insert hw rfl
      · simp only [posSet, h4]; exact hc.insert hw rfl
      · exact (hpg rfl).elim
  · intro d A k q x d' hs hc hp r
    have hl := hP _ _ hp ((hs.2 x).1 ⟨k, r.was⟩)
    have hu : ∀ i n, (quadShape R).comp q p = some i → (quadShape R).uses d.quads i p n → n = k :=
      fun i n hi hn => hs.1.inv.only_user quadShape_laws r.was
        (fun y hy => hl y ((hs.2 y).1 hy)) ⟨q, r.get, hi⟩ hn
    rw [r.quads]
    cases p
    · simp only [posSet, r.subjects]; exact hc.remove (q := q) rfl (fun n => hu _ n rfl)
    · simp only [posSet, r.predicates]; exact hc.remove (q := q) rfl (fun n => hu _ n rfl)
    · simp only [posSet, r.objects]; exact hc.remove (q := q) rfl (fun n => hu _ n rfl)
    · exact (hpg rfl).elim
  · exact False.elim

/-- Graph names occur in no other position. -/
def Apart (A : Quad R → Prop) : Prop :=
  ∀ y z r, A y → A z → y.g = some r → z.s ≠ r ∧ z.p ≠ r ∧ z.o ≠ r

theorem graphOnly_of_apart {d : IndexedBTreeDataset R} (h : d.WF) (ha : Apart d.abs) :
    d.GraphOnly := by
  intro i p n n' hn hn'
  obtain ⟨y, r, hy, hr, hc⟩ := h.inv.comp_value quadShape_laws hn
  obtain ⟨z, r', hz, hr', hc'⟩ := h.inv.comp_value quadShape_laws hn'
  rw [hr] at hr'
  cases hr'
  have := ha y z r ⟨n, hy⟩ ⟨n', hz⟩ hc
  cases p <;> simp_all [quadShape]

theorem reach_named {P₀ P : (Quad R → Prop) → Op (Quad R) → Prop} {takes : Prop}
    (hP₀ : ∀ A op, P₀ A op → Spec.graphNamesApart A op)
    (hP : ∀ A op, P A op → Spec.graphNamesApart A op)
    {d : IndexedBTreeDataset R} {A : Quad R → Prop}
    (h : Spec.DatasetReach rep P₀ P takes d A) :
    PosSet (quadShape R) d.quads .graph d.namedGraphs := by
  have plain : ∀ g A, Spec.Reach (BTreeDataset.container rep R) P₀ g A → Apart g.abs := by
    intro g A hg
    refine (BTreeDataset.laws rep).reach_keeps (Q := fun g => Apart g.abs) ?_ ?_ ?_ hg
    · intro y z r hy
      exact ((BTreeDataset.laws rep).abs_empty y hy).elim
    · intro d A x d' b hs hc hp e
      obtain ⟨d1, b1, e1, -, a, -⟩ := BTreeDataset.insert_spec rep hs.1 x
      cases Except.ok.inj (Eq.trans (Eq.symm e1) e)
      intro y z r hy hz
      rw [a, hs.2] at hy hz
      exact hP₀ _ _ hp y z r hy hz
    · intro d A x d' b hs hc hp e
      obtain ⟨d1, b1, e1, -, a, -⟩ := BTreeDataset.remove_spec hs.1 x
      cases Except.ok.inj (Eq.trans (Eq.symm e1) e)
      intro y z r hy hz
      rw [a] at hy hz
      exact hc y z r hy.1 hz.1
  refine (reach_keeps (Q := fun d => PosSet (quadShape R) d.quads .graph d.namedGraphs ∧
    Apart d.abs) ?_ ?_ ?_ ?_ ?_ h).1
  · refine ⟨⟨NatSet.asc_nil, by simp [new]⟩, ?_⟩
    intro y z r hy
    exact ((laws rep).abs_empty y hy).elim
  · intro g A d hg e
    obtain ⟨d1, e1, -, f, a, -⟩ := fromNonIndexed_spec ((BTreeDataset.laws rep).reach_stands hg).1
    rw [e] at e1
    cases e1
    refine ⟨f.named, ?_⟩
    intro y z r hy hz
    rw [a] at hy hz
    exact plain g A hg y z r hy hz
  · intro d A x d' b hs hc hp e
    obtain ⟨d1, b1, e1, -, a, -, -, -, -, -, f, -⟩ := insert_spec rep hs.1 x
    rw [e] at e1
    cases e1
    refine ⟨f hc.1, ?_⟩
    intro y z r hy hz
    rw [a, hs.2] at hy hz
    exact hP _ _ hp y z r hy hz
  · intro d A k q x d' hs hc hp r
    refine ⟨r.named (fun i p n hi hu => graphOnly_of_apart hs.1 hc.2 i p k n ⟨q, r.get, hi⟩ hu) hc.1,
      ?_⟩
    intro y z t hy hz
    rw [r.abs] at hy hz
    exact hc.2 y z t hy.1 hz.1
  · intro _ d A xs d' hs hc r
    refine ⟨r.named (graphOnly_of_apart hs.1 hc.2) hc.1, ?_⟩
    intro y z t hy hz
    rw [r.abs.1] at hy hz
    exact hc.2 y z t hy.1 hz.1

end IndexedBTreeDataset

namespace IndexedBTreeGraph

/-- The set kept for a position. -/
def posSet (d : IndexedBTreeGraph R) : Pos → NatSet
  | .subj => d.subjects
  | .pred => d.predicates
  | .obj => d.objects
  | .graph => []

theorem reach_full {P₀ P : (Triple R → Prop) → Op (Triple R) → Prop}
    (hP : ∀ A op, P A op → Spec.insertOnly A op) {d : IndexedBTreeGraph R} {A : Triple R → Prop}
    (h : Spec.GraphReach rep P₀ P d A) : d.Full := by
  refine reach_keeps (Q := Full) ?_ ?_ ?_ ?_ h
  · have hu : ∀ i p k, ¬ (tripleShape R).uses (new : IndexedBTreeGraph R).triples i p k := by
      rintro i p k ⟨q, hq, -⟩
      simp [new] at hq
    exact ⟨fun i k hi => (hu _ _ _ hi).elim, fun i k hi => (hu _ _ _ hi).elim,
      fun i k hi => (hu _ _ _ hi).elim⟩
  · intro g A d hg e
    obtain ⟨d1, e1, -, f, -⟩ := fromNonIndexed_spec ((BTreeGraph.laws rep).reach_stands hg).1
    rw [e] at e1
    cases e1
    exact f
  · intro d A x d' b hs hc hp e
    obtain ⟨d1, b1, e1, -, -, -, -, -, -, f, -⟩ := insert_spec rep hs.1 x
    rw [e] at e1
    cases e1
    exact f hc
  · intro d A k q x d' hs hc hp r
    exact (hP _ _ hp).elim

theorem reach_posFull {P₀ P : (Triple R → Prop) → Op (Triple R) → Prop} {p : Pos} (hpg : p ≠ .graph)
    (hP : ∀ A op, P A op → Spec.lastWith (fun y => (tripleShape R).compV y p) A op)
    {d : IndexedBTreeGraph R} {A : Triple R → Prop}
    (h : Spec.GraphReach rep P₀ P d A) :
    PosFull (tripleShape R) d.triples p (d.posSet p) := by
  refine reach_keeps (Q := fun d => PosFull (tripleShape R) d.triples p (d.posSet p)) ?_ ?_ ?_ ?_ h
  · rintro i k ⟨q, hq, -⟩
    simp [new] at hq
  · intro g A d hg e
    obtain ⟨d1, e1, -, f, -⟩ := fromNonIndexed_spec ((BTreeGraph.laws rep).reach_stands hg).1
    rw [e] at e1
    cases e1
    cases p
    · exact f.subj
    · exact f.pred
    · exact f.obj
    · exact (hpg rfl).elim
  · intro d A x d' b hs hc hp e
    obtain ⟨d1, b1, e1, -, -, -, hb, -, -, -, hi⟩ := insert_spec rep hs.1 x
    rw [e] at e1
    cases e1
    cases b with
    | false => rw [hb rfl]; exact hc
    | true =>
      obtain ⟨q, h1, h2, h3, h4⟩ := hi rfl
      have hw := hs.1.inv.wf
      rw [h1]
      cases p
      · simp only [posSet, h2]; exact hc.insert hw rfl
      · simp only [posSet, h3]; exact hc.insert hw rfl
      · simp only [posSet, h4]; exact hc.insert hw rfl
      · exact (hpg rfl).elim
  · intro d A k q x d' hs hc hp r
    have hl := hP _ _ hp ((hs.2 x).1 ⟨k, r.was⟩)
    have hu : ∀ i n, (tripleShape R).comp q p = some i → (tripleShape R).uses d.triples i p n → n = k :=
      fun i n hi hn => hs.1.inv.only_user tripleShape_laws r.was
        (fun y hy => hl y ((hs.2 y).1 hy)) ⟨q, r.get, hi⟩ hn
    rw [r.triples]
    cases p
    · simp only [posSet, r.subjects]; exact hc.remove (q := q) rfl (fun n => hu _ n rfl)
    · simp only [posSet, r.predicates]; exact hc.remove (q := q) rfl (fun n => hu _ n rfl)
    · simp only [posSet, r.objects]; exact hc.remove (q := q) rfl (fun n => hu _ n rfl)
    · exact (hpg rfl).elim

end IndexedBTreeGraph

end RdfTypes
