import Verif.Proof.Histories
import Verif.Spec.Resources

/-! # Facts kept along histories -/

set_option linter.unusedSectionVars false
set_option linter.unusedSimpArgs false

namespace RdfTypes

open Container

/-! ## Slabs without holes -/

namespace Slab

variable {α : Type}

theorem length_insert (s : Slab α) (h : s.WF) (v : α) :
    (s.insert v).entries.length ≤ max s.entries.length (s.insert v).len := by
  unfold insert
  cases hf : s.free with
  | cons k ks => simp only [List.length_set]; omega
  | nil =>
    have hall : ∀ x ∈ s.entries ++ [some v], x.isSome = true := by
      intro x hx
      rcases List.mem_append.1 hx with hx | hx
      · obtain ⟨k, hk, rfl⟩ := List.getElem_of_mem hx
        cases hg : s.get k with
        | none =>
          have := (h.mem_free k).2 ⟨hk, hg⟩
          simp [hf] at this
        | some w =>
          unfold get at hg
          rw [List.getElem?_eq_getElem hk] at hg
          simp only [Option.join_some] at hg
          simp [hg]
      · simp only [List.mem_singleton] at hx
        simp [hx]
    have : (s.entries ++ [some v]).countP (·.isSome) = (s.entries ++ [some v]).length :=
      List.countP_eq_length.2 hall
    simp only [len]
    omega

theorem len_insert (s : Slab α) (h : s.WF) (v : α) : (s.insert v).len = s.len + 1 := by
  rw [len_eq_keys_length s]
  refine len_eq_length (l := s.vacantKey :: s.keys) ?_ ?_
  · refine List.nodup_cons.2 ⟨?_, keys_nodup s⟩
    rw [mem_keys, get_vacantKey h]
    simp
  · intro k
    rw [List.mem_cons, mem_keys, get_insert h]
    by_cases hk : k = s.vacantKey <;> simp [hk]

theorem get_of_full {s : Slab α} (h : s.entries.length ≤ s.len) {k : Nat}
    (hk : k < s.entries.length) : s.get k ≠ none := by
  have hle : s.len ≤ s.entries.length := List.countP_le_length
  have he : s.entries.countP (·.isSome) = s.entries.length := by
    unfold len at h hle
    omega
  have := List.countP_eq_length.1 he s.entries[k] (List.getElem_mem hk)
  unfold get
  rw [List.getElem?_eq_getElem hk]
  simp only [Option.join_some]
  intro h0
  simp [h0] at this

@[simp] theorem length_erase (s : Slab α) (k : Nat) : (s.erase k).entries.length = s.entries.length := by
  simp [erase]

end Slab

/-! ## Lists of resources -/

section lists

variable {R ρ σ S : Type} [Ord R] [Std.TransOrd R] [Std.LawfulEqOrd R] [Ord S] [Std.TransOrd S]
  [Std.LawfulEqOrd S] {sh : Shape σ S R} {st : Slab σ} {ops : ResOps R ρ}
  {Rep : ρ → (Pos → Nat → Prop) → Prop} {res : Slab ρ} {ridx sidx : Index}

theorem Inv.listed (H : ShapeLaws sh) (h : Inv sh ops Rep res ridx st sidx) :
    ∃ rs, ops.readResources res ridx = .ok rs ∧
      rs.Pairwise (fun a b => compare a b = .lt) ∧
      (∀ r ∈ rs, ∃ y, sh.abs ops res st y ∧ sh.Occurs y r) ∧
      (∀ r, ∃ o, ops.indexOfResource res ridx r = .ok o ∧ (o.isSome = true ↔ r ∈ rs)) ∧
      (ops.Covers res ridx → ∀ y r, sh.abs ops res st y → sh.Occurs y r → r ∈ rs) ∧
      (ops.Clean res ridx → res.len = rs.length) := by
  obtain ⟨rs, h1, h2, h3⟩ := h.table.resources_spec
  refine ⟨rs, h1, h2, ?_, ?_, ?_, ?_⟩
  · intro r hr
    obtain ⟨i, -, hi⟩ := (h3 r).1 hr
    exact h.occurs_of_val H hi
  · intro r
    obtain ⟨o, ho, hs⟩ := h.table.indexOf_spec r
    refine ⟨o, ho, ?_⟩
    rw [h3]
    cases o with
    | none =>
      simp only [Option.isSome_none, Bool.false_eq_true, false_iff]
      rintro ⟨i, hi⟩
      exact absurd ((hs i).2 hi) (by simp)
    | some i =>
      simp only [Option.isSome_some, true_iff]
      exact ⟨i, (hs i).1 rfl⟩
  · intro hc y r hy hr
    obtain ⟨i, hi⟩ := Inv.val_of_occurs H hy hr
    obtain ⟨j, hj, hv⟩ := hc i r hi
    exact (h3 r).2 ⟨j, hj, hv⟩
  · intro hc
    have : res.len = ridx.length := by
      refine Slab.len_eq_length h.table.sorted.nodup ?_
      intro k
      constructor
      · intro hk
        obtain ⟨r, hr⟩ := h.table.sorted.defined k hk
        unfold ResOps.val at hr
        rw [Option.map_eq_some_iff] at hr
        obtain ⟨x, hx, -⟩ := hr
        exact ⟨x, hx⟩
      · rintro ⟨x, hx⟩
        exact hc k (ops.value x) (by simp [ResOps.val, hx])
    rw [this]
    obtain ⟨rs', e, hl, -⟩ := readResources_spec (ops := ops) (res := res) (l := ridx)
      (fun i hi => h.table.sorted.defined i hi)
    rw [h1] at e
    cases e
    exact hl.symm

theorem Inv.comp_value (H : ShapeLaws sh) (h : Inv sh ops Rep res ridx st sidx) {i k : Nat} {p : Pos}
    (hu : sh.uses st i p k) : ∃ x r, sh.sval ops res st k = some x ∧ ops.val res i = some r ∧
      sh.compV x p = some r := by
  obtain ⟨q, hq, hp⟩ := hu
  obtain ⟨x, hx⟩ := h.sval_exists H hq
  have hx' := hx
  unfold Shape.sval at hx'
  simp only [hq, Option.bind_some] at hx'
  have := H.valued_iff.1 hx' p
  simp only [hp] at this
  obtain ⟨r, hr, hc⟩ := this
  exact ⟨x, r, hx, hr, hc⟩

theorem Inv.value_comp (H : ShapeLaws sh) (_h : Inv sh ops Rep res ridx st sidx) {k : Nat} {x : S}
    {p : Pos} {r : R} (hx : sh.sval ops res st k = some x) (hr : sh.compV x p = some r) :
    ∃ i, sh.uses st i p k ∧ ops.val res i = some r := by
  unfold Shape.sval at hx
  cases hq : st.get k with
  | none => simp [hq] at hx
  | some q =>
    simp only [hq, Option.bind_some] at hx
    have := H.valued_iff.1 hx p
    cases hc : sh.comp q p with
    | none => simp only [hc] at this; rw [this] at hr; cases hr
    | some i =>
      simp only [hc] at this
      obtain ⟨r', hr', hx'⟩ := this
      rw [hx'] at hr
      cases hr
      exact ⟨i, ⟨q, hq, hc⟩, hr'⟩

theorem Inv.pos_listed (H : ShapeLaws sh) (h : Inv sh ops Rep res ridx st sidx) {p : Pos}
    {l : NatSet} (hl : PosSet sh st p l) :
    ∃ rs, ops.readResources res l = .ok rs ∧ l.length = rs.length ∧
      (∀ r ∈ rs, ∃ y, sh.abs ops res st y ∧ sh.compV y p = some r) ∧
      (PosFull sh st p l → ∀ y r, sh.abs ops res st y → sh.compV y p = some r → r ∈ rs) ∧
      (ops.Clean res ridx → rs.Nodup) := by
  obtain ⟨rs, h1, h2, h3, h4⟩ := readResources_spec (ops := ops) (res := res) (l := l) (by
    intro i hi
    obtain ⟨k, hk⟩ := hl.sound i hi
    obtain ⟨x, r, -, hr, -⟩ := h.comp_value H hk
    exact ⟨r, hr⟩)
  refine ⟨rs, h1, h2.symm, ?_, ?_, ?_⟩
  · intro r hr
    obtain ⟨i, hi, hv⟩ := (h3 r).1 hr
    obtain ⟨k, hk⟩ := hl.sound i hi
    obtain ⟨x, r', hx, hr', hc⟩ := h.comp_value H hk
    rw [hv] at hr'
    cases hr'
    exact ⟨x, ⟨k, hx⟩, hc⟩
  · rintro hf y r ⟨k, hk⟩ hr
    obtain ⟨i, hi, hv⟩ := h.value_comp H hk hr
    exact (h3 r).2 ⟨i, hf i k hi, hv⟩
  · intro hc
    refine h4 ?_ hl.asc.nodup
    intro i j r _ _ hi hj
    exact h.table.sorted.inj (hc i r hi) (hc j r hj) hi hj

theorem bind_ok {α β : Type} (a : α) (f : α → Res β) : (Except.ok a >>= f) = f a := rfl

/-- Listing the slots of graph names even when some are stale. -/
theorem Inv.pos_complete (H : ShapeLaws sh) (h : Inv sh ops Rep res ridx st sidx) {p : Pos}
    {l : NatSet} (hf : PosFull sh st p l) {rs : List R} (e : ops.readResources res l = .ok rs)
    {y : S} {r : R} (hy : sh.abs ops res st y) (hr : sh.compV y p = some r) : r ∈ rs := by
  obtain ⟨k, hk⟩ := hy
  obtain ⟨i, hi, hv⟩ := h.value_comp H hk hr
  have hi' := hf i k hi
  clear hf
  unfold ResOps.readResources at e
  induction l generalizing rs with
  | nil => cases hi'
  | cons j l ih =>
    rw [List.mapM_cons] at e
    cases hx : res.index j with
    | error er => simp [hx, bind, Except.bind] at e
    | ok x =>
      simp only [hx, bind_ok, pure, Except.pure] at e
      cases hl : List.mapM (fun i => (do let x ← res.index i; pure (ops.value x) : Res R)) l with
      | error er =>
        simp only [pure, Except.pure] at hl
        rw [hl] at e
        cases e
      | ok rs' =>
        have hl' := hl
        simp only [pure, Except.pure] at hl'
        rw [hl'] at e
        cases e
        rcases List.mem_cons.1 hi' with rfl | hi'
        · have := Slab.index_eq_ok.1 hx
          simp only [ResOps.val, this, Option.map_some, Option.some.injEq] at hv
          simp [hv]
        · exact List.mem_cons_of_mem _ (ih hl hi')

end lists

theorem quad_occurs_iff {R : Type} (x : Quad R) (r : R) :
    (quadShape R).Occurs x r ↔ Spec.quadHas x r := by
  unfold Shape.Occurs Spec.quadHas
  constructor
  · rintro ⟨p, hp⟩
    cases p <;> simp_all [quadShape]
  · rintro (h | h | h | h)
    · exact ⟨.subj, by simp [quadShape, h]⟩
    · exact ⟨.pred, by simp [quadShape, h]⟩
    · exact ⟨.obj, by simp [quadShape, h]⟩
    · exact ⟨.graph, by simp [quadShape, h]⟩

theorem triple_occurs_iff {R : Type} (x : Triple R) (r : R) :
    (tripleShape R).Occurs x r ↔ Spec.tripleHas x r := by
  unfold Shape.Occurs Spec.tripleHas
  constructor
  · rintro ⟨p, hp⟩
    cases p <;> simp_all [tripleShape]
  · rintro (h | h | h)
    · exact ⟨.subj, by simp [tripleShape, h]⟩
    · exact ⟨.pred, by simp [tripleShape, h]⟩
    · exact ⟨.obj, by simp [tripleShape, h]⟩

theorem quad_repeatsOnly {R : Type} {known : R → Prop} {x : Quad R}
    (h : ∀ r, Spec.quadRepeats x r → known r) : (quadShape R).RepeatsOnly known x := by
  intro p p' r hp h1 h2
  apply h
  unfold Spec.quadRepeats
  cases p <;> cases p' <;> simp_all [quadShape]

theorem triple_repeatsOnly {R : Type} {known : R → Prop} {x : Triple R}
    (h : ∀ r, Spec.tripleRepeats x r → known r) : (tripleShape R).RepeatsOnly known x := by
  intro p p' r hp h1 h2
  apply h
  unfold Spec.tripleRepeats
  cases p <;> cases p' <;> simp_all [tripleShape]

/-! ## Induction on histories -/

theorem Container.Laws.reach_keeps {S D : Type} [Ord S] {c : Container S D} {Inv : D → Prop}
    {abs : D → S → Prop} (L : c.Laws Inv abs) {P : (S → Prop) → Op S → Prop} {Q : D → Prop}
    (h0 : Q c.empty)
    (hi : ∀ d A x d' b, Stands Inv abs d A → Q d → P A (.insert x) → c.insert d x = .ok (d', b) →
      Q d')
    (hr : ∀ d A x d' b, Stands Inv abs d A → Q d → P A (.remove x) → c.remove d x = .ok (d', b) →
      Q d')
    {d : D} {A : S → Prop} (h : Spec.Reach c P d A) : Q d := by
  induction h with
  | new => exact h0
  | insert h hP e ih => exact hi _ _ _ _ _ (L.reach_stands h) ih hP e
  | remove h hP e ih => exact hr _ _ _ _ _ (L.reach_stands h) ih hP e

variable {R : Type} [Ord R] [Std.TransOrd R] [Std.LawfulEqOrd R] {rep : Bool}

theorem IndexedBTreeGraph.reach_keeps {P₀ P : (Triple R → Prop) → Op (Triple R) → Prop}
    {Q : IndexedBTreeGraph R → Prop} (h0 : Q new)
    (hc : ∀ g A d, Spec.Reach (BTreeGraph.container rep R) P₀ g A → fromNonIndexed g = .ok d → Q d)
    (hi : ∀ d A x d' b, Stands WF IndexedBTreeGraph.abs d A → Q d → P A (.insert x) →
      d.insert rep x = .ok (d', b) → Q d')
    (hr : ∀ d A k q x d', Stands WF IndexedBTreeGraph.abs d A → Q d → P A (.remove x) →
      RemovedAt d k q x d' → Q d')
    {d : IndexedBTreeGraph R} {A : Triple R → Prop} (h : Spec.GraphReach rep P₀ P d A) : Q d := by
  induction h with
  | new => exact h0
  | convert h e => exact hc _ _ _ h e
  | insert h hP e ih => exact hi _ _ _ _ _ (reach_stands h) ih hP e
  | @remove d A x d' b h hP e ih =>
    rcases remove_core (reach_stands h).1 x with ⟨k, q, d1, e1, r⟩ | ⟨e1, -⟩
    · rw [e] at e1
      cases e1
      exact hr _ _ k q x _ (reach_stands h) ih hP r
    · rw [e] at e1
      cases e1
      exact ih

theorem IndexedBTreeDataset.reach_keeps {P₀ P : (Quad R → Prop) → Op (Quad R) → Prop}
    {takes : Prop} {Q : IndexedBTreeDataset R → Prop} (h0 : Q new)
    (hc : ∀ g A d, Spec.Reach (BTreeDataset.container rep R) P₀ g A → fromNonIndexed g = .ok d → Q d)
    (hi : ∀ d A x d' b, Stands WF IndexedBTreeDataset.abs d A → Q d → P A (.insert x) →
      d.insert rep x = .ok (d', b) → Q d')
    (hr : ∀ d A k q x d', Stands WF IndexedBTreeDataset.abs d A → Q d → P A (.remove x) →
      RemovedAt d k q x d' → Q d')
    (ht : takes → ∀ d A xs d', Stands WF IndexedBTreeDataset.abs d A → Q d → Removed d xs d' → Q d')
    {d : IndexedBTreeDataset R} {A : Quad R → Prop} (h : Spec.DatasetReach rep P₀ P takes d A) :
    Q d := by
  induction h with
  | new => exact h0
  | convert h e => exact hc _ _ _ h e
  | insert h hP e ih => exact hi _ _ _ _ _ (reach_stands h) ih hP e
  | @remove d A x d' b h hP e ih =>
    rcases remove_core (reach_stands h).1 x with ⟨k, q, d1, e1, r⟩ | ⟨e1, -⟩
    · rw [e] at e1
      cases e1
      exact hr _ _ k q x _ (reach_stands h) ih hP r
    · rw [e] at e1
      cases e1
      exact ih
  | @removeGraph d A g d' out h hT e ih =>
    obtain ⟨d1, out1, e1, gr⟩ := removeGraph_spec rep (reach_stands h).1 g
    rw [e] at e1
    cases e1
    obtain ⟨xs, hx, -⟩ := gr.chain
    exact ht hT _ _ xs _ (reach_stands h) ih hx
  | @extract d A pat cap n d' out ended h hT hcap e ih =>
    obtain ⟨d1, out1, ended1, e1, hx, -⟩ := extractPatternMatching_spec (reach_stands h).1 hcap pat n
    rw [e] at e1
    cases e1
    exact ht hT _ _ _ _ (reach_stands h) ih hx

/-! ## Clean tables -/

theorem BTreeDataset.reach_clean {P : (Quad R → Prop) → Op (Quad R) → Prop}
    (hP : ∀ A op, P A op → Spec.knownRepeats A op) {d : BTreeDataset R} {A : Quad R → Prop}
    (h : Spec.Reach (BTreeDataset.container rep R) P d A) : d.Clean := by
  refine (BTreeDataset.laws rep).reach_keeps (Q := BTreeDataset.Clean) ?_ ?_ ?_ h
  · exact ResOps.clean_empty _
  · intro d A x d' b hs hc hp e
    obtain ⟨d1, b1, e1, -, -, -, -, -, cl, -⟩ := insert_spec rep hs.1 x
    cases Except.ok.inj (Eq.trans (Eq.symm e1) e)
    refine cl hc (quad_repeatsOnly ?_)
    intro r hr
    obtain ⟨y, hy, ho⟩ := hP _ _ hp r hr
    exact ⟨y, (hs.2 y).2 hy, (quad_occurs_iff y r).2 ho⟩
  · intro d A x d' b hs hc hp e
    obtain ⟨d1, b1, e1, -, -, -, -, cl, -⟩ := remove_spec hs.1 x
    cases Except.ok.inj (Eq.trans (Eq.symm e1) e)
    exact cl hc

theorem BTreeGraph.reach_clean {P : (Triple R → Prop) → Op (Triple R) → Prop}
    (hP : ∀ A op, P A op → Spec.knownTripleRepeats A op) {d : BTreeGraph R} {A : Triple R → Prop}
    (h : Spec.Reach (BTreeGraph.container rep R) P d A) : d.Clean := by
  refine (BTreeGraph.laws rep).reach_keeps (Q := BTreeGraph.Clean) ?_ ?_ ?_ h
  · exact ResOps.clean_empty _
  · intro d A x d' b hs hc hp e
    obtain ⟨d1, b1, e1, -, -, -, -, -, cl, -⟩ := insert_spec rep hs.1 x
    cases Except.ok.inj (Eq.trans (Eq.symm e1) e)
    refine cl hc (triple_repeatsOnly ?_)
    intro r hr
    obtain ⟨y, hy, ho⟩ := hP _ _ hp r hr
    exact ⟨y, (hs.2 y).2 hy, (triple_occurs_iff y r).2 ho⟩
  · intro d A x d' b hs hc hp e
    obtain ⟨d1, b1, e1, -, -, -, -, cl, -⟩ := remove_spec hs.1 x
    cases Except.ok.inj (Eq.trans (Eq.symm e1) e)
    exact cl hc

theorem IndexedBTreeDataset.insert_clean {d d' : IndexedBTreeDataset R} {A : Quad R → Prop}
    {x : Quad R} {b : Bool} (hs : Stands WF IndexedBTreeDataset.abs d A) (hc : d.Clean)
    (hp : Spec.knownRepeats A (.insert x)) (e : d.insert rep x = .ok (d', b)) : d'.Clean := by
  obtain ⟨d1, b1, e1, -, -, -, -, -, cl, -⟩ := insert_spec rep hs.1 x
  rw [e] at e1
  cases e1
  refine cl hc (quad_repeatsOnly ?_)
  intro r hr
  obtain ⟨y, hy, ho⟩ := hp r hr
  exact ⟨y, (hs.2 y).2 hy, (quad_occurs_iff y r).2 ho⟩

theorem IndexedBTreeDataset.reach_clean {P₀ P : (Quad R → Prop) → Op (Quad R) → Prop}
    {takes : Prop} (hP₀ : ∀ A op, P₀ A op → Spec.knownRepeats A op)
    (hP : ∀ A op, P A op → Spec.knownRepeats A op) {d : IndexedBTreeDataset R} {A : Quad R → Prop}
    (h : Spec.DatasetReach rep P₀ P takes d A) : d.Clean := by
  refine reach_keeps (Q := IndexedBTreeDataset.Clean) ?_ ?_ ?_ ?_ ?_ h
  · exact ResOps.clean_empty _
  · intro g A d hg e
    obtain ⟨d1, e1, -, -, -, cl, -⟩ :=
      fromNonIndexed_spec ((BTreeDataset.laws rep).reach_stands hg).1
    rw [e] at e1
    cases e1
    exact cl (BTreeDataset.reach_clean hP₀ hg)
  · intro d A x d' b hs hc hp e
    exact insert_clean hs hc (hP _ _ hp) e
  · intro d A k q x d' hs hc hp r
    exact r.clean hc
  · intro _ d A xs d' hs hc r
    exact r.clean hc

theorem IndexedBTreeGraph.insert_clean {d d' : IndexedBTreeGraph R} {A : Triple R → Prop}
    {x : Triple R} {b : Bool} (hs : Stands WF IndexedBTreeGraph.abs d A) (hc : d.Clean)
    (hp : Spec.knownTripleRepeats A (.insert x)) (e : d.insert rep x = .ok (d', b)) : d'.Clean := by
  obtain ⟨d1, b1, e1, -, -, -, -, -, cl, -⟩ := insert_spec rep hs.1 x
  rw [e] at e1
  cases e1
  refine cl hc (triple_repeatsOnly ?_)
  intro r hr
  obtain ⟨y, hy, ho⟩ := hp r hr
  exact ⟨y, (hs.2 y).2 hy, (triple_occurs_iff y r).2 ho⟩

theorem IndexedBTreeGraph.reach_clean {P₀ P : (Triple R → Prop) → Op (Triple R) → Prop}
    (hP₀ : ∀ A op, P₀ A op → Spec.knownTripleRepeats A op)
    (hP : ∀ A op, P A op → Spec.knownTripleRepeats A op) {d : IndexedBTreeGraph R}
    {A : Triple R → Prop} (h : Spec.GraphReach rep P₀ P d A) : d.Clean := by
  refine reach_keeps (Q := IndexedBTreeGraph.Clean) ?_ ?_ ?_ ?_ h
  · exact ResOps.clean_empty _
  · intro g A d hg e
    obtain ⟨d1, e1, -, -, -, cl, -⟩ :=
      fromNonIndexed_spec ((BTreeGraph.laws rep).reach_stands hg).1
    rw [e] at e1
    cases e1
    exact cl (BTreeGraph.reach_clean hP₀ hg)
  · intro d A x d' b hs hc hp e
    exact insert_clean hs hc (hP _ _ hp) e
  · intro d A k q x d' hs hc hp r
    exact r.clean hc

/-! ## Insertions only -/

theorem BTreeDataset.reach_covers {P : (Quad R → Prop) → Op (Quad R) → Prop}
    (hP : ∀ A op, P A op → Spec.insertOnly A op) {d : BTreeDataset R} {A : Quad R → Prop}
    (h : Spec.Reach (BTreeDataset.container rep R) P d A) : d.Covers := by
  refine (BTreeDataset.laws rep).reach_keeps (Q := BTreeDataset.Covers) ?_ ?_ ?_ h
  · exact (ResOps.clean_empty _).covers
  · intro d A x d' b hs hc hp e
    obtain ⟨d1, b1, e1, -, -, -, -, cl, -⟩ := insert_spec rep hs.1 x
    cases Except.ok.inj (Eq.trans (Eq.symm e1) e)
    exact cl hc
  · intro d A x d' b hs hc hp e
    exact (hP _ _ hp).elim

theorem BTreeGraph.reach_covers {P : (Triple R → Prop) → Op (Triple R) → Prop}
    (hP : ∀ A op, P A op → Spec.insertOnly A op) {d : BTreeGraph R} {A : Triple R → Prop}
    (h : Spec.Reach (BTreeGraph.container rep R) P d A) : d.Covers := by
  refine (BTreeGraph.laws rep).reach_keeps (Q := BTreeGraph.Covers) ?_ ?_ ?_ h
  · exact (ResOps.clean_empty _).covers
  · intro d A x d' b hs hc hp e
    obtain ⟨d1, b1, e1, -, -, -, -, cl, -⟩ := insert_spec rep hs.1 x
    cases Except.ok.inj (Eq.trans (Eq.symm e1) e)
    exact cl hc
  · intro d A x d' b hs hc hp e
    exact (hP _ _ hp).elim

theorem IndexedBTreeDataset.reach_covers {P₀ P : (Quad R → Prop) → Op (Quad R) → Prop}
    (hP₀ : ∀ A op, P₀ A op → Spec.insertOnly A op)
    (hP : ∀ A op, P A op → Spec.insertOnly A op) {d : IndexedBTreeDataset R} {A : Quad R → Prop}
    (h : Spec.DatasetReach rep P₀ P False d A) : d.Covers := by
  refine reach_keeps (Q := IndexedBTreeDataset.Covers) ?_ ?_ ?_ ?_ ?_ h
  · exact (ResOps.clean_empty _).covers
  · intro g A d hg e
    obtain ⟨d1, e1, -, -, -, -, cl, -⟩ :=
      fromNonIndexed_spec ((BTreeDataset.laws rep).reach_stands hg).1
    rw [e] at e1
    cases e1
    exact cl (BTreeDataset.reach_covers hP₀ hg)
  · intro d A x d' b hs hc hp e
    obtain ⟨d1, b1, e1, -, -, -, -, cl, -⟩ := insert_spec rep hs.1 x
    rw [e] at e1
    cases e1
    exact cl hc
  · intro d A k q x d' hs hc hp r
    exact (hP _ _ hp).elim
  · exact False.elim

theorem IndexedBTreeGraph.reach_covers {P₀ P : (Triple R → Prop) → Op (Triple R) → Prop}
    (hP₀ : ∀ A op, P₀ A op → Spec.insertOnly A op)
    (hP : ∀ A op, P A op → Spec.insertOnly A op) {d : IndexedBTreeGraph R}
    {A : Triple R → Prop} (h : Spec.GraphReach rep P₀ P d A) : d.Covers := by
  refine reach_keeps (Q := IndexedBTreeGraph.Covers) ?_ ?_ ?_ ?_ h
  · exact (ResOps.clean_empty _).covers
  · intro g A d hg e
    obtain ⟨d1, e1, -, -, -, -, cl, -⟩ :=
      fromNonIndexed_spec ((BTreeGraph.laws rep).reach_stands hg).1
    rw [e] at e1
    cases e1
    exact cl (BTreeGraph.reach_covers hP₀ hg)
  · intro d A x d' b hs hc hp e
    obtain ⟨d1, b1, e1, -, -, -, -, cl, -⟩ := insert_spec rep hs.1 x
    rw [e] at e1
    cases e1
    exact cl hc
  · intro d A k q x d' hs hc hp r
    exact (hP _ _ hp).elim

end RdfTypes
