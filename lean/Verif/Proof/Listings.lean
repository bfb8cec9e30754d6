import Verif.Spec.Listings
import Verif.Proof.ResourceClaims

/-! # What the lists of terms contain -/

set_option linter.unusedSectionVars false
set_option linter.unusedSimpArgs false

namespace RdfTypes

open Container

/-! ## Terms of a list of slots -/

section

variable {R ρ σ S : Type} [Ord R] [Std.TransOrd R] [Std.LawfulEqOrd R] [Ord S] [Std.TransOrd S]
  [Std.LawfulEqOrd S] {sh : Shape σ S R} {st st' : Slab σ} {ops : ResOps R ρ}
  {Rep : ρ → (Pos → Nat → Prop) → Prop} {res res' : Slab ρ} {ridx sidx ridx' sidx' : Index}

/-- A slot of the list holds the term. -/
def Held (ops : ResOps R ρ) (res : Slab ρ) (l : NatSet) (r : R) : Prop :=
  ∃ i, i ∈ l ∧ ops.val res i = some r

theorem Inv.val_eq (H : ShapeLaws sh) (h : Inv sh ops Rep res ridx st sidx)
    (h' : Inv sh ops Rep res' ridx' st' sidx') {i k : Nat} {p : Pos} (hu : sh.uses st i p k)
    (hu' : sh.uses st' i p k) (e : sh.sval ops res' st' k = sh.sval ops res st k) :
    ops.val res' i = ops.val res i := by
  obtain ⟨x, r, h1, h2, h3⟩ := h.comp_value H hu
  obtain ⟨x', r', h1', h2', h3'⟩ := h'.comp_value H hu'
  rw [e, h1] at h1'
  cases h1'
  rw [h3] at h3'
  cases h3'
  rw [h2, h2']

/-- With one record by resource, a resource is in one slot. -/
theorem Inv.slot_inj (h : Inv sh ops Rep res ridx st sidx) (hc : ops.Clean res ridx) {i j : Nat}
    {r : R} (hi : ops.val res i = some r) (hj : ops.val res j = some r) : i = j :=
  h.table.sorted.inj (hc i r hi) (hc j r hj) hi hj

/-! ### Insertion of a statement -/

/-- What an insertion does to the tables. -/
structure Inserted (sh : Shape σ S R) (ops : ResOps R ρ) (Rep : ρ → (Pos → Nat → Prop) → Prop)
    (res : Slab ρ) (st : Slab σ) (res' : Slab ρ) (ridx' : Index) (st' : Slab σ) (sidx' : Index)
    (q : σ) (x : S) : Prop where
  inv : Inv sh ops Rep res' ridx' st' sidx'
  stmts : st' = st.insert q
  sval : ∀ k, sh.sval ops res' st' k =
    if k = st.vacantKey then some x else sh.sval ops res st k

theorem Inserted.val (H : ShapeLaws sh) (h : Inv sh ops Rep res ridx st sidx) {q : σ} {x : S}
    (a : Inserted sh ops Rep res st res' ridx' st' sidx' q x) {i : Nat} {r : R}
    (hi : ops.val res i = some r) : ops.val res' i = some r := by
  obtain ⟨p, k, hu⟩ := h.table.used_of_val hi
  have hk : k ≠ st.vacantKey := by
    rintro rfl
    exact Shape.not_uses_vacant h.wf i p hu
  have hu' : sh.uses st' i p k := by
    rw [a.stmts]
    exact (Shape.uses_insert h.wf q i p k).2 (Or.inl hu)
  rw [h.val_eq H a.inv hu hu' (by rw [a.sval, if_neg hk]), hi]

/-- The slots of the new statement hold its terms. -/
theorem Inserted.comp (H : ShapeLaws sh) (h : Inv sh ops Rep res ridx st sidx) {q : σ} {x : S}
    (a : Inserted sh ops Rep res st res' ridx' st' sidx' q x) {i : Nat} {p : Pos}
    (hi : sh.comp q p = some i) : ∃ r, ops.val res' i = some r ∧ sh.compV x p = some r := by
  have hu' : sh.uses st' i p st.vacantKey := by
    rw [a.stmts]
    exact (Shape.uses_insert h.wf q i p _).2 (Or.inr ⟨rfl, hi⟩)
  obtain ⟨x', r, h1, h2, h3⟩ := a.inv.comp_value H hu'
  rw [a.sval, if_pos rfl] at h1
  cases h1
  exact ⟨r, h2, h3⟩

theorem Inserted.held_same (H : ShapeLaws sh) (h : Inv sh ops Rep res ridx st sidx) {q : σ} {x : S}
    (a : Inserted sh ops Rep res st res' ridx' st' sidx' q x) {l : NatSet}
    (hl : ∀ i ∈ l, ∃ r, ops.val res i = some r) (r : R) : Held ops res' l r ↔ Held ops res l r := by
  constructor
  · rintro ⟨i, hi, hv⟩
    obtain ⟨r', hr'⟩ := hl i hi
    rw [a.val H h hr'] at hv
    cases hv
    exact ⟨i, hi, hr'⟩
  · rintro ⟨i, hi, hv⟩
    exact ⟨i, hi, a.val H h hv⟩

theorem Inserted.held (H : ShapeLaws sh) (h : Inv sh ops Rep res ridx st sidx) {q : σ} {x : S}
    (a : Inserted sh ops Rep res st res' ridx' st' sidx' q x) {l : NatSet}
    (hl : ∀ i ∈ l, ∃ r, ops.val res i = some r) {p : Pos} {i : Nat} (hi : sh.comp q p = some i)
    (r : R) : Held ops res' (NatSet.insert i l) r ↔ sh.compV x p = some r ∨ Held ops res l r := by
  obtain ⟨r', hr', hx⟩ := a.comp H h hi
  rw [← a.held_same H h hl]
  constructor
  · rintro ⟨j, hj, hv⟩
    rcases NatSet.mem_insert.1 hj with rfl | hj
    · rw [hr'] at hv
      cases hv
      exact Or.inl hx
    · exact Or.inr ⟨j, hj, hv⟩
  · rintro (hr | ⟨j, hj, hv⟩)
    · rw [hx] at hr
      cases hr
      exact ⟨i, NatSet.mem_insert.2 (Or.inl rfl), hr'⟩
    · exact ⟨j, NatSet.mem_insert.2 (Or.inr hj), hv⟩

/-! ### Removal of a statement -/

/-- What a removal does to the tables. -/
structure Erased (sh : Shape σ S R) (ops : ResOps R ρ) (Rep : ρ → (Pos → Nat → Prop) → Prop)
    (res : Slab ρ) (st : Slab σ) (res' : Slab ρ) (ridx' : Index) (st' : Slab σ) (sidx' : Index)
    (k : Nat) (q : σ) (x : S) : Prop where
  inv : Inv sh ops Rep res' ridx' st' sidx'
  get : st.get k = some q
  was : sh.sval ops res st k = some x
  stmts : st' = st.erase k
  sval : ∀ n, sh.sval ops res' st' n = if n = k then none else sh.sval ops res st n

theorem Erased.val (H : ShapeLaws sh) (h : Inv sh ops Rep res ridx st sidx) {k : Nat} {q : σ} {x : S}
    (a : Erased sh ops Rep res st res' ridx' st' sidx' k q x) {i : Nat} {r : R}
    (hi : ops.val res' i = some r) : ops.val res i = some r := by
  obtain ⟨p, n, hu'⟩ := a.inv.table.used_of_val hi
  have hu := hu'
  rw [a.stmts] at hu
  obtain ⟨hu, hn⟩ := (Shape.uses_erase i p k n).1 hu
  rw [← h.val_eq H a.inv hu hu' (by rw [a.sval, if_neg hn]), hi]

/-- A slot still used keeps its term. -/
theorem Erased.val_used (H : ShapeLaws sh) (h : Inv sh ops Rep res ridx st sidx) {k : Nat} {q : σ}
    {x : S} (a : Erased sh ops Rep res st res' ridx' st' sidx' k q x) {i n : Nat} {p : Pos}
    (hu : sh.uses st i p n) (hn : n ≠ k) : ops.val res' i = ops.val res i := by
  refine h.val_eq H a.inv hu ?_ (by rw [a.sval, if_neg hn])
  rw [a.stmts]
  exact (Shape.uses_erase i p k n).2 ⟨hu, hn⟩

theorem Erased.comp (H : ShapeLaws sh) (h : Inv sh ops Rep res ridx st sidx) {k : Nat} {q : σ}
    {x : S} (a : Erased sh ops Rep res st res' ridx' st' sidx' k q x) {i : Nat} {p : Pos}
    (hi : sh.comp q p = some i) : ∃ r, ops.val res i = some r ∧ sh.compV x p = some r := by
  obtain ⟨x', r, h1, h2, h3⟩ := h.comp_value H (p := p) (i := i) ⟨q, a.get, hi⟩
  rw [a.was] at h1
  cases h1
  exact ⟨r, h2, h3⟩

theorem Erased.held (H : ShapeLaws sh) (h : Inv sh ops Rep res ridx st sidx)
    (hc : ops.Clean res ridx) {k : Nat} {q : σ} {x : S}
    (a : Erased sh ops Rep res st res' ridx' st' sidx' k q x) {p : Pos} {l : NatSet}
    (hl : PosSet sh st p l) {i : Nat} (hi : sh.comp q p = some i) (r : R) :
    Held ops res' (NatSet.remove i l) r ↔ Held ops res l r ∧ sh.compV x p ≠ some r := by
  obtain ⟨r', hr', hx⟩ := a.comp H h hi
  constructor
  · rintro ⟨j, hj, hv⟩
    obtain ⟨hj, hne⟩ := NatSet.mem_remove.1 hj
    have hv' := a.val H h hv
    refine ⟨⟨j, hj, hv'⟩, ?_⟩
    rw [hx]
    intro e
    cases e
    exact hne (h.slot_inj hc hv' hr')
  · rintro ⟨⟨j, hj, hv⟩, hne⟩
    have hji : j ≠ i := by
      rintro rfl
      rw [hr'] at hv
      cases hv
      exact hne hx
    obtain ⟨n, hu⟩ := hl.sound j hj
    have hn : n ≠ k := by
      rintro rfl
      obtain ⟨q', hq', hc'⟩ := hu
      rw [a.get] at hq'
      cases hq'
      rw [hi] at hc'
      cases hc'
      exact hji rfl
    exact ⟨j, NatSet.mem_remove.2 ⟨hj, hji⟩, by rw [a.val_used H h hu hn, hv]⟩

/-! ### Reading the list -/

theorem Inv.held_listing (h : Inv sh ops Rep res ridx st sidx) (hc : ops.Clean res ridx)
    {l : NatSet} (ha : l.Asc) (hl : ∀ i ∈ l, ∃ r, ops.val res i = some r) :
    ∃ rs, ops.readResources res l = .ok rs ∧ rs.Nodup ∧ (∀ r, r ∈ rs ↔ Held ops res l r) ∧
      l.length = rs.length := by
  obtain ⟨rs, h1, h2, h3, h4⟩ := readResources_spec (ops := ops) (res := res) (l := l) hl
  exact ⟨rs, h1, h4 (fun i j r _ _ hi hj => h.slot_inj hc hi hj) ha.nodup, h3, h2.symm⟩

theorem readResources_stale {l : NatSet} {i : Nat} (hi : i ∈ l) (hv : ops.val res i = none) :
    ops.readResources res l = .error .invalidKey := by
  unfold ResOps.readResources
  induction l with
  | nil => cases hi
  | cons j l ih =>
    rw [List.mapM_cons]
    cases hj : res.get j with
    | none => simp [Slab.index, hj, bind, Except.bind, pure, Except.pure]
    | some x =>
      have hne : i ≠ j := by
        rintro rfl
        simp [ResOps.val, hj] at hv
      have ih' := ih ((List.mem_cons.1 hi).resolve_left hne)
      simp only [pure, Except.pure] at ih' ⊢
      rw [ih']
      simp [Slab.index, hj, bind, Except.bind, pure, Except.pure]

theorem PosSet.defined (H : ShapeLaws sh) (h : Inv sh ops Rep res ridx st sidx) {p : Pos}
    {l : NatSet} (hl : PosSet sh st p l) : ∀ i ∈ l, ∃ r, ops.val res i = some r := by
  intro i hi
  obtain ⟨k, hk⟩ := hl.sound i hi
  obtain ⟨x, r, -, hr, -⟩ := h.comp_value H hk
  exact ⟨r, hr⟩

end

variable {R : Type} [Ord R] [Std.TransOrd R] [Std.LawfulEqOrd R] {rep : Bool}

namespace IndexedBTreeDataset

/-- `Inserted` for datasets. -/
abbrev InsertedAt (d : IndexedBTreeDataset R) (q : Quad Nat) (x : Quad R)
    (d' : IndexedBTreeDataset R) : Prop :=
  Inserted (quadShape R) (indexOps R) IndexRep d.resources d.quads d'.resources d'.resourcesIndexes
    d'.quads d'.quadsIndexes q x

theorem insert_tables {d d' : IndexedBTreeDataset R} (h : d.WF) {x : Quad R} {b : Bool}
    (e : d.insert rep x = .ok (d', b)) :
    (d.abs x ∧ d' = d) ∨ (¬ d.abs x ∧ ∃ q, InsertedAt d q x d' ∧
      d'.subjects = NatSet.insert q.s d.subjects ∧ d'.predicates = NatSet.insert q.p d.predicates ∧
      d'.objects = NatSet.insert q.o d.objects ∧
      d'.namedGraphs = match q.g with
        | none => d.namedGraphs
        | some g => NatSet.insert g d.namedGraphs) := by
  obtain ⟨b', hb, hbi⟩ := contains_spec h x
  cases b' with
  | true =>
    simp [insert, hb, bind, Except.bind, pure, Except.pure] at e
    exact Or.inl ⟨hbi.1 rfl, e.1.symm⟩
  | false =>
    have hx : ¬ d.abs x := fun e => by simpa using hbi.2 e
    obtain ⟨res', ridx', q, sidx', e1, e2, h1, h2, h3, a⟩ :=
      Inv.insertQuad_spec (indexOps_laws R) rep h.inv x hx
    simp [insert, hb, e1, e2, bind, Except.bind, pure, Except.pure] at e
    refine Or.inr ⟨hx, q, ?_⟩
    cases hg : q.g with
    | none =>
      simp only [hg] at e
      obtain ⟨e, -⟩ := e
      subst e
      exact ⟨⟨h1, rfl, h2⟩, rfl, rfl, rfl, rfl⟩
    | some g =>
      simp only [hg] at e
      obtain ⟨e, -⟩ := e
      subst e
      exact ⟨⟨h1, rfl, h2⟩, rfl, rfl, rfl, rfl⟩

theorem RemovedAt.erased {d d' : IndexedBTreeDataset R} {k : Nat} {q : Quad Nat} {x : Quad R}
    (r : RemovedAt d k q x d') :
    Erased (quadShape R) (indexOps R) IndexRep d.resources d.quads d'.resources d'.resourcesIndexes
      d'.quads d'.quadsIndexes k q x :=
  ⟨r.wf.inv, r.get, r.was, r.quads, r.sval⟩

/-- The terms of the set kept for a position. -/
def HeldAt (d : IndexedBTreeDataset R) (p : Pos) (r : R) : Prop :=
  Held (indexOps R) d.resources (d.posSet p) r

theorem posSet_sound {d : IndexedBTreeDataset R} (h : d.WF) {p : Pos} (hp : p ≠ .graph) :
    PosSet (quadShape R) d.quads p (d.posSet p) := by
  cases p
  · exact h.subj
  · exact h.pred
  · exact h.obj
  · exact (hp rfl).elim

/-! ### Subjects, predicates and objects -/

theorem insert_held {d d' : IndexedBTreeDataset R} (h : d.WF) {x : Quad R} {b : Bool}
    (e : d.insert rep x = .ok (d', b)) {p : Pos} (hp : p ≠ .graph) (r : R) :
    d'.HeldAt p r ↔ d.HeldAt p r ∨ (¬ d.abs x ∧ (quadShape R).compV x p = some r) := by
  rcases insert_tables h e with ⟨hx, rfl⟩ | ⟨hx, q, a, h1, h2, h3, -⟩
  · simp [hx]
  · have key := fun i (hi : (quadShape R).comp q p = some i) =>
      a.held quadShape_laws h.inv ((posSet_sound h hp).defined quadShape_laws h.inv) hi r
    simp only [hx, not_false_eq_true, true_and]
    rw [Or.comm]
    cases p
    · simp only [HeldAt, posSet, h1]; exact key _ rfl
    · simp only [HeldAt, posSet, h2]; exact key _ rfl
    · simp only [HeldAt, posSet, h3]; exact key _ rfl
    · exact (hp rfl).elim

theorem RemovedAt.held {d d' : IndexedBTreeDataset R} (h : d.WF) (hc : d.Clean) {k : Nat}
    {q : Quad Nat} {x : Quad R} (a : RemovedAt d k q x d') {p : Pos} (hp : p ≠ .graph) (r : R) :
    d'.HeldAt p r ↔ d.HeldAt p r ∧ (quadShape R).compV x p ≠ some r := by
  have key := fun i (hi : (quadShape R).comp q p = some i) =>
    a.erased.held quadShape_laws h.inv hc (posSet_sound h hp) hi r
  cases p
  · simp only [HeldAt, posSet, a.subjects]; exact key _ rfl
  · simp only [HeldAt, posSet, a.predicates]; exact key _ rfl
  · simp only [HeldAt, posSet, a.objects]; exact key _ rfl
  · exact (hp rfl).elim

theorem Removed.held {d d' : IndexedBTreeDataset R} {xs : List (Quad R)} (h : Removed d xs d')
    {p : Pos} (hp : p ≠ .graph) (r : R) : d.WF → d.Clean →
    (d'.HeldAt p r ↔ d.HeldAt p r ∧ ∀ y ∈ xs, (quadShape R).compV y p ≠ some r) := by
  induction h with
  | nil => simp
  | cons a _ ih =>
    intro hw hc
    rw [ih a.wf (a.clean hc), a.held hw hc hp]
    simp [and_assoc]

/-! ### Graph names -/

/-- Every slot of the set of graph names is occupied, and their terms are `N`. -/
structure Names (d : IndexedBTreeDataset R) (N : R → Prop) : Prop where
  defined : ∀ i ∈ d.namedGraphs, ∃ r, (indexOps R).val d.resources i = some r
  held : ∀ r, d.HeldAt .graph r ↔ N r

theorem occurs_iff {d : IndexedBTreeDataset R} (h : d.WF) (r : R) :
    (∃ y, d.abs y ∧ Spec.quadHas y r) ↔ ∃ i, (indexOps R).val d.resources i = some r := by
  constructor
  · rintro ⟨y, hy, hr⟩
    exact Inv.val_of_occurs quadShape_laws hy ((quad_occurs_iff y r).2 hr)
  · rintro ⟨i, hi⟩
    obtain ⟨y, hy, ho⟩ := h.inv.occurs_of_val quadShape_laws hi
    exact ⟨y, hy, (quad_occurs_iff y r).1 ho⟩

theorem Names.insert {d d' : IndexedBTreeDataset R} (h : d.WF) {N : R → Prop} (hn : d.Names N)
    {x : Quad R} {b : Bool} (e : d.insert rep x = .ok (d', b)) :
    d'.Names (fun r => N r ∨ (¬ d.abs x ∧ x.g = some r)) := by
  rcases insert_tables h e with ⟨hx, rfl⟩ | ⟨hx, q, a, -, -, -, h4⟩
  · exact ⟨hn.defined, fun r => by simp [hx, hn.held]⟩
  · cases hg : q.g with
    | none =>
      rw [hg] at h4
      refine ⟨?_, fun r => ?_⟩
      · intro i hi
        rw [h4] at hi
        obtain ⟨r, hr⟩ := hn.defined i hi
        exact ⟨r, a.val quadShape_laws h.inv hr⟩
      · have hxg : x.g = none := by
          have := (quadShape_laws (R := R)).valued_iff (v := (indexOps R).val d'.resources) (q := q)
            (x := x)
          have hs := a.sval d.quads.vacantKey
          rw [if_pos rfl, a.stmts] at hs
          simp only [Shape.sval, Slab.get_insert h.inv.wf, if_pos, Option.bind_some] at hs
          have := this.1 hs .graph
          simpa [quadShape, hg] using this
        simp only [hx, not_false_eq_true, true_and, hxg, reduceCtorEq, or_false, ← hn.held]
        unfold HeldAt posSet
        rw [h4]
        exact a.held_same quadShape_laws h.inv hn.defined r
    | some g =>
      rw [hg] at h4
      refine ⟨?_, fun r => ?_⟩
      · intro i hi
        rw [h4] at hi
        rcases NatSet.mem_insert.1 hi with rfl | hi
        · obtain ⟨r, hr, -⟩ := a.comp quadShape_laws h.inv (p := .graph) hg
          exact ⟨r, hr⟩
        · obtain ⟨r, hr⟩ := hn.defined i hi
          exact ⟨r, a.val quadShape_laws h.inv hr⟩
      · have := a.held quadShape_laws h.inv hn.defined (p := .graph) hg r
        simp only [hx, not_false_eq_true, true_and, ← hn.held]
        unfold HeldAt posSet
        rw [h4, Or.comm]
        exact this

theorem Names.remove {d d' : IndexedBTreeDataset R} (h : d.WF) (hc : d.Clean) {N : R → Prop}
    (hn : d.Names N) {k : Nat} {q : Quad Nat} {x : Quad R} (a : RemovedAt d k q x d')
    (ht : ∀ r, N r → Spec.quadHas x r → (¬ ∃ y, d'.abs y ∧ Spec.quadHas y r) → x.g = some r) :
    d'.Names (fun r => N r ∧ ∃ y, d'.abs y ∧ Spec.quadHas y r) := by
  have hdef : ∀ i ∈ d'.namedGraphs, ∃ r, (indexOps R).val d'.resources i = some r := by
    intro i hi
    obtain ⟨hi, hne⟩ := (a.namedMem i).1 hi
    obtain ⟨r, hr⟩ := hn.defined i hi
    cases hv : (indexOps R).val d'.resources i with
    | some r' => exact ⟨r', rfl⟩
    | none =>
      exfalso
      have hno : ¬ ∃ y, d'.abs y ∧ Spec.quadHas y r := by
        rw [occurs_iff a.wf]
        rintro ⟨j, hj⟩
        cases h.inv.slot_inj hc hr (a.erased.val quadShape_laws h.inv hj)
        rw [hv] at hj
        cases hj
      have hx : Spec.quadHas x r := by
        obtain ⟨y, hy, hyr⟩ := (occurs_iff h r).2 ⟨i, hr⟩
        by_cases hyx : y = x
        · exact hyx ▸ hyr
        · exact absurd ⟨y, (a.abs y).2 ⟨hy, hyx⟩, hyr⟩ hno
      have hxg := ht r ((hn.held r).1 ⟨i, hi, hr⟩) hx hno
      obtain ⟨j, ⟨q', hq', hcj⟩, hj⟩ := h.inv.value_comp quadShape_laws (p := .graph) a.was hxg
      rw [a.get] at hq'
      cases hq'
      cases h.inv.slot_inj hc hr hj
      exact hne ⟨hcj, hv⟩
  refine ⟨hdef, fun r => ?_⟩
  rw [← hn.held]
  constructor
  · rintro ⟨i, hi, hv⟩
    exact ⟨⟨i, ((a.namedMem i).1 hi).1, a.erased.val quadShape_laws h.inv hv⟩,
      (occurs_iff a.wf r).2 ⟨i, hv⟩⟩
  · rintro ⟨⟨i, hi, hv⟩, ho⟩
    obtain ⟨j, hj⟩ := (occurs_iff a.wf r).1 ho
    cases h.inv.slot_inj hc hv (a.erased.val quadShape_laws h.inv hj)
    exact ⟨i, (a.namedMem i).2 ⟨hi, by rw [hj]; simp⟩, hj⟩

theorem Names.congr {d : IndexedBTreeDataset R} {N N' : R → Prop} (hn : d.Names N)
    (h : ∀ r, N r ↔ N' r) : d.Names N' :=
  ⟨hn.defined, fun r => (hn.held r).trans (h r)⟩

theorem Removed.names {d d' : IndexedBTreeDataset R} {xs : List (Quad R)} (h : Removed d xs d') :
    ∀ {N : R → Prop}, d.WF → d.Clean → d.Names N →
    (∀ r, N r → (∃ y, d.abs y ∧ Spec.quadHas y r)) →
    (∀ r, N r → (¬ ∃ y, d'.abs y ∧ Spec.quadHas y r) → ∀ x ∈ xs, Spec.quadHas x r → x.g = some r) →
    d'.Names (fun r => N r ∧ ∃ y, d'.abs y ∧ Spec.quadHas y r) := by
  induction h with
  | nil => exact fun hw hc hn ho ht => hn.congr (fun r => ⟨fun h => ⟨h, ho r h⟩, And.left⟩)
  | @cons d k q x d₁ xs d' a t ih =>
    intro N hw hc hn ho ht
    have sub : ∀ r, (∃ y, d'.abs y ∧ Spec.quadHas y r) → ∃ y, d₁.abs y ∧ Spec.quadHas y r := by
      rintro r ⟨y, hy, hr⟩
      exact ⟨y, ((t.abs.1 y).1 hy).1, hr⟩
    have h1 := hn.remove hw hc a (fun r hr hx hno =>
      ht r hr (fun h => hno (sub r h)) x (by simp) hx)
    refine (ih a.wf (a.clean hc) h1 (fun r h => h.2) ?_).congr ?_
    · exact fun r hr hno y hy hyr => ht r hr.1 hno y (by simp [hy]) hyr
    · exact fun r => ⟨fun h => ⟨h.1.1, h.2⟩, fun h => ⟨⟨h.1, sub r h.2⟩, h.2⟩⟩

/-- A slot of the set of graph names whose term leaves otherwise than as a graph
name stays in the set. -/
theorem Removed.stale {d d' : IndexedBTreeDataset R} {xs : List (Quad R)} (h : Removed d xs d')
    {i : Nat} {r : R} : d.WF → i ∈ d.namedGraphs →
    (∀ v, (indexOps R).val d.resources i = some v → v = r) → (∀ y ∈ xs, y.g ≠ some r) →
    i ∈ d'.namedGraphs ∧ ∀ v, (indexOps R).val d'.resources i = some v → v = r := by
  induction h with
  | nil => exact fun _ h1 h2 _ => ⟨h1, h2⟩
  | @cons d k q x d₁ xs d' a _ ih =>
    intro hw hi hv hx
    refine ih a.wf ((a.namedMem i).2 ⟨hi, ?_⟩) ?_ (fun y hy => hx y (by simp [hy]))
    · rintro ⟨hq, -⟩
      obtain ⟨v, h1, h2⟩ := a.erased.comp quadShape_laws hw.inv (p := .graph) hq
      cases hv v h1
      exact hx x (by simp) h2
    · exact fun v h => hv v (a.erased.val quadShape_laws hw.inv h)

theorem removeGraph_isSome {d d' : IndexedBTreeDataset R} (h : d.WF) (hc : d.Clean) {g : R}
    {out : Option (BTreeGraph R)} (e : d.removeGraph rep (some g) = .ok (d', out)) :
    out.isSome = true ↔ d.HeldAt .graph g := by
  obtain ⟨o, eo, ho⟩ := h.inv.table.indexOf_spec g
  have eo' : d.indexOfResource g = .ok o := eo
  have key : ∀ i, (indexOps R).val d.resources i = some g → o = some i :=
    fun i hi => (ho i).2 ⟨hc i g hi, hi⟩
  cases o with
  | none =>
    simp [removeGraph, eo', bind, Except.bind, pure, Except.pure] at e
    rw [← e.2]
    simp only [Option.isSome_none, Bool.false_eq_true, false_iff]
    rintro ⟨i, -, hi⟩
    cases key i hi
  | some gi =>
    obtain ⟨hgi, hgv⟩ := (ho gi).1 rfl
    by_cases hm : gi ∈ d.namedGraphs
    · have hgv' := hgv
      unfold ResOps.val at hgv'
      rw [Option.map_eq_some_iff] at hgv'
      obtain ⟨x, hx, hxv⟩ := hgv'
      have : out.isSome = true := by
        simp only [removeGraph, eo', bind, Except.bind, pure, Except.pure,
          List.contains_iff_mem, hm, if_true, Slab.index, hx] at e
        cases hl : removeGraphLoop rep d BTreeGraph.new x.asGraph with
        | error er => rw [hl] at e; cases e
        | ok y =>
          rw [hl] at e
          obtain ⟨d1, g1⟩ := y
          simp only [Except.ok.injEq, Prod.mk.injEq] at e
          rw [← e.2]
          rfl
      simp only [this, true_iff]
      exact ⟨gi, hm, hgv⟩
    · simp [removeGraph, eo', hm, bind, Except.bind, pure, Except.pure] at e
      rw [← e.2]
      simp only [Option.isSome_none, Bool.false_eq_true, false_iff]
      rintro ⟨i, hi, hv⟩
      cases key i hv
      exact hm hi

/-! ### Along histories -/

theorem past_head {d : IndexedBTreeDataset R} {l : List (Quad R → Prop)}
    (h : Spec.DatasetPast rep d l) : ∃ A t, l = A :: t ∧
      Spec.DatasetReach rep Spec.knownRepeats Spec.knownRepeats True d A := by
  induction h with
  | new => exact ⟨_, _, rfl, .new⟩
  | convert h e => exact ⟨_, _, rfl, .convert h e⟩
  | step _ st ih =>
    obtain ⟨A, t, hl, hr⟩ := ih
    cases hl
    refine ⟨_, _, rfl, ?_⟩
    cases st with
    | insert hp e => exact .insert hr hp e
    | remove e => exact .remove hr trivial e
    | removeGraph e => exact .removeGraph hr trivial e
    | extract hc e => exact .extract hr trivial hc e

/-- Every history has a past. -/
theorem reach_past {d : IndexedBTreeDataset R} {A : Quad R → Prop}
    (h : Spec.DatasetReach rep Spec.knownRepeats Spec.knownRepeats True d A) :
    ∃ l, Spec.DatasetPast rep d (A :: l) := by
  induction h with
  | new => exact ⟨_, .new⟩
  | convert h e => exact ⟨_, .convert h e⟩
  | insert _ hp e ih =>
    obtain ⟨l, hl⟩ := ih
    exact ⟨_, .step hl (.insert hp e)⟩
  | remove _ _ e ih =>
    obtain ⟨l, hl⟩ := ih
    exact ⟨_, .step hl (.remove e)⟩
  | removeGraph _ _ e ih =>
    obtain ⟨l, hl⟩ := ih
    exact ⟨_, .step hl (.removeGraph e)⟩
  | extract _ _ hc e ih =>
    obtain ⟨l, hl⟩ := ih
    exact ⟨_, .step hl (.extract hc e)⟩

theorem past_stands {d : IndexedBTreeDataset R} {A : Quad R → Prop} {l : List (Quad R → Prop)}
    (h : Spec.DatasetPast rep d (A :: l)) :
    Stands WF IndexedBTreeDataset.abs d A ∧ d.Clean := by
  obtain ⟨A', t, hl, hr⟩ := past_head h
  cases hl
  exact ⟨reach_stands hr, reach_clean (fun _ _ h => h) (fun _ _ h => h) hr⟩

/-- A call inserts a quad or takes quads out. -/
theorem step_cases {d d' : IndexedBTreeDataset R} {A A' : Quad R → Prop}
    (hs : Stands WF IndexedBTreeDataset.abs d A) (hs' : Stands WF IndexedBTreeDataset.abs d' A')
    (st : Spec.DatasetStep rep d A d' A') :
    (∃ x b, d.insert rep x = .ok (d', b) ∧ A' = fun y => A y ∨ y = x) ∨
    (∃ xs, Removed d xs d' ∧ (∀ y, y ∈ xs ↔ A y ∧ ¬ A' y) ∧ ∀ y, A' y → A y) := by
  have key : ∀ xs, Removed d xs d' →
      (∀ y, y ∈ xs ↔ A y ∧ ¬ A' y) ∧ ∀ y, A' y → A y := by
    intro xs hx
    obtain ⟨h1, -, h3⟩ := hx.abs
    refine ⟨fun y => ?_, fun y hy => ?_⟩
    · rw [← hs.2, ← hs'.2, h1]
      constructor
      · exact fun hy => ⟨h3 y hy, fun h => h.2 hy⟩
      · rintro ⟨hy, hn⟩
        exact Classical.byContradiction fun hm => hn ⟨hy, hm⟩
    · rw [← hs'.2, h1] at hy
      exact (hs.2 y).1 hy.1
  cases st with
  | insert hp e => exact Or.inl ⟨_, _, e, rfl⟩
  | @remove _ _ x b e =>
    refine Or.inr ?_
    rcases remove_core hs.1 x with ⟨k, q, d1, e1, r⟩ | ⟨e1, -⟩
    · rw [e] at e1
      cases e1
      exact ⟨[x], .cons r (.nil _), key _ (.cons r (.nil _))⟩
    · rw [e] at e1
      cases e1
      exact ⟨[], .nil _, key _ (.nil _)⟩
  | removeGraph e =>
    obtain ⟨d1, out1, e1, gr⟩ := removeGraph_spec rep hs.1 _
    rw [e] at e1
    cases e1
    obtain ⟨xs, hx, -⟩ := gr.chain
    exact Or.inr ⟨xs, hx, key xs hx⟩
  | extract hc e =>
    obtain ⟨d1, out1, ended1, e1, hx, -⟩ := extractPatternMatching_spec hs.1 hc _ _
    rw [e] at e1
    cases e1
    exact Or.inr ⟨_, hx, key _ hx⟩

theorem past_held {p : Pos} (hp : p ≠ .graph) {f : Quad R → R}
    (hf : ∀ y r, (quadShape R).compV y p = some r ↔ f y = r) {d : IndexedBTreeDataset R}
    {l : List (Quad R → Prop)} (h : Spec.DatasetPast rep d l) (r : R) :
    d.HeldAt p r ↔ Spec.lastAdded f l r := by
  induction h with
  | new =>
    constructor
    · rintro ⟨i, hi, -⟩
      cases p <;> cases hi
    · rintro ⟨y, hy, -⟩
      exact hy.elim
  | @convert g A d h e =>
    have hs := (BTreeDataset.laws rep).reach_stands h
    have hs' := (past_stands (.convert h e)).1
    obtain ⟨d1, e1, -, fl, -⟩ := fromNonIndexed_spec hs.1
    rw [e] at e1
    cases e1
    have hfull : PosFull (quadShape R) d.quads p (d.posSet p) := by
      cases p
      · exact fl.subj
      · exact fl.pred
      · exact fl.obj
      · exact (hp rfl).elim
    obtain ⟨rs, h1, h2, h3, h4, -⟩ := pos_listing hs' (posSet_sound hs'.1 hp)
    constructor
    · rintro ⟨i, hi, hv⟩
      obtain ⟨k, hk⟩ := (posSet_sound hs'.1 hp).sound i hi
      obtain ⟨x, r', hx, hr', hc⟩ := hs'.1.inv.comp_value quadShape_laws hk
      rw [hv] at hr'
      cases hr'
      exact ⟨x, (hs'.2 x).1 ⟨k, hx⟩, (hf _ _).1 hc⟩
    · rintro ⟨y, hy, hr⟩
      obtain ⟨k, hk⟩ := (hs'.2 y).2 hy
      obtain ⟨i, hi, hv⟩ := hs'.1.inv.value_comp quadShape_laws hk ((hf _ _).2 hr)
      exact ⟨i, hfull i k hi, hv⟩
  | @step d d' A A' l h st ih =>
    obtain ⟨hs, hc⟩ := past_stands h
    obtain ⟨hs', -⟩ := past_stands (.step h st)
    simp only [Spec.lastAdded]
    rcases step_cases hs hs' st with ⟨x, b, e, rfl⟩ | ⟨xs, hx, hm, hsub⟩
    · rw [insert_held hs.1 e hp, ih, hs.2, hf]
      constructor
      · rintro (h | ⟨h, hr⟩)
        · exact Or.inr ⟨h, fun ⟨y, hy, hn, _⟩ => hn (Or.inl hy)⟩
        · exact Or.inl ⟨x, Or.inr rfl, h, hr⟩
      · rintro (⟨y, hy, hn, hr⟩ | ⟨h, -⟩)
        · rcases hy with hy | rfl
          · exact absurd hy hn
          · exact Or.inr ⟨hn, hr⟩
        · exact Or.inl h
    · rw [hx.held hp r hs.1 hc, ih]
      constructor
      · rintro ⟨h, hn⟩
        exact Or.inr ⟨h, fun ⟨y, hy, hy', hr⟩ => hn y ((hm y).2 ⟨hy, hy'⟩) ((hf _ _).2 hr)⟩
      · rintro (⟨y, hy, hn, hr⟩ | ⟨h, hn⟩)
        · exact absurd (hsub y hy) hn
        · exact ⟨h, fun y hy hr => hn ⟨y, ((hm y).1 hy).1, ((hm y).1 hy).2, (hf _ _).1 hr⟩⟩

theorem past_listing {p : Pos} (hp : p ≠ .graph) {f : Quad R → R}
    (hf : ∀ y r, (quadShape R).compV y p = some r ↔ f y = r) {d : IndexedBTreeDataset R}
    {l : List (Quad R → Prop)} (h : Spec.DatasetPast rep d l) :
    ∃ rs, (indexOps R).readResources d.resources (d.posSet p) = .ok rs ∧ rs.Nodup ∧
      (∀ r, r ∈ rs ↔ Spec.lastAdded f l r) ∧ (d.posSet p).length = rs.length := by
  obtain ⟨A, t, rfl, -⟩ := past_head h
  obtain ⟨hs, hc⟩ := past_stands h
  have ps := posSet_sound hs.1 hp
  obtain ⟨rs, h1, h2, h3, h4⟩ := hs.1.inv.held_listing hc ps.asc
    (ps.defined quadShape_laws hs.1.inv)
  exact ⟨rs, h1, h2, fun r => (h3 r).trans (past_held hp hf h r), h4⟩

theorem onceNamed_occurs {A : Quad R → Prop} {l : List (Quad R → Prop)}
    {r : R} (h : Spec.onceNamed (A :: l) r) : Spec.occursIn A r := by
  have name : (∃ y, A y ∧ y.g = some r) → Spec.occursIn A r := by
    rintro ⟨y, hy, hr⟩
    exact ⟨y, hy, Or.inr (Or.inr (Or.inr hr))⟩
  cases l with
  | nil => exact name h
  | cons B l => exact h.elim name And.right

theorem onceNamed_of_name {A : Quad R → Prop} {l : List (Quad R → Prop)}
    {r : R} (h : ∃ y, A y ∧ y.g = some r) : Spec.onceNamed (A :: l) r := by
  cases l with
  | nil => exact h
  | cons B l => exact Or.inl h

theorem occursIn_iff {d : IndexedBTreeDataset R} {A : Quad R → Prop}
    (hs : Stands WF IndexedBTreeDataset.abs d A) (r : R) :
    Spec.occursIn A r ↔ ∃ y, d.abs y ∧ Spec.quadHas y r :=
  exists_congr fun y => by rw [hs.2]

theorem past_names {d : IndexedBTreeDataset R} {l : List (Quad R → Prop)}
    (h : Spec.DatasetPast rep d l) : Spec.LeavesAsName l → d.Names (Spec.onceNamed l) := by
  induction h with
  | new =>
    intro _
    refine ⟨fun i hi => (List.not_mem_nil hi).elim, fun r => ⟨?_, ?_⟩⟩
    · rintro ⟨i, hi, -⟩
      cases hi
    · rintro ⟨y, hy, -⟩
      exact hy.elim
  | @convert g A d h e =>
    intro _
    have hs := (BTreeDataset.laws rep).reach_stands h
    have hs' := (past_stands (.convert h e)).1
    obtain ⟨d1, e1, -, fl, -⟩ := fromNonIndexed_spec hs.1
    rw [e] at e1
    cases e1
    refine ⟨fl.named.defined quadShape_laws hs'.1.inv, fun r => ⟨?_, ?_⟩⟩
    · rintro ⟨i, hi, hv⟩
      obtain ⟨k, hk⟩ := fl.named.sound i hi
      obtain ⟨x, r', hx, hr', hc⟩ := hs'.1.inv.comp_value quadShape_laws hk
      rw [hv] at hr'
      cases hr'
      exact ⟨x, (hs'.2 x).1 ⟨k, hx⟩, hc⟩
    · rintro ⟨y, hy, hr⟩
      obtain ⟨k, hk⟩ := (hs'.2 y).2 hy
      obtain ⟨i, hi, hv⟩ := hs'.1.inv.value_comp quadShape_laws (p := .graph) hk hr
      exact ⟨i, hs'.1.named i k hi, hv⟩
  | @step d d' A A' l h st ih =>
    rintro ⟨ht, hlast⟩
    obtain ⟨hs, hc⟩ := past_stands h
    obtain ⟨hs', -⟩ := past_stands (.step h st)
    have hn := ih ht
    rcases step_cases hs hs' st with ⟨x, b, e, rfl⟩ | ⟨xs, hx, hm, hsub⟩
    · refine (hn.insert hs.1 e).congr fun r => ?_
      simp only [Spec.onceNamed]
      constructor
      · rintro (h | ⟨-, hr⟩)
        · obtain ⟨y, hy, hyr⟩ := onceNamed_occurs h
          exact Or.inr ⟨h, y, Or.inl hy, hyr⟩
        · exact Or.inl ⟨x, Or.inr rfl, hr⟩
      · rintro (⟨y, hy | rfl, hr⟩ | ⟨h, -⟩)
        · exact Or.inl (onceNamed_of_name ⟨y, hy, hr⟩)
        · by_cases hy : A y
          · exact Or.inl (onceNamed_of_name ⟨y, hy, hr⟩)
          · exact Or.inr ⟨fun h => hy ((hs.2 y).1 h), hr⟩
        · exact Or.inl h
    · refine (hx.names hs.1 hc hn ?_ ?_).congr fun r => ?_
      · exact fun r hr => (occursIn_iff hs r).1 (onceNamed_occurs hr)
      · intro r hr hno x hxm hxr
        rw [← occursIn_iff hs'] at hno
        exact hlast r hr hno x ((hm x).1 hxm).1 ((hm x).1 hxm).2 hxr
      · rw [← occursIn_iff hs']
        simp only [Spec.onceNamed]
        constructor
        · exact Or.inr
        · rintro (⟨y, hy, hr⟩ | h)
          · exact ⟨onceNamed_of_name ⟨y, hsub y hy, hr⟩, y, hy, Or.inr (Or.inr (Or.inr hr))⟩
          · exact h

theorem past_names_listing {d : IndexedBTreeDataset R} {l : List (Quad R → Prop)}
    (h : Spec.DatasetPast rep d l) (ht : Spec.LeavesAsName l) :
    ∃ rs, d.namedGraphList = .ok rs ∧ rs.Nodup ∧ (∀ r, r ∈ rs ↔ Spec.onceNamed l r) ∧
      d.namedGraphCount = rs.length := by
  have hn := past_names h ht
  obtain ⟨A, t, rfl, -⟩ := past_head h
  obtain ⟨hs, hc⟩ := past_stands h
  obtain ⟨rs, h1, h2, h3, h4⟩ := hs.1.inv.held_listing hc hs.1.namedAsc hn.defined
  exact ⟨rs, h1, h2, fun r => (h3 r).trans (hn.held r), h4⟩

theorem past_stale {d : IndexedBTreeDataset R} {A : Quad R → Prop} {l : List (Quad R → Prop)}
    (h : Spec.DatasetPast rep d (A :: l)) (ht : Spec.LeavesAsName l)
    (hl : Spec.LeftOtherwise (A :: l)) : d.namedGraphList = .error .invalidKey := by
  cases h with
  | new => exact hl.elim
  | convert => exact hl.elim
  | @step d _ A₀ _ l h st =>
    obtain ⟨r, hr, hno, hg⟩ := hl
    obtain ⟨hs, hc⟩ := past_stands h
    obtain ⟨hs', -⟩ := past_stands (.step h st)
    obtain ⟨i, hi, hv⟩ := ((past_names h ht).held r).2 hr
    rcases step_cases hs hs' st with ⟨x, b, e, rfl⟩ | ⟨xs, hx, hm, hsub⟩
    · obtain ⟨y, hy, hyr⟩ := onceNamed_occurs hr
      exact absurd ⟨y, Or.inl hy, hyr⟩ hno
    · obtain ⟨hi', hv'⟩ := hx.stale hs.1 hi (fun v h => by rw [hv] at h; cases h; rfl)
        (fun y hy => hg y ((hm y).1 hy).1 ((hm y).1 hy).2)
      refine readResources_stale hi' ?_
      cases hq : (indexOps R).val _ i with
      | none => rfl
      | some v =>
        cases hv' v hq
        exact absurd ((occursIn_iff hs' _).2 ((occurs_iff hs'.1 _).2 ⟨i, hq⟩)) hno

end IndexedBTreeDataset

namespace IndexedBTreeGraph

abbrev InsertedAt (d : IndexedBTreeGraph R) (q : Triple Nat) (x : Triple R)
    (d' : IndexedBTreeGraph R) : Prop :=
  Inserted (tripleShape R) (indexOps R) IndexRep d.resources d.triples d'.resources
    d'.resourcesIndexes d'.triples d'.triplesIndexes q x

theorem insert_tables {d d' : IndexedBTreeGraph R} (h : d.WF) {x : Triple R} {b : Bool}
    (e : d.insert rep x = .ok (d', b)) :
    (d.abs x ∧ d' = d) ∨ (¬ d.abs x ∧ ∃ q, InsertedAt d q x d' ∧
      d'.subjects = NatSet.insert q.s d.subjects ∧ d'.predicates = NatSet.insert q.p d.predicates ∧
      d'.objects = NatSet.insert q.o d.objects) := by
  obtain ⟨b', hb, hbi⟩ := contains_spec h x
  cases b' with
  | true =>
    simp [insert, hb, bind, Except.bind, pure, Except.pure] at e
    exact Or.inl ⟨hbi.1 rfl, e.1.symm⟩
  | false =>
    have hx : ¬ d.abs x := fun e => by simpa using hbi.2 e
    obtain ⟨res', ridx', q, sidx', e1, e2, h1, h2, h3, a⟩ :=
      Inv.insertTriple_spec (indexOps_laws R) rep h.inv x hx
    simp [insert, hb, e1, e2, bind, Except.bind, pure, Except.pure] at e
    obtain ⟨e, -⟩ := e
    subst e
    exact Or.inr ⟨hx, q, ⟨h1, rfl, h2⟩, rfl, rfl, rfl⟩

theorem RemovedAt.erased {d d' : IndexedBTreeGraph R} {k : Nat} {q : Triple Nat} {x : Triple R}
    (r : RemovedAt d k q x d') :
    Erased (tripleShape R) (indexOps R) IndexRep d.resources d.triples d'.resources
      d'.resourcesIndexes d'.triples d'.triplesIndexes k q x :=
  ⟨r.wf.inv, r.get, r.was, r.triples, r.sval⟩

/-- The terms of the set kept for a position. -/
def HeldAt (d : IndexedBTreeGraph R) (p : Pos) (r : R) : Prop :=
  Held (indexOps R) d.resources (d.posSet p) r

theorem posSet_sound {d : IndexedBTreeGraph R} (h : d.WF) {p : Pos} (hp : p ≠ .graph) :
    PosSet (tripleShape R) d.triples p (d.posSet p) := by
  cases p
  · exact h.subj
  · exact h.pred
  · exact h.obj
  · exact (hp rfl).elim

theorem insert_held {d d' : IndexedBTreeGraph R} (h : d.WF) {x : Triple R} {b : Bool}
    (e : d.insert rep x = .ok (d', b)) {p : Pos} (hp : p ≠ .graph) (r : R) :
    d'.HeldAt p r ↔ d.HeldAt p r ∨ (¬ d.abs x ∧ (tripleShape R).compV x p = some r) := by
  rcases insert_tables h e with ⟨hx, rfl⟩ | ⟨hx, q, a, h1, h2, h3⟩
  · simp [hx]
  · have key := fun i (hi : (tripleShape R).comp q p = some i) =>
      a.held tripleShape_laws h.inv ((posSet_sound h hp).defined tripleShape_laws h.inv) hi r
    simp only [hx, not_false_eq_true, true_and]
    rw [Or.comm]
    cases p
    · simp only [HeldAt, posSet, h1]; exact key _ rfl
    · simp only [HeldAt, posSet, h2]; exact key _ rfl
    · simp only [HeldAt, posSet, h3]; exact key _ rfl
    · exact (hp rfl).elim

theorem RemovedAt.held {d d' : IndexedBTreeGraph R} (h : d.WF) (hc : d.Clean) {k : Nat}
    {q : Triple Nat} {x : Triple R} (a : RemovedAt d k q x d') {p : Pos} (hp : p ≠ .graph) (r : R) :
    d'.HeldAt p r ↔ d.HeldAt p r ∧ (tripleShape R).compV x p ≠ some r := by
  have key := fun i (hi : (tripleShape R).comp q p = some i) =>
    a.erased.held tripleShape_laws h.inv hc (posSet_sound h hp) hi r
  cases p
  · simp only [HeldAt, posSet, a.subjects]; exact key _ rfl
  · simp only [HeldAt, posSet, a.predicates]; exact key _ rfl
  · simp only [HeldAt, posSet, a.objects]; exact key _ rfl
  · exact (hp rfl).elim

theorem past_head {d : IndexedBTreeGraph R} {l : List (Triple R → Prop)}
    (h : Spec.GraphPast rep d l) : ∃ A t, l = A :: t ∧
      Spec.GraphReach rep Spec.knownTripleRepeats Spec.knownTripleRepeats d A := by
  induction h with
  | new => exact ⟨_, _, rfl, .new⟩
  | convert h e => exact ⟨_, _, rfl, .convert h e⟩
  | insert _ hp e ih =>
    obtain ⟨A, t, hl, hr⟩ := ih
    cases hl
    exact ⟨_, _, rfl, .insert hr hp e⟩
  | remove _ e ih =>
    obtain ⟨A, t, hl, hr⟩ := ih
    cases hl
    exact ⟨_, _, rfl, .remove hr trivial e⟩

theorem past_stands {d : IndexedBTreeGraph R} {A : Triple R → Prop} {l : List (Triple R → Prop)}
    (h : Spec.GraphPast rep d (A :: l)) :
    Stands WF IndexedBTreeGraph.abs d A ∧ d.Clean := by
  obtain ⟨A', t, hl, hr⟩ := past_head h
  cases hl
  exact ⟨reach_stands hr, reach_clean (fun _ _ h => h) (fun _ _ h => h) hr⟩

theorem past_held {p : Pos} (hp : p ≠ .graph) {f : Triple R → R}
    (hf : ∀ y r, (tripleShape R).compV y p = some r ↔ f y = r) {d : IndexedBTreeGraph R}
    {l : List (Triple R → Prop)} (h : Spec.GraphPast rep d l) (r : R) :
    d.HeldAt p r ↔ Spec.lastAdded f l r := by
  induction h with
  | new =>
    constructor
    · rintro ⟨i, hi, -⟩
      cases p <;> cases hi
    · rintro ⟨y, hy, -⟩
      exact hy.elim
  | @convert g A d h e =>
    have hs := (BTreeGraph.laws rep).reach_stands h
    have hs' := (past_stands (.convert h e)).1
    obtain ⟨d1, e1, -, fl, -⟩ := fromNonIndexed_spec hs.1
    rw [e] at e1
    cases e1
    have hfull : PosFull (tripleShape R) d.triples p (d.posSet p) := by
      cases p
      · exact fl.subj
      · exact fl.pred
      · exact fl.obj
      · exact (hp rfl).elim
    constructor
    · rintro ⟨i, hi, hv⟩
      obtain ⟨k, hk⟩ := (posSet_sound hs'.1 hp).sound i hi
      obtain ⟨x, r', hx, hr', hc⟩ := hs'.1.inv.comp_value tripleShape_laws hk
      rw [hv] at hr'
      cases hr'
      exact ⟨x, (hs'.2 x).1 ⟨k, hx⟩, (hf _ _).1 hc⟩
    · rintro ⟨y, hy, hr⟩
      obtain ⟨k, hk⟩ := (hs'.2 y).2 hy
      obtain ⟨i, hi, hv⟩ := hs'.1.inv.value_comp tripleShape_laws hk ((hf _ _).2 hr)
      exact ⟨i, hfull i k hi, hv⟩
  | @insert d d' A l x b h hP e ih =>
    obtain ⟨hs, hc⟩ := past_stands h
    simp only [Spec.lastAdded]
    rw [insert_held hs.1 e hp, ih, hs.2, hf]
    constructor
    · rintro (h | ⟨h, hr⟩)
      · exact Or.inr ⟨h, fun ⟨y, hy, hn, _⟩ => hn (Or.inl hy)⟩
      · exact Or.inl ⟨x, Or.inr rfl, h, hr⟩
    · rintro (⟨y, hy, hn, hr⟩ | ⟨h, -⟩)
      · rcases hy with hy | rfl
        · exact absurd hy hn
        · exact Or.inr ⟨hn, hr⟩
      · exact Or.inl h
  | @remove d d' A l x b h e ih =>
    obtain ⟨hs, hc⟩ := past_stands h
    simp only [Spec.lastAdded]
    rcases remove_core hs.1 x with ⟨k, q, d1, e1, a⟩ | ⟨e1, hx⟩
    · rw [e] at e1
      cases e1
      rw [a.held hs.1 hc hp, ih]
      constructor
      · rintro ⟨h, hn⟩
        refine Or.inr ⟨h, ?_⟩
        rintro ⟨y, hy, hy', hr⟩
        have : y = x := Classical.byContradiction fun hne => hy' ⟨hy, hne⟩
        subst this
        exact hn ((hf _ _).2 hr)
      · rintro (⟨y, hy, hn, hr⟩ | ⟨h, hn⟩)
        · exact absurd hy.1 hn
        · exact ⟨h, fun hr => hn ⟨x, (hs.2 x).1 ⟨k, a.was⟩, fun h => h.2 rfl, (hf _ _).1 hr⟩⟩
    · rw [e] at e1
      cases e1
      rw [ih]
      constructor
      · intro h
        refine Or.inr ⟨h, ?_⟩
        rintro ⟨y, hy, hy', hr⟩
        have : y = x := Classical.byContradiction fun hne => hy' ⟨hy, hne⟩
        subst this
        exact hx ((hs.2 _).2 hy)
      · rintro (⟨y, hy, hn, hr⟩ | ⟨h, hn⟩)
        · exact absurd hy.1 hn
        · exact h

theorem past_listing {p : Pos} (hp : p ≠ .graph) {f : Triple R → R}
    (hf : ∀ y r, (tripleShape R).compV y p = some r ↔ f y = r) {d : IndexedBTreeGraph R}
    {l : List (Triple R → Prop)} (h : Spec.GraphPast rep d l) :
    ∃ rs, (indexOps R).readResources d.resources (d.posSet p) = .ok rs ∧ rs.Nodup ∧
      (∀ r, r ∈ rs ↔ Spec.lastAdded f l r) ∧ (d.posSet p).length = rs.length := by
  obtain ⟨A, t, rfl, -⟩ := past_head h
  obtain ⟨hs, hc⟩ := past_stands h
  have ps := posSet_sound hs.1 hp
  obtain ⟨rs, h1, h2, h3, h4⟩ := hs.1.inv.held_listing hc ps.asc
    (ps.defined tripleShape_laws hs.1.inv)
  exact ⟨rs, h1, h2, fun r => (h3 r).trans (past_held hp hf h r), h4⟩

end IndexedBTreeGraph

end RdfTypes
