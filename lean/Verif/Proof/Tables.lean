import Verif.Proof.Chain

/-! # The steps of `insert` and `remove` on tables of quads and triples -/

set_option linter.unusedSectionVars false
set_option linter.unusedSimpArgs false

namespace RdfTypes

variable {R ρ : Type} [Ord R] [Std.TransOrd R] [Std.LawfulEqOrd R]
variable {ops : ResOps R ρ} {Rep : ρ → (Pos → Nat → Prop) → Prop}
variable {res : Slab ρ} {ridx sidx : Index}

theorem Index.removeFrom_none {cmp : Nat → Res Ordering} {l l' : Index}
    (h : Index.removeFrom cmp l = .ok (l', none)) : l' = l := by
  induction l generalizing l' with
  | nil => simpa [Index.removeFrom] using h.symm
  | cons i l ih =>
    simp only [Index.removeFrom, bind, Except.bind, pure, Except.pure] at h
    cases hc : cmp i with
    | error e => simp [hc] at h
    | ok o =>
      simp only [hc] at h
      cases o with
      | lt =>
        simp only at h
        cases hr : Index.removeFrom cmp l with
        | error e => simp [hr] at h
        | ok p =>
          obtain ⟨l1, r⟩ := p
          simp only [hr, Except.ok.injEq, Prod.mk.injEq] at h
          obtain ⟨rfl, rfl⟩ := h
          rw [ih hr]
      | eq => simp at h
      | gt =>
        simp only [Except.ok.injEq, Prod.mk.injEq, and_true] at h
        exact h.symm

theorem Index.remove_none {cmp : Nat → Res Ordering} {l l' : Index}
    (h : Index.remove cmp l = .ok (l', none)) : l' = l :=
  Index.removeFrom_none (Index.check_cases h).2

theorem mapM_congr {α β : Type} {f g : α → Res β} {l : List α} (h : ∀ x ∈ l, f x = g x) :
    l.mapM f = l.mapM g := by
  induction l with
  | nil => rfl
  | cons x l ih =>
    rw [List.mapM_cons, List.mapM_cons, h x (by simp), ih (fun y hy => h y (by simp [hy]))]

section generic

variable {σ S : Type} [Ord S] [Std.TransOrd S] [Std.LawfulEqOrd S] {sh : Shape σ S R} {st : Slab σ}

/-- Looking up a statement. -/
theorem Inv.get_spec (H : ShapeLaws sh) (h : Inv sh ops Rep res ridx st sidx) (x : S)
    {cmp : Nat → Res Ordering} (hc : Index.Compares (sh.sval ops res st) x sidx cmp) :
    ∃ o, Index.get cmp sidx = .ok o ∧ (∀ i, o = some i ↔ sh.sval ops res st i = some x) ∧
      (o.isSome = true ↔ sh.abs ops res st x) := by
  obtain ⟨o, ho, hoi⟩ := Index.get_spec h.sorted hc
  have hoi' : ∀ i, o = some i ↔ sh.sval ops res st i = some x := by
    intro i
    rw [hoi, h.mem_iff_sval H]
    exact ⟨fun e => e.2, fun e => ⟨⟨x, e⟩, e⟩⟩
  refine ⟨o, ho, hoi', ?_⟩
  constructor
  · intro hs
    obtain ⟨i, hi⟩ := Option.isSome_iff_exists.1 hs
    exact ⟨i, (hoi' i).1 hi⟩
  · rintro ⟨i, hi⟩
    rw [(hoi' i).2 hi]
    rfl

/-- The number of statements is the number of items of the index. -/
theorem Inv.len_eq (h : Inv sh ops Rep res ridx st sidx) : st.len = sidx.length :=
  Slab.len_eq_length h.sorted.nodup (fun k => h.mem k)

/-- Iteration. -/
theorem Inv.iter_spec (H : ShapeLaws sh) (h : Inv sh ops Rep res ridx st sidx) {f : Nat → Res S}
    (hf : ∀ i x, sh.sval ops res st i = some x → f i = .ok x) :
    ∃ xs, sidx.mapM f = .ok xs ∧ xs.Pairwise (fun a b => compare a b = .lt) ∧
      (∀ x, x ∈ xs ↔ sh.abs ops res st x) ∧ st.len = xs.length ∧
      (∀ n : Nat, xs[n]? = (sidx[n]?).bind (sh.sval ops res st)) := by
  obtain ⟨xs, h1, h2, h3, h4, h5⟩ := h.sorted.mapM_spec (f := f) (fun i _ x hx => hf i x hx)
  refine ⟨xs, h1, h2, ?_, by rw [h.len_eq, h4], h5⟩
  intro x
  rw [h3]
  constructor
  · rintro ⟨i, -, hi⟩
    exact ⟨i, hi⟩
  · rintro ⟨i, hi⟩
    exact ⟨i, (h.mem_iff_sval H i).2 ⟨x, hi⟩, hi⟩

/-- The resources listed by the index. -/
theorem ResInv.resources_spec {E : Nat → Pos → Nat → Prop} (h : ResInv ops Rep res ridx E) :
    ∃ rs, ops.readResources res ridx = .ok rs ∧
      rs.Pairwise (fun a b => compare a b = .lt) ∧
      (∀ r, r ∈ rs ↔ ∃ i, i ∈ ridx ∧ ops.val res i = some r) := by
  obtain ⟨xs, h1, h2, h3, -, -⟩ := h.sorted.mapM_spec
    (f := fun i => do let x ← res.index i; pure (ops.value x)) (by
      intro i _ r hr
      unfold ResOps.val at hr
      rw [Option.map_eq_some_iff] at hr
      obtain ⟨x, hx, rfl⟩ := hr
      simp [Slab.index, hx, bind, Except.bind, pure, Except.pure])
  exact ⟨xs, h1, h2, h3⟩

/-- Each listed resource occurs in some statement, and conversely each
occurrence is in an occupied slot. -/
theorem Inv.occurs_of_val (H : ShapeLaws sh) (h : Inv sh ops Rep res ridx st sidx) {i : Nat} {r : R}
    (hi : ops.val res i = some r) : ∃ x, sh.abs ops res st x ∧ sh.Occurs x r := by
  obtain ⟨p, k, q, hq, hp⟩ := h.table.used_of_val hi
  obtain ⟨x, hx⟩ := h.sval_exists H hq
  refine ⟨x, ⟨k, hx⟩, p, ?_⟩
  unfold Shape.sval at hx
  simp only [hq, Option.bind_some] at hx
  have := H.valued_iff.1 hx p
  simp only [hp] at this
  obtain ⟨r', hr', hx'⟩ := this
  rw [hi] at hr'
  cases hr'
  exact hx'

theorem Inv.val_of_occurs (H : ShapeLaws sh) {x : S} {r : R}
    (hx : sh.abs ops res st x) (hr : sh.Occurs x r) :
    ∃ i, ops.val res i = some r := by
  obtain ⟨k, hk⟩ := hx
  obtain ⟨p, hp⟩ := hr
  unfold Shape.sval at hk
  cases hq : st.get k with
  | none => simp [hq] at hk
  | some q =>
    simp only [hq, Option.bind_some] at hk
    have := H.valued_iff.1 hk p
    cases hc : sh.comp q p with
    | none =>
      simp only [hc] at this
      rw [this] at hp
      cases hp
    | some i =>
      simp only [hc] at this
      obtain ⟨r', hr', hx'⟩ := this
      rw [hx'] at hp
      cases hp
      exact ⟨i, hr'⟩

/-- Taking a statement out of the index. -/
theorem Inv.removeIndex_spec (H : ShapeLaws sh) (h : Inv sh ops Rep res ridx st sidx) (x : S)
    {cmp : Nat → Res Ordering} (hc : Index.Compares (sh.sval ops res st) x sidx cmp) :
    (∃ k q sidx', Index.remove cmp sidx = .ok (sidx', some k) ∧ st.get k = some q ∧
      sh.sval ops res st k = some x ∧ Index.Sorted (sh.sval ops res st) sidx' ∧
      (∀ n, n ∈ sidx' ↔ n ∈ sidx ∧ sh.sval ops res st n ≠ some x)) ∨
    (Index.remove cmp sidx = .ok (sidx, none) ∧ ¬ sh.abs ops res st x) := by
  obtain ⟨l', o, e, hs, ho, hm⟩ := Index.remove_spec h.sorted hc
  cases o with
  | some k =>
    obtain ⟨hk, hkx⟩ := (ho k).1 rfl
    obtain ⟨q, hq⟩ := (h.mem k).1 hk
    exact Or.inl ⟨k, q, l', e, hq, hkx, hs, hm⟩
  | none =>
    have hno : ¬ sh.abs ops res st x := by
      rintro ⟨k, hk⟩
      have := (ho k).2 ⟨(h.mem_iff_sval H k).2 ⟨x, hk⟩, hk⟩
      cases this
    refine Or.inr ⟨?_, hno⟩
    have : l' = sidx := Index.remove_none e
    rw [e, this]

end generic

/-! ## Quads -/

section quads

variable {quads : Slab (Quad Nat)}

/-- Storing a new quad. -/
theorem Inv.insertQuad_spec (L : ResLaws ops Rep) (rep : Bool)
    (h : Inv (quadShape R) ops Rep res ridx quads sidx) (x : Quad R)
    (hnew : ¬ (quadShape R).abs ops res quads x) :
    ∃ res' ridx' q sidx',
      ops.acquireQuad rep res ridx quads.vacantKey x = .ok (res', ridx', q) ∧
      Index.insert rep (ops.quadIndexCmp res' (quads.insert q) quads.vacantKey) quads.vacantKey sidx
        = .ok sidx' ∧
      Inv (quadShape R) ops Rep res' ridx' (quads.insert q) sidx' ∧
      (∀ k, (quadShape R).sval ops res' (quads.insert q) k =
        if k = quads.vacantKey then some x else (quadShape R).sval ops res quads k) ∧
      (∀ y, (quadShape R).abs ops res' (quads.insert q) y ↔
        (quadShape R).abs ops res quads y ∨ y = x) ∧
      AcquiredAll rep (quadShape R) ops Rep res ridx ((quadShape R).uses quads) quads.vacantKey x
        res' ridx' q := by
  obtain ⟨res', ridx', q, e, a⟩ := acquireQuad_spec L rep h.table quads.vacantKey x
    (fun i p => Shape.not_uses_vacant h.wf i p)
  have hsv : (quadShape R).sval ops res' (quads.insert q) quads.vacantKey = some x := by
    simp [Shape.sval, Slab.get_insert h.wf, a.valued]
  obtain ⟨sidx', e', h1, h2, h3⟩ := h.insert_final quadShape_laws L rep a.inv (fun i p k => Iff.rfl)
    a.mono a.valued hnew (quadIndexCmp_compares _ x _ sidx hsv)
  exact ⟨res', ridx', q, sidx', e, e', h1, h2, h3, a⟩

/-- Releasing the resources of a quad. -/
theorem Inv.releaseQuad_spec (L : ResLaws ops Rep)
    (h : Inv (quadShape R) ops Rep res ridx quads sidx) {k : Nat} {q : Quad Nat} {x : Quad R}
    (hq : quads.get k = some q) (hx : (quadShape R).sval ops res quads k = some x)
    (cs cp co : Slab ρ → Nat → Res Ordering) (cg : Nat → Slab ρ → Nat → Res Ordering)
    (hcs : ∀ res', ops.val res' q.s = some x.s →
      ∀ l, Index.Compares (ops.val res') x.s l (cs res'))
    (hcp : ∀ res', ops.val res' q.p = some x.p →
      ∀ l, Index.Compares (ops.val res') x.p l (cp res'))
    (hco : ∀ res', ops.val res' q.o = some x.o →
      ∀ l, Index.Compares (ops.val res') x.o l (co res'))
    (hcg : ∀ g y, q.g = some g → x.g = some y → ∀ res', ops.val res' g = some y →
      ∀ l, Index.Compares (ops.val res') y l (cg g res')) :
    ∃ r1 i1 b1 r2 i2 b2 r3 i3 b3,
      ops.release res ridx .subj k q.s cs = .ok (r1, i1, b1) ∧
      ops.release r1 i1 .pred k q.p cp = .ok (r2, i2, b2) ∧
      ops.release r2 i2 .obj k q.o co = .ok (r3, i3, b3) ∧
      (q.g = none → Releasing ops Rep res ridx r3 i3
        (fun i p n => (quadShape R).uses quads i p n ∧ n ≠ k)) ∧
      (∀ g, q.g = some g → ∃ r4 i4 b4,
        ops.release r3 i3 .graph k g (cg g) = .ok (r4, i4, b4) ∧
        (b4 = true ↔ ops.val r4 g = none) ∧
        Releasing ops Rep res ridx r4 i4
          (fun i p n => (quadShape R).uses quads i p n ∧ n ≠ k)) := by
  have hx' := hx
  unfold Shape.sval at hx'
  simp only [hq, Option.bind_some] at hx'
  obtain ⟨⟨s, hs, es⟩, ⟨p, hp, ep⟩, ⟨o, ho, eo⟩, hg⟩ :=
    forall_pos.1 (quadShape_laws.valued_iff.1 hx')
  simp only [quadShape, Option.some.injEq] at es ep eo hg
  subst es ep eo
  have us : ∀ i n, (quadShape R).uses quads i .subj n ↔ ∃ q, quads.get n = some q ∧ q.s = i := by
    intro i n; simp [Shape.uses, quadShape]
  have up : ∀ i n, (quadShape R).uses quads i .pred n ↔ ∃ q, quads.get n = some q ∧ q.p = i := by
    intro i n; simp [Shape.uses, quadShape]
  have uo : ∀ i n, (quadShape R).uses quads i .obj n ↔ ∃ q, quads.get n = some q ∧ q.o = i := by
    intro i n; simp [Shape.uses, quadShape]
  have ug : ∀ i n, (quadShape R).uses quads i .graph n ↔
      ∃ q, quads.get n = some q ∧ q.g = some i := by
    intro i n; simp [Shape.uses, quadShape]
  obtain ⟨r1, i1, b1, e1, s1, -⟩ := (Releasing.start h.table).step L .subj k q.s x.s cs hcs hs
    ((us _ _).2 ⟨q, hq, rfl⟩)
  obtain ⟨r2, i2, b2, e2, s2, -⟩ := s1.step L .pred k q.p x.p cp hcp hp
    ⟨(up _ _).2 ⟨q, hq, rfl⟩, by simp⟩
  obtain ⟨r3, i3, b3, e3, s3, -⟩ := s2.step L .obj k q.o x.o co hco ho
    ⟨⟨(uo _ _).2 ⟨q, hq, rfl⟩, by simp⟩, by simp⟩
  refine ⟨r1, i1, b1, r2, i2, b2, r3, i3, b3, e1, e2, e3, ?_, ?_⟩
  · intro hgn
    refine ⟨s3.inv.congr L ?_, s3.val, s3.clean, s3.index⟩
    intro i p n
    by_cases hn : n = k
    · subst hn
      cases p
      · simp only [us]; grind
      · simp only [up]; grind
      · simp only [uo]; grind
      · simp only [ug]; grind
    · simp [hn]
  · intro g hgs
    simp only [hgs] at hg
    obtain ⟨y, hy, ey⟩ := hg
    obtain ⟨r4, i4, b4, e4, s4, rel⟩ := s3.step L .graph k g y (cg g) (hcg g y hgs ey) hy
      ⟨⟨⟨(ug _ _).2 ⟨q, hq, hgs⟩, by simp⟩, by simp⟩, by simp⟩
    refine ⟨r4, i4, b4, e4, ?_, s4.inv.congr L ?_, s4.val, s4.clean, s4.index⟩
    · rw [rel.val]
      have hyv : ops.val r3 g = some y := by
        obtain ⟨z, hz⟩ := s3.inv.val_isSome_of_used (i := g) (p := .graph) (k := k)
          ⟨⟨⟨(ug _ _).2 ⟨q, hq, hgs⟩, by simp⟩, by simp⟩, by simp⟩
        rcases s3.val g with e | e
        · rw [e] at hz; cases hz
        · rw [e]; exact hy
      cases b4 <;> simp [hyv]
    · intro i p n
      by_cases hn : n = k
      · subst hn
        cases p
        · simp only [us]; grind
        · simp only [up]; grind
        · simp only [uo]; grind
        · simp only [ug]; grind
      · simp [hn]

/-- Draining the slab along the index reads the same quads as iterating. -/
theorem drainQuads_eq {l : Index} (hn : l.Nodup)
    (hd : ∀ i ∈ l, ∃ x, (quadShape R).sval ops res quads i = some x) :
    ops.drainQuads res quads l = l.mapM (ops.readQuad res quads) := by
  induction l generalizing quads with
  | nil => rfl
  | cons i l ih =>
    obtain ⟨hi, hn'⟩ := List.nodup_cons.1 hn
    obtain ⟨x, hx⟩ := hd i (by simp)
    have hr := readQuad_eq hx
    obtain ⟨q, hq⟩ : ∃ q, quads.get i = some q := by
      unfold Shape.sval at hx
      cases hq : quads.get i with
      | none => simp [hq] at hx
      | some q => exact ⟨q, rfl⟩
    have hw : ops.quadWithResources res q = .ok x := by
      simpa [ResOps.readQuad, Slab.index, hq, bind, Except.bind] using hr
    have hsame : ∀ j ∈ l, ops.readQuad res (quads.erase i) j = ops.readQuad res quads j := by
      intro j hj
      have : j ≠ i := fun e => hi (e ▸ hj)
      simp [ResOps.readQuad, Slab.index, Slab.get_erase, this]
    have hrec := ih (quads := quads.erase i) hn' (by
      intro j hj
      obtain ⟨y, hy⟩ := hd j (by simp [hj])
      refine ⟨y, ?_⟩
      have : j ≠ i := fun e => hi (e ▸ hj)
      simpa [Shape.sval, Slab.get_erase, this] using hy)
    simp only [ResOps.drainQuads, Slab.remove_ok hq, hw, List.mapM_cons, hr, hrec, bind,
      Except.bind]
    rw [mapM_congr hsame]

end quads

/-! ## Triples -/

section triples

variable {triples : Slab (Triple Nat)}

/-- Storing a new triple. -/
theorem Inv.insertTriple_spec (L : ResLaws ops Rep) (rep : Bool)
    (h : Inv (tripleShape R) ops Rep res ridx triples sidx) (x : Triple R)
    (hnew : ¬ (tripleShape R).abs ops res triples x) :
    ∃ res' ridx' q sidx',
      ops.acquireTriple rep res ridx triples.vacantKey x = .ok (res', ridx', q) ∧
      Index.insert rep (ops.tripleIndexCmp res' (triples.insert q) triples.vacantKey) triples.vacantKey sidx
        = .ok sidx' ∧
      Inv (tripleShape R) ops Rep res' ridx' (triples.insert q) sidx' ∧
      (∀ k, (tripleShape R).sval ops res' (triples.insert q) k =
        if k = triples.vacantKey then some x else (tripleShape R).sval ops res triples k) ∧
      (∀ y, (tripleShape R).abs ops res' (triples.insert q) y ↔
        (tripleShape R).abs ops res triples y ∨ y = x) ∧
      AcquiredAll rep (tripleShape R) ops Rep res ridx ((tripleShape R).uses triples) triples.vacantKey x
        res' ridx' q := by
  obtain ⟨res', ridx', q, e, a⟩ := acquireTriple_spec L rep h.table triples.vacantKey x
    (fun i p => Shape.not_uses_vacant h.wf i p)
  have hsv : (tripleShape R).sval ops res' (triples.insert q) triples.vacantKey = some x := by
    simp [Shape.sval, Slab.get_insert h.wf, a.valued]
  obtain ⟨sidx', e', h1, h2, h3⟩ := h.insert_final tripleShape_laws L rep a.inv (fun i p k => Iff.rfl)
    a.mono a.valued hnew (tripleIndexCmp_compares _ x _ sidx hsv)
  exact ⟨res', ridx', q, sidx', e, e', h1, h2, h3, a⟩

/-- Releasing the resources of a triple. -/
theorem Inv.releaseTriple_spec (L : ResLaws ops Rep)
    (h : Inv (tripleShape R) ops Rep res ridx triples sidx) {k : Nat} {q : Triple Nat} {x : Triple R}
    (hq : triples.get k = some q) (hx : (tripleShape R).sval ops res triples k = some x)
    (cs cp co : Slab ρ → Nat → Res Ordering)
    (hcs : ∀ res', ops.val res' q.s = some x.s →
      ∀ l, Index.Compares (ops.val res') x.s l (cs res'))
    (hcp : ∀ res', ops.val res' q.p = some x.p →
      ∀ l, Index.Compares (ops.val res') x.p l (cp res'))
    (hco : ∀ res', ops.val res' q.o = some x.o →
      ∀ l, Index.Compares (ops.val res') x.o l (co res')) :
    ∃ r1 i1 b1 r2 i2 b2 r3 i3 b3,
      ops.release res ridx .subj k q.s cs = .ok (r1, i1, b1) ∧
      ops.release r1 i1 .pred k q.p cp = .ok (r2, i2, b2) ∧
      ops.release r2 i2 .obj k q.o co = .ok (r3, i3, b3) ∧
      Releasing ops Rep res ridx r3 i3
        (fun i p n => (tripleShape R).uses triples i p n ∧ n ≠ k) := by
  have hx' := hx
  unfold Shape.sval at hx'
  simp only [hq, Option.bind_some] at hx'
  obtain ⟨⟨s, hs, es⟩, ⟨p, hp, ep⟩, ⟨o, ho, eo⟩, -⟩ :=
    forall_pos.1 (tripleShape_laws.valued_iff.1 hx')
  simp only [tripleShape, Option.some.injEq] at es ep eo
  subst es ep eo
  have us : ∀ i n, (tripleShape R).uses triples i .subj n ↔ ∃ q, triples.get n = some q ∧ q.s = i := by
    intro i n; simp [Shape.uses, tripleShape]
  have up : ∀ i n, (tripleShape R).uses triples i .pred n ↔ ∃ q, triples.get n = some q ∧ q.p = i := by
    intro i n; simp [Shape.uses, tripleShape]
  have uo : ∀ i n, (tripleShape R).uses triples i .obj n ↔ ∃ q, triples.get n = some q ∧ q.o = i := by
    intro i n; simp [Shape.uses, tripleShape]
  have ug : ∀ i n, ¬ (tripleShape R).uses triples i .graph n := by
    intro i n; simp [Shape.uses, tripleShape]
  obtain ⟨r1, i1, b1, e1, s1, -⟩ := (Releasing.start h.table).step L .subj k q.s x.s cs hcs hs
    ((us _ _).2 ⟨q, hq, rfl⟩)
  obtain ⟨r2, i2, b2, e2, s2, -⟩ := s1.step L .pred k q.p x.p cp hcp hp
    ⟨(up _ _).2 ⟨q, hq, rfl⟩, by simp⟩
  obtain ⟨r3, i3, b3, e3, s3, -⟩ := s2.step L .obj k q.o x.o co hco ho
    ⟨⟨(uo _ _).2 ⟨q, hq, rfl⟩, by simp⟩, by simp⟩
  refine ⟨r1, i1, b1, r2, i2, b2, r3, i3, b3, e1, e2, e3, s3.inv.congr L ?_, s3.val, s3.clean, s3.index⟩
  intro i p n
  by_cases hn : n = k
  · subst hn
    cases p
    · simp only [us]; grind
    · simp only [up]; grind
    · simp only [uo]; grind
    · simp [ug]
  · simp [hn]

/-- Draining the slab along the index reads the same triples as iterating. -/
theorem drainTriples_eq {l : Index} (hn : l.Nodup)
    (hd : ∀ i ∈ l, ∃ x, (tripleShape R).sval ops res triples i = some x) :
    ops.drainTriples res triples l = l.mapM (ops.readTriple res triples) := by
  induction l generalizing triples with
  | nil => rfl
  | cons i l ih =>
    obtain ⟨hi, hn'⟩ := List.nodup_cons.1 hn
    obtain ⟨x, hx⟩ := hd i (by simp)
    have hr := readTriple_eq hx
    obtain ⟨q, hq⟩ : ∃ q, triples.get i = some q := by
      unfold Shape.sval at hx
      cases hq : triples.get i with
      | none => simp [hq] at hx
      | some q => exact ⟨q, rfl⟩
    have hw : ops.tripleWithResources res q = .ok x := by
      simpa [ResOps.readTriple, Slab.index, hq, bind, Except.bind] using hr
    have hsame : ∀ j ∈ l, ops.readTriple res (triples.erase i) j = ops.readTriple res triples j := by
      intro j hj
      have : j ≠ i := fun e => hi (e ▸ hj)
      simp [ResOps.readTriple, Slab.index, Slab.get_erase, this]
    have hrec := ih (triples := triples.erase i) hn' (by
      intro j hj
      obtain ⟨y, hy⟩ := hd j (by simp [hj])
      refine ⟨y, ?_⟩
      have : j ≠ i := fun e => hi (e ▸ hj)
      simpa [Shape.sval, Slab.get_erase, this] using hy)
    simp only [ResOps.drainTriples, Slab.remove_ok hq, hw, List.mapM_cons, hr, hrec, bind,
      Except.bind]
    rw [mapM_congr hsame]

end triples

end RdfTypes
