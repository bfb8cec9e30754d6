import Verif.Proof.IndexedBTreeDataset
import Verif.Proof.IndexedBTreeGraph

/-! # `IndexedBTreeDataset::remove_graph` and `from_non_indexed` -/

set_option linter.unusedSectionVars false
set_option linter.unusedSimpArgs false

namespace RdfTypes

variable {R : Type} [Ord R] [Std.TransOrd R] [Std.LawfulEqOrd R]

/-- Components of the value of a statement. -/
theorem Shape.sval_comp {σ S ρ : Type} {sh : Shape σ S R} (H : ShapeLaws sh) {ops : ResOps R ρ}
    {res : Slab ρ} {st : Slab σ} {k : Nat} {x : S} (hx : sh.sval ops res st k = some x) :
    ∃ q, st.get k = some q ∧ ∀ p, match sh.comp q p with
      | none => sh.compV x p = none
      | some i => ∃ r, ops.val res i = some r ∧ sh.compV x p = some r := by
  unfold Shape.sval at hx
  cases hq : st.get k with
  | none => simp [hq] at hx
  | some q =>
    simp only [hq, Option.bind_some] at hx
    exact ⟨q, rfl, H.valued_iff.1 hx⟩

namespace IndexedBTreeDataset

/-- What `remove_graph` does to a well-formed dataset. -/
structure GraphRemoved (d : IndexedBTreeDataset R) (graph : Option R) (d' : IndexedBTreeDataset R)
    (out : Option (BTreeGraph R)) : Prop where
  wf : d'.WF
  unchanged : out = none → d' = d
  outWF : ∀ g, out = some g → g.WF
  sound : ∀ g t, out = some g → g.abs t → d.abs (t.intoQuad graph)
  removed : ∀ y, d'.abs y ↔
    d.abs y ∧ ¬ (y.g = graph ∧ ∃ g, out = some g ∧ g.abs y.intoTriple.1)
  complete : graph = none ∨ d.Clean → ∀ y, d.abs y → y.g = graph →
    ∃ g, out = some g ∧ g.abs y.intoTriple.1
  chain : ∃ xs, Removed d xs d' ∧ ∃ l : NatSet, l.Asc ∧ xs.map some = l.map d.sval
  some_default : graph = none → out ≠ none
  some_named : PosSet (quadShape R) d.quads .graph d.namedGraphs → out ≠ none → graph ≠ none → ∃ y, d.abs y ∧ y.g = graph

theorem removeGraph_spec (rep : Bool) {d : IndexedBTreeDataset R} (h : d.WF) (graph : Option R) :
    ∃ d' out, d.removeGraph rep graph = .ok (d', out) ∧ GraphRemoved d graph d' out := by
  have hgw : (BTreeGraph.new : BTreeGraph R).WF := Inv.empty
  have hge : ∀ t, ¬ (BTreeGraph.new : BTreeGraph R).abs t := by
    rintro t ⟨k, hk⟩
    simp [Shape.sval, BTreeGraph.new] at hk
  -- common part: the loop over a list of keys of quads of the graph
  have common : ∀ l : NatSet, l.Asc →
      (∀ k ∈ l, ∃ x, d.sval k = some x ∧ x.g = graph) →
      (graph = none ∨ d.Clean → ∀ k x, d.sval k = some x → x.g = graph → k ∈ l) →
      (PosSet (quadShape R) d.quads .graph d.namedGraphs → graph ≠ none → ∃ y, d.abs y ∧ y.g = graph) →
      ∃ d' g, removeGraphLoop rep d BTreeGraph.new l = .ok (d', g) ∧
        GraphRemoved d graph d' (some g) := by
    intro l hn hl hcomp hsome
    obtain ⟨d', g', e, w1, w2, a1, a2, xs, c, oc⟩ := removeGraphLoop_spec rep h hgw hn.nodup
      (fun k hk => by obtain ⟨x, hx, -⟩ := hl k hk; exact ⟨x, hx⟩)
    have hmem : ∀ t, g'.abs t ↔ ∃ k, k ∈ l ∧ d.sval k = some (t.intoQuad graph) := by
      intro t
      rw [a2]
      constructor
      · rintro (ht | ⟨k, x, hk, hx, rfl⟩)
        · exact absurd ht (hge t)
        · obtain ⟨x', hx', hg⟩ := hl k hk
          rw [hx] at hx'
          cases hx'
          refine ⟨k, hk, ?_⟩
          rw [hx]
          cases x
          simp only [Quad.intoTriple, Triple.intoQuad] at hg ⊢
          rw [hg]
      · rintro ⟨k, hk, hx⟩
        exact Or.inr ⟨k, _, hk, hx, by cases t; rfl⟩
    have hback : ∀ y : Quad R, y.g = graph → y.intoTriple.1.intoQuad graph = y := by
      rintro ⟨s, p, o, g⟩ hg
      simp only at hg
      subst hg
      rfl
    refine ⟨d', g', e, w1, by simp, ?_, ?_, ?_, ?_, ⟨xs, c, l, hn, oc⟩, by simp, fun hf _ => hsome hf⟩
    · intro g hg
      cases hg
      exact w2
    · intro g t hg ht
      cases hg
      obtain ⟨k, -, hx⟩ := (hmem t).1 ht
      exact ⟨k, hx⟩
    · intro y
      rw [a1]
      constructor
      · rintro ⟨hy, hno⟩
        refine ⟨hy, ?_⟩
        rintro ⟨hg, g, hg', ht⟩
        cases hg'
        obtain ⟨k, hk, hx⟩ := (hmem _).1 ht
        rw [hback y hg] at hx
        exact hno ⟨k, hk, hx⟩
      · rintro ⟨hy, hno⟩
        refine ⟨hy, ?_⟩
        rintro ⟨k, hk, hx⟩
        obtain ⟨x, hx', hg⟩ := hl k hk
        rw [hx] at hx'
        cases hx'
        refine hno ⟨hg, g', rfl, (hmem _).2 ⟨k, hk, ?_⟩⟩
        rw [hback y hg, hx]
    · rintro hc y ⟨k, hk⟩ hg
      refine ⟨g', rfl, (hmem _).2 ⟨k, hcomp hc k y hk hg, ?_⟩⟩
      rw [hback y hg]
      exact hk
  cases graph with
  | none =>
    obtain ⟨d', g, e, hr⟩ := common d.defaultGraph h.dfltAsc (by
        intro k hk
        obtain ⟨q, hq, hg⟩ := (h.dflt k).1 hk
        obtain ⟨x, hx⟩ := h.inv.sval_exists quadShape_laws hq
        refine ⟨x, hx, ?_⟩
        obtain ⟨q', hq', hc⟩ := Shape.sval_comp quadShape_laws hx
        rw [hq] at hq'
        cases hq'
        have := hc .graph
        simpa [quadShape, hg] using this)
      (by
        intro _ k x hx hg
        obtain ⟨q, hq, hc⟩ := Shape.sval_comp quadShape_laws hx
        refine (h.dflt k).2 ⟨q, hq, ?_⟩
        have := hc .graph
        cases hqg : q.g with
        | none => rfl
        | some i =>
          simp only [quadShape, hqg, hg] at this
          obtain ⟨r, -, hr⟩ := this
          cases hr)
      (by simp)
    exact ⟨d', some g, by simp [removeGraph, e, bind, Except.bind, pure, Except.pure], hr⟩
  | some g =>
    obtain ⟨o, eo, ho⟩ := h.inv.table.indexOf_spec g
    have eo' : d.indexOfResource g = .ok o := eo
    -- slots of the graph name
    have key : d.Clean → ∀ i, (indexOps R).val d.resources i = some g → o = some i :=
      fun hc i hi => (ho i).2 ⟨hc i g hi, hi⟩
    have none_case : (∀ i, o = some i → i ∉ d.namedGraphs) →
        GraphRemoved d (some g) d none := by
      intro hno
      refine ⟨h, fun _ => rfl, by simp, by simp, by simp, ?_, ⟨[], .nil d, [], NatSet.asc_nil, rfl⟩, by simp, by simp⟩
      rintro (hc | hc) y ⟨k, hk⟩ hg
      · cases hc
      · exfalso
        obtain ⟨q, hq, hqc⟩ := Shape.sval_comp quadShape_laws hk
        have := hqc .graph
        cases hqg : q.g with
        | none => simp [quadShape, hqg, hg] at this
        | some i =>
          simp only [quadShape, hqg, hg] at this
          obtain ⟨r, hv, hr⟩ := this
          cases hr
          exact hno i (key hc i hv) (h.named i k ⟨q, hq, hqg⟩)
    cases o with
    | none =>
      exact ⟨d, none, by simp [removeGraph, eo', bind, Except.bind, pure, Except.pure],
        none_case (by simp)⟩
    | some gi =>
      obtain ⟨hgi, hgv⟩ := (ho gi).1 rfl
      by_cases hm : gi ∈ d.namedGraphs
      · have hgv' := hgv
        unfold ResOps.val at hgv'
        rw [Option.map_eq_some_iff] at hgv'
        obtain ⟨x, hx, hxv⟩ := hgv'
        have hrep := h.inv.table.rep gi x hx .graph
        obtain ⟨d', g', e, hr⟩ := common x.asGraph hrep.1 (by
            intro k hk
            obtain ⟨q, hq, hqg⟩ := (hrep.2 k).1 hk
            obtain ⟨y, hy⟩ := h.inv.sval_exists quadShape_laws hq
            refine ⟨y, hy, ?_⟩
            obtain ⟨q', hq', hc⟩ := Shape.sval_comp quadShape_laws hy
            rw [hq] at hq'
            cases hq'
            have := hc .graph
            simp only [hqg] at this
            obtain ⟨r, hv, hr⟩ := this
            rw [hgv] at hv
            cases hv
            exact hr)
          (by
            rintro (hc | hc) k y hy hg
            · cases hc
            · obtain ⟨q, hq, hqc⟩ := Shape.sval_comp quadShape_laws hy
              refine (hrep.2 k).2 ⟨q, hq, ?_⟩
              have := hqc .graph
              cases hqg : q.g with
              | none => simp [quadShape, hqg, hg] at this
              | some i =>
                simp only [quadShape, hqg, hg] at this
                obtain ⟨r, hv, hr⟩ := this
                cases hr
                have := key hc i hv
                cases this
                exact hqg)
          (by
            intro hf _
            obtain ⟨k, hk⟩ := hf.sound gi hm
            obtain ⟨q, hq, hqg⟩ := hk
            obtain ⟨y, hy⟩ := h.inv.sval_exists quadShape_laws hq
            refine ⟨y, ⟨k, hy⟩, ?_⟩
            obtain ⟨q', hq', hc⟩ := Shape.sval_comp quadShape_laws hy
            rw [hq] at hq'
            cases hq'
            have := hc .graph
            simp only [hqg] at this
            obtain ⟨r, hv, hr⟩ := this
            rw [hgv] at hv
            cases hv
            exact hr)
        exact ⟨d', some g', by
          simp [removeGraph, eo', hm, Slab.index, hx, e, bind, Except.bind, pure, Except.pure], hr⟩
      · exact ⟨d, none, by simp [removeGraph, eo', hm, bind, Except.bind, pure, Except.pure],
          none_case (by rintro i hi; cases hi; exact hm)⟩

end IndexedBTreeDataset

/-- Table of a converted container. -/
theorem resInv_of_building {res0 : Slab (CountedResource R)} {ridx : Index}
    {E : Nat → Pos → Nat → Prop}
    (h : ResInv (countOps R) CountRep res0 ridx E) {res : Slab (IndexedResource R)}
    (hb : Building (indexOps R) IndexRep ((countOps R).val res0) res E) :
    ResInv (indexOps R) IndexRep res ridx E where
  wf := hb.wf
  sorted := h.sorted.congr (fun i _ => hb.val i)
  rep := hb.rep
  used i x hx := by
    refine h.used_of_val (i := i) (r := x.value) ?_
    rw [← hb.val i]
    simp [ResOps.val, hx, indexOps]
  unused i hi p k hE := by
    obtain ⟨r, hr⟩ := h.val_isSome_of_used hE
    rw [← hb.val i] at hr
    simp [ResOps.val, hi] at hr

theorem building_start (res0 : Slab (CountedResource R)) :
    Building (indexOps R) IndexRep ((countOps R).val res0)
      (res0.mapCollect (fun x => (⟨x.value, [], [], [], []⟩ : IndexedResource R)))
      (fun _ _ _ => False) where
  wf := Slab.wf_mapCollect _ _
  val i := by
    simp [ResOps.val, Slab.get_mapCollect, indexOps, countOps, Function.comp_def]
  rep i x hx := by
    rw [Slab.get_mapCollect, Option.map_eq_some_iff] at hx
    obtain ⟨y, -, rfl⟩ := hx
    intro p
    cases p <;> exact ⟨NatSet.asc_nil, by simp [IndexedResource.at_]⟩

/-- A set of slots under construction: the slots used at position `p` by the
statements of keys satisfying `K`. -/
def SlotsOf {σ S : Type} (sh : Shape σ S R) (st : Slab σ) (K : Nat → Prop) (p : Pos)
    (l : NatSet) : Prop :=
  l.Asc ∧ ∀ i, i ∈ l ↔ ∃ k, K k ∧ sh.uses st i p k

theorem SlotsOf.start {σ S : Type} (sh : Shape σ S R) (st : Slab σ) (p : Pos) :
    SlotsOf sh st (fun _ => False) p [] :=
  ⟨NatSet.asc_nil, by simp⟩

theorem SlotsOf.congr {σ S : Type} {sh : Shape σ S R} {st : Slab σ} {K K' : Nat → Prop} {p : Pos}
    {l : NatSet} (h : SlotsOf sh st K p l) (hk : ∀ k, K k ↔ K' k) : SlotsOf sh st K' p l :=
  ⟨h.1, fun i => by simp [h.2, hk]⟩

theorem SlotsOf.step {σ S : Type} {sh : Shape σ S R} {st : Slab σ} {K : Nat → Prop} {p : Pos}
    {l : NatSet} (h : SlotsOf sh st K p l) {k i : Nat} {q : σ} (hq : st.get k = some q)
    (hi : sh.comp q p = some i) : SlotsOf sh st (fun n => K n ∨ n = k) p (NatSet.insert i l) := by
  refine ⟨NatSet.asc_insert h.1, fun j => ?_⟩
  rw [NatSet.mem_insert, h.2]
  constructor
  · rintro (rfl | ⟨n, hn, hu⟩)
    · exact ⟨k, Or.inr rfl, q, hq, hi⟩
    · exact ⟨n, Or.inl hn, hu⟩
  · rintro ⟨n, hn | rfl, hu⟩
    · exact Or.inr ⟨n, hn, hu⟩
    · obtain ⟨q', hq', hc⟩ := hu
      rw [hq] at hq'
      cases hq'
      rw [hi] at hc
      cases hc
      exact Or.inl rfl

theorem SlotsOf.step_none {σ S : Type} {sh : Shape σ S R} {st : Slab σ} {K : Nat → Prop} {p : Pos}
    {l : NatSet} (h : SlotsOf sh st K p l) {k : Nat} {q : σ} (hq : st.get k = some q)
    (hi : sh.comp q p = none) : SlotsOf sh st (fun n => K n ∨ n = k) p l := by
  refine ⟨h.1, fun j => ?_⟩
  rw [h.2]
  constructor
  · rintro ⟨n, hn, hu⟩
    exact ⟨n, Or.inl hn, hu⟩
  · rintro ⟨n, hn | rfl, hu⟩
    · exact ⟨n, hn, hu⟩
    · obtain ⟨q', hq', hc⟩ := hu
      rw [hq] at hq'
      cases hq'
      rw [hi] at hc
      cases hc

theorem SlotsOf.posSet {σ S : Type} {sh : Shape σ S R} {st : Slab σ} {K : Nat → Prop} {p : Pos}
    {l : NatSet} (h : SlotsOf sh st K p l) : PosSet sh st p l :=
  ⟨h.1, fun i hi => by obtain ⟨k, -, hk⟩ := (h.2 i).1 hi; exact ⟨k, hk⟩⟩

theorem SlotsOf.posFull {σ S : Type} {sh : Shape σ S R} {st : Slab σ} {K : Nat → Prop} {p : Pos}
    {l : NatSet} (h : SlotsOf sh st K p l) (hK : ∀ k q, st.get k = some q → K k) :
    PosFull sh st p l :=
  fun i k hk => (h.2 i).2 ⟨k, hK k _ hk.choose_spec.1, hk⟩

/-- The value of statements only depends on the values of the slots. -/
theorem Shape.sval_congr {σ S ρ ρ' : Type} [Ord S] {sh : Shape σ S R} (H : ShapeLaws sh)
    {ops : ResOps R ρ} {ops' : ResOps R ρ'} {res : Slab ρ} {res' : Slab ρ'} {st : Slab σ}
    (hv : ∀ i, ops'.val res' i = ops.val res i) (k : Nat) :
    sh.sval ops' res' st k = sh.sval ops res st k := by
  unfold Shape.sval
  cases st.get k with
  | none => rfl
  | some q => exact H.congr (fun _ i _ => hv i)

namespace IndexedBTreeDataset

/-- Loop invariant of `from_non_indexed`, where `K` is the set of keys done. -/
structure Converting (d : BTreeDataset R) (K : Nat → Prop) (c : Conversion R) : Prop where
  table : Building (indexOps R) IndexRep ((countOps R).val d.resources) c.resources
    (fun i p k => K k ∧ (quadShape R).uses d.quads i p k)
  subj : SlotsOf (quadShape R) d.quads K .subj c.subjects
  pred : SlotsOf (quadShape R) d.quads K .pred c.predicates
  obj : SlotsOf (quadShape R) d.quads K .obj c.objects
  named : SlotsOf (quadShape R) d.quads K .graph c.namedGraphs
  dfltAsc : c.defaultGraph.Asc
  dflt : ∀ k, k ∈ c.defaultGraph ↔ K k ∧ ∃ q, d.quads.get k = some q ∧ q.g = none

theorem Converting.step {d : BTreeDataset R} (hd : d.WF) {K : Nat → Prop} {c : Conversion R}
    (h : Converting d K c) {k : Nat} {q : Quad Nat} (hq : d.quads.get k = some q) (hk : ¬ K k) :
    ∃ c', convertStep d.quads c k = .ok c' ∧ Converting d (fun n => K n ∨ n = k) c' := by
  have L := indexOps_laws R
  have hval : ∀ p i, (quadShape R).comp q p = some i →
      ∃ r, (countOps R).val d.resources i = some r :=
    fun p i hp => hd.table.val_isSome_of_used ⟨q, hq, hp⟩
  obtain ⟨s, hs⟩ := hval .subj q.s rfl
  obtain ⟨p, hp⟩ := hval .pred q.p rfl
  obtain ⟨o, ho⟩ := hval .obj q.o rfl
  obtain ⟨r1, e1, b1⟩ := h.table.step L (p := .subj) (k := k) hs (by simp [hk])
  obtain ⟨r2, e2, b2⟩ := b1.step L (p := .pred) (k := k) hp (by simp [hk])
  obtain ⟨r3, e3, b3⟩ := b2.step L (p := .obj) (k := k) ho (by simp [hk])
  have hsj := h.subj.step hq (p := .subj) rfl
  have hpr := h.pred.step hq (p := .pred) rfl
  have hob := h.obj.step hq (p := .obj) rfl
  have uses_k : ∀ i p, (quadShape R).uses d.quads i p k ↔ (quadShape R).comp q p = some i := by
    intro i p
    simp [Shape.uses, hq]
  cases hg : q.g with
  | none =>
    refine ⟨⟨r3, NatSet.insert q.s c.subjects, NatSet.insert q.p c.predicates,
      NatSet.insert q.o c.objects, NatSet.insert k c.defaultGraph, c.namedGraphs⟩, ?_, ?_, hsj, hpr,
      hob, h.named.step_none hq hg, NatSet.asc_insert h.dfltAsc, ?_⟩
    · simp [convertStep, Slab.index, hq, e1, e2, e3, hg, bind, Except.bind, pure, Except.pure]
    · refine b3.congr L ?_
      intro i p n
      by_cases hn : n = k
      · subst hn
        simp only [uses_k, hk, false_and, false_or, and_true, or_true, true_and]
        cases p <;> simp [quadShape, hg, eq_comm]
      · simp [hn]
    · intro n
      rw [NatSet.mem_insert, h.dflt]
      by_cases hn : n = k
      · subst hn
        simp [hq, hg]
      · simp [hn]
  | some g =>
    obtain ⟨gr, hgr⟩ := hval .graph g hg
    obtain ⟨r4, e4, b4⟩ := b3.step L (p := .graph) (k := k) hgr (by simp [hk])
    refine ⟨⟨r4, NatSet.insert q.s c.subjects, NatSet.insert q.p c.predicates,
      NatSet.insert q.o c.objects, c.defaultGraph, NatSet.insert g c.namedGraphs⟩, ?_, ?_, hsj, hpr,
      hob, h.named.step hq hg, h.dfltAsc, ?_⟩
    · simp [convertStep, Slab.index, hq, e1, e2, e3, e4, hg, bind, Except.bind, pure, Except.pure]
    · refine b4.congr L ?_
      intro i p n
      by_cases hn : n = k
      · subst hn
        simp only [uses_k, hk, false_and, false_or, and_true, or_true, true_and]
        cases p <;> simp [quadShape, hg, eq_comm]
      · simp [hn]
    · intro n
      rw [h.dflt]
      by_cases hn : n = k
      · subst hn
        simp [hk, hq, hg]
      · simp [hn]

theorem Converting.loop {d : BTreeDataset R} (hd : d.WF) {l : List Nat} :
    ∀ {K : Nat → Prop} {c : Conversion R}, Converting d K c → l.Nodup →
    (∀ k ∈ l, ¬ K k ∧ ∃ q, d.quads.get k = some q) →
    ∃ c', l.foldlM (convertStep d.quads) c = .ok c' ∧ Converting d (fun n => K n ∨ n ∈ l) c' := by
  induction l with
  | nil =>
    intro K c h _ _
    refine ⟨c, rfl, ?_⟩
    simpa using h
  | cons k l ih =>
    intro K c h hn hl
    obtain ⟨hkl, hn'⟩ := List.nodup_cons.1 hn
    obtain ⟨hk, q, hq⟩ := hl k (by simp)
    obtain ⟨c1, e1, h1⟩ := h.step hd hq hk
    obtain ⟨c2, e2, h2⟩ := ih h1 hn' (by
      intro n hnl
      obtain ⟨h3, h4⟩ := hl n (by simp [hnl])
      refine ⟨?_, h4⟩
      rintro (h5 | rfl)
      · exact h3 h5
      · exact hkl hnl)
    refine ⟨c2, ?_, ?_⟩
    · rw [List.foldlM_cons, e1]
      exact e2
    · have : (fun n => (K n ∨ n = k) ∨ n ∈ l) = (fun n => K n ∨ n ∈ k :: l) := by
        funext n
        simp [or_assoc]
      rw [← this]
      exact h2

theorem fromNonIndexed_spec {d : BTreeDataset R} (hd : d.WF) :
    ∃ d', fromNonIndexed d = .ok d' ∧ d'.WF ∧ d'.Full ∧ (∀ y, d'.abs y ↔ d.abs y) ∧
      (d.Clean → d'.Clean) ∧ (d.Covers → d'.Covers) ∧ d'.resourceList = d.resourceList ∧
      d'.resourceCount = d.resources.len ∧ (∀ k, d'.sval k = d.sval k) ∧
      d'.quads = d.quads ∧ d'.resourcesIndexes = d.resourcesIndexes ∧
      ∀ i, (indexOps R).val d'.resources i = (countOps R).val d.resources i := by
  have h0 : Converting d (fun _ => False)
      ⟨d.resources.mapCollect (fun x => (⟨x.value, [], [], [], []⟩ : IndexedResource R)),
        [], [], [], [], []⟩ := by
    refine ⟨?_, .start _ _ _, .start _ _ _, .start _ _ _, .start _ _ _, NatSet.asc_nil, by simp⟩
    exact (building_start d.resources).congr (indexOps_laws R) (by simp)
  obtain ⟨c, e, h⟩ := Converting.loop hd h0 hd.sorted.nodup
    (fun k hk => ⟨id, (hd.mem k).1 hk⟩)
  have hK : ∀ k q, d.quads.get k = some q → (fun n => False ∨ n ∈ d.quadsIndexes) k :=
    fun k q hq => Or.inr ((hd.mem k).2 ⟨q, hq⟩)
  have hb : Building (indexOps R) IndexRep ((countOps R).val d.resources) c.resources
      ((quadShape R).uses d.quads) := by
    refine h.table.congr (indexOps_laws R) ?_
    intro i p k
    constructor
    · exact And.right
    · rintro ⟨q, hq, hc⟩
      exact ⟨hK k q hq, q, hq, hc⟩
  have hsv : ∀ k, (quadShape R).sval (indexOps R) c.resources d.quads k =
      (quadShape R).sval (countOps R) d.resources d.quads k :=
    Shape.sval_congr quadShape_laws hb.val
  refine ⟨⟨c.resources, d.quads, d.resourcesIndexes, d.quadsIndexes, c.subjects, c.predicates,
    c.objects, c.defaultGraph, c.namedGraphs⟩, ?_, ?_, ?_, ?_, ?_, ?_, ?_, ?_, hsv,
    rfl, rfl, hb.val⟩
  · simp [fromNonIndexed, e, bind, Except.bind, pure, Except.pure]
  · refine ⟨⟨resInv_of_building hd.table hb, hd.wf, hd.sorted.congr (fun i _ => hsv i), hd.mem⟩,
      h.subj.posSet, h.pred.posSet, h.obj.posSet, h.dfltAsc, ?_, h.named.1, h.named.posFull hK⟩
    intro k
    rw [h.dflt]
    constructor
    · exact And.right
    · rintro ⟨q, hq, hg⟩
      exact ⟨hK k q hq, q, hq, hg⟩
  · exact ⟨h.subj.posFull hK, h.pred.posFull hK, h.obj.posFull hK, h.named.posSet⟩
  · intro y
    simp only [abs, BTreeDataset.abs, Shape.abs, hsv]
  · intro hc i r hi
    simp only [hb.val] at hi
    exact hc i r hi
  · intro hc i r hi
    simp only [hb.val] at hi ⊢
    exact hc i r hi
  · unfold resourceList BTreeDataset.resourceList ResOps.readResources
    refine mapM_congr ?_
    intro i hi
    obtain ⟨r, hr⟩ := hd.table.sorted.defined i hi
    have hr' := (hb.val i).trans hr
    unfold ResOps.val at hr hr'
    rw [Option.map_eq_some_iff] at hr hr'
    obtain ⟨x, hx, hxr⟩ := hr
    obtain ⟨y, hy, hyr⟩ := hr'
    simp [Slab.index, hx, hy, hxr, hyr, bind, Except.bind, pure, Except.pure]
  · unfold resourceCount
    rw [Slab.len_eq_length (Slab.keys_nodup d.resources), Slab.len_eq_keys_length]
    intro i
    rw [Slab.mem_keys]
    have := hb.val i
    unfold ResOps.val at this
    constructor
    · rintro ⟨x, hx⟩
      rw [hx] at this
      simp only [Option.map_some, Option.map_eq_some_iff] at this
      obtain ⟨y, hy, -⟩ := this
      exact ⟨y, hy⟩
    · rintro ⟨y, hy⟩
      rw [hy] at this
      cases hx : d.resources.get i with
      | none => simp [hx] at this
      | some x => exact ⟨x, rfl⟩

end IndexedBTreeDataset

namespace IndexedBTreeGraph

/-- Loop invariant of `from_non_indexed`, where `K` is the set of keys done. -/
structure Converting (d : BTreeGraph R) (K : Nat → Prop) (c : Conversion R) : Prop where
  table : Building (indexOps R) IndexRep ((countOps R).val d.resources) c.resources
    (fun i p k => K k ∧ (tripleShape R).uses d.triples i p k)
  subj : SlotsOf (tripleShape R) d.triples K .subj c.subjects
  pred : SlotsOf (tripleShape R) d.triples K .pred c.predicates
  obj : SlotsOf (tripleShape R) d.triples K .obj c.objects

theorem Converting.step {d : BTreeGraph R} (hd : d.WF) {K : Nat → Prop} {c : Conversion R}
    (h : Converting d K c) {k : Nat} {q : Triple Nat} (hq : d.triples.get k = some q)
    (hk : ¬ K k) :
    ∃ c', convertStep d.triples c k = .ok c' ∧ Converting d (fun n => K n ∨ n = k) c' := by
  have L := indexOps_laws R
  have hval : ∀ p i, (tripleShape R).comp q p = some i →
      ∃ r, (countOps R).val d.resources i = some r :=
    fun p i hp => hd.table.val_isSome_of_used ⟨q, hq, hp⟩
  obtain ⟨s, hs⟩ := hval .subj q.s rfl
  obtain ⟨p, hp⟩ := hval .pred q.p rfl
  obtain ⟨o, ho⟩ := hval .obj q.o rfl
  obtain ⟨r1, e1, b1⟩ := h.table.step L (p := .subj) (k := k) hs (by simp [hk])
  obtain ⟨r2, e2, b2⟩ := b1.step L (p := .pred) (k := k) hp (by simp [hk])
  obtain ⟨r3, e3, b3⟩ := b2.step L (p := .obj) (k := k) ho (by simp [hk])
  have uses_k : ∀ i p, (tripleShape R).uses d.triples i p k ↔
      (tripleShape R).comp q p = some i := by
    intro i p
    simp [Shape.uses, hq]
  refine ⟨⟨r3, NatSet.insert q.s c.subjects, NatSet.insert q.p c.predicates,
    NatSet.insert q.o c.objects⟩, ?_, ?_, h.subj.step hq (p := .subj) rfl,
    h.pred.step hq (p := .pred) rfl, h.obj.step hq (p := .obj) rfl⟩
  · simp [convertStep, Slab.index, hq, e1, e2, e3, bind, Except.bind, pure, Except.pure]
  · refine b3.congr L ?_
    intro i p n
    by_cases hn : n = k
    · subst hn
      simp only [uses_k, hk, false_and, false_or, and_true, or_true, true_and]
      cases p <;> simp [tripleShape, eq_comm]
    · simp [hn]

theorem Converting.loop {d : BTreeGraph R} (hd : d.WF) {l : List Nat} :
    ∀ {K : Nat → Prop} {c : Conversion R}, Converting d K c → l.Nodup →
    (∀ k ∈ l, ¬ K k ∧ ∃ q, d.triples.get k = some q) →
    ∃ c', l.foldlM (convertStep d.triples) c = .ok c' ∧
      Converting d (fun n => K n ∨ n ∈ l) c' := by
  induction l with
  | nil =>
    intro K c h _ _
    refine ⟨c, rfl, ?_⟩
    simpa using h
  | cons k l ih =>
    intro K c h hn hl
    obtain ⟨hkl, hn'⟩ := List.nodup_cons.1 hn
    obtain ⟨hk, q, hq⟩ := hl k (by simp)
    obtain ⟨c1, e1, h1⟩ := h.step hd hq hk
    obtain ⟨c2, e2, h2⟩ := ih h1 hn' (by
      intro n hnl
      obtain ⟨h3, h4⟩ := hl n (by simp [hnl])
      refine ⟨?_, h4⟩
      rintro (h5 | rfl)
      · exact h3 h5
      · exact hkl hnl)
    refine ⟨c2, ?_, ?_⟩
    · rw [List.foldlM_cons, e1]
      exact e2
    · have : (fun n => (K n ∨ n = k) ∨ n ∈ l) = (fun n => K n ∨ n ∈ k :: l) := by
        funext n
        simp [or_assoc]
      rw [← this]
      exact h2

theorem fromNonIndexed_spec {d : BTreeGraph R} (hd : d.WF) :
    ∃ d', fromNonIndexed d = .ok d' ∧ d'.WF ∧ d'.Full ∧ (∀ y, d'.abs y ↔ d.abs y) ∧
      (d.Clean → d'.Clean) ∧ (d.Covers → d'.Covers) ∧ d'.resourceList = d.resourceList ∧
      d'.resourceCount = d.resources.len ∧ (∀ k, d'.sval k = d.sval k) ∧
      d'.triples = d.triples ∧ d'.resourcesIndexes = d.resourcesIndexes ∧
      ∀ i, (indexOps R).val d'.resources i = (countOps R).val d.resources i := by
  have h0 : Converting d (fun _ => False)
      ⟨d.resources.mapCollect (fun x => (⟨x.value, [], [], [], []⟩ : IndexedResource R)),
        [], [], []⟩ := by
    refine ⟨?_, .start _ _ _, .start _ _ _, .start _ _ _⟩
    exact (building_start d.resources).congr (indexOps_laws R) (by simp)
  obtain ⟨c, e, h⟩ := Converting.loop hd h0 hd.sorted.nodup
    (fun k hk => ⟨id, (hd.mem k).1 hk⟩)
  have hK : ∀ k q, d.triples.get k = some q → (fun n => False ∨ n ∈ d.triplesIndexes) k :=
    fun k q hq => Or.inr ((hd.mem k).2 ⟨q, hq⟩)
  have hb : Building (indexOps R) IndexRep ((countOps R).val d.resources) c.resources
      ((tripleShape R).uses d.triples) := by
    refine h.table.congr (indexOps_laws R) ?_
    intro i p k
    constructor
    · exact And.right
    · rintro ⟨q, hq, hc⟩
      exact ⟨hK k q hq, q, hq, hc⟩
  have hsv : ∀ k, (tripleShape R).sval (indexOps R) c.resources d.triples k =
      (tripleShape R).sval (countOps R) d.resources d.triples k :=
    Shape.sval_congr tripleShape_laws hb.val
  refine ⟨⟨c.resources, d.triples, d.resourcesIndexes, d.triplesIndexes, c.subjects, c.predicates,
    c.objects⟩, ?_, ?_, ?_, ?_, ?_, ?_, ?_, ?_, hsv,
    rfl, rfl, hb.val⟩
  · simp [fromNonIndexed, e, bind, Except.bind, pure, Except.pure]
  · exact ⟨⟨resInv_of_building hd.table hb, hd.wf, hd.sorted.congr (fun i _ => hsv i), hd.mem⟩,
      h.subj.posSet, h.pred.posSet, h.obj.posSet⟩
  · exact ⟨h.subj.posFull hK, h.pred.posFull hK, h.obj.posFull hK⟩
  · intro y
    simp only [abs, BTreeGraph.abs, Shape.abs, hsv]
  · intro hc i r hi
    simp only [hb.val] at hi
    exact hc i r hi
  · intro hc i r hi
    simp only [hb.val] at hi ⊢
    exact hc i r hi
  · unfold resourceList BTreeGraph.resourceList ResOps.readResources
    refine mapM_congr ?_
    intro i hi
    obtain ⟨r, hr⟩ := hd.table.sorted.defined i hi
    have hr' := (hb.val i).trans hr
    unfold ResOps.val at hr hr'
    rw [Option.map_eq_some_iff] at hr hr'
    obtain ⟨x, hx, hxr⟩ := hr
    obtain ⟨y, hy, hyr⟩ := hr'
    simp [Slab.index, hx, hy, hxr, hyr, bind, Except.bind, pure, Except.pure]
  · unfold resourceCount
    rw [Slab.len_eq_length (Slab.keys_nodup d.resources), Slab.len_eq_keys_length]
    intro i
    rw [Slab.mem_keys]
    have := hb.val i
    unfold ResOps.val at this
    constructor
    · rintro ⟨x, hx⟩
      rw [hx] at this
      simp only [Option.map_some, Option.map_eq_some_iff] at this
      obtain ⟨y, hy, -⟩ := this
      exact ⟨y, hy⟩
    · rintro ⟨y, hy⟩
      rw [hy] at this
      cases hx : d.resources.get i with
      | none => simp [hx] at this
      | some x => exact ⟨x, rfl⟩

end IndexedBTreeGraph

end RdfTypes
