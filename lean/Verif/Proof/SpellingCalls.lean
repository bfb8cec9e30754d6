import Verif.Proof.Spelling
import Verif.Proof.RemoveGraph

/-! # The spelling of what a container holds: sessions, conversion and the other calls -/

set_option linter.unusedSectionVars false
set_option linter.unusedSimpArgs false

namespace RdfTypes.Proof.Spelling

open RdfTypes.Spec RdfTypes.Proof.Related

section calls

variable {R : Type} [Ord R] [Std.TransOrd R]

/-! ## Conversion -/

/-- `res'` has the same terms as `res`. -/
def SameVal (res res' : Slab (IndexedResource R)) : Prop :=
  ∀ i, (indexOps R).val res' i = (indexOps R).val res i

theorem sameVal_modify {res res' : Slab (IndexedResource R)} {k n : Nat} {p : Pos}
    (h : res.modify k ((indexOps R).add p n) = .ok res') : SameVal res res' := by
  obtain ⟨x, x', hx, hx', rfl⟩ := modify_cases h
  exact fun i => val_put hx (valued_index.add hx') i

theorem sameVal_convertStep {quads : Slab (Quad Nat)} {c c' : IndexedBTreeDataset.Conversion R}
    {i : Nat} (h : IndexedBTreeDataset.convertStep quads c i = .ok c') :
    SameVal c.resources c'.resources := by
  unfold IndexedBTreeDataset.convertStep at h
  obtain ⟨q, -, h⟩ := bind_ok h
  obtain ⟨r₁, h₁, h⟩ := bind_ok h
  obtain ⟨r₂, h₂, h⟩ := bind_ok h
  obtain ⟨r₃, h₃, h⟩ := bind_ok h
  dsimp only at h
  split at h
  · obtain ⟨r₄, h₄, h⟩ := bind_ok h
    cases pure_ok h
    intro i
    exact (sameVal_modify h₄ i).trans ((sameVal_modify h₃ i).trans
      ((sameVal_modify h₂ i).trans (sameVal_modify h₁ i)))
  · cases pure_ok h
    intro i
    exact (sameVal_modify h₃ i).trans ((sameVal_modify h₂ i).trans (sameVal_modify h₁ i))

theorem sameVal_graphConvertStep {triples : Slab (Triple Nat)}
    {c c' : IndexedBTreeGraph.Conversion R} {i : Nat}
    (h : IndexedBTreeGraph.convertStep triples c i = .ok c') :
    SameVal c.resources c'.resources := by
  unfold IndexedBTreeGraph.convertStep at h
  obtain ⟨q, -, h⟩ := bind_ok h
  obtain ⟨r₁, h₁, h⟩ := bind_ok h
  obtain ⟨r₂, h₂, h⟩ := bind_ok h
  obtain ⟨r₃, h₃, h⟩ := bind_ok h
  cases pure_ok h
  intro i
  exact (sameVal_modify h₃ i).trans ((sameVal_modify h₂ i).trans (sameVal_modify h₁ i))

theorem sameVal_foldlM {C : Type} {res : C → Slab (IndexedResource R)} {step : C → Nat → Res C}
    (hs : ∀ c i c', step c i = .ok c' → SameVal (res c) (res c')) {l : List Nat} {c c' : C}
    (h : l.foldlM step c = .ok c') : SameVal (res c) (res c') := by
  induction l generalizing c with
  | nil =>
    cases pure_ok h
    exact fun _ => rfl
  | cons i l ih =>
    rw [List.foldlM_cons] at h
    obtain ⟨c₁, h₁, h⟩ := bind_ok h
    exact fun j => (ih h j).trans (hs _ _ _ h₁ j)

theorem val_mapCollect (res : Slab (CountedResource R)) (i : Nat) :
    (indexOps R).val (res.mapCollect (fun x => (⟨x.value, [], [], [], []⟩ : IndexedResource R))) i =
      (countOps R).val res i := by
  simp [ResOps.val, Slab.get_mapCollect, indexOps, countOps, Function.comp_def]

/-- Reading depends on the terms only. -/
theorem readResources_congr {ρ ρ' : Type} {ops : ResOps R ρ} {ops' : ResOps R ρ'} {res : Slab ρ}
    {res' : Slab ρ'} (h : ∀ i, ops'.val res' i = ops.val res i) (idx : Index) :
    ops'.readResources res' idx = ops.readResources res idx := by
  unfold ResOps.readResources
  congr 1
  funext i
  have := h i
  unfold ResOps.val at this
  unfold Slab.index
  cases h₁ : res.get i <;> cases h₂ : res'.get i <;>
    simp_all [bind, Except.bind, pure, Except.pure]

theorem readQuad_congr {ρ ρ' : Type} {ops : ResOps R ρ} {ops' : ResOps R ρ'} {res : Slab ρ}
    {res' : Slab ρ'} (h : ∀ i, ops'.val res' i = ops.val res i) (quads : Slab (Quad Nat)) :
    ops'.readQuad res' quads = ops.readQuad res quads := by
  funext k
  unfold ResOps.readQuad ResOps.quadWithResources Slab.index
  cases quads.get k with
  | none => rfl
  | some q =>
    obtain ⟨s, p, o, g⟩ := q
    have hs := h s
    have hp := h p
    have ho := h o
    unfold ResOps.val at hs hp ho
    cases s₁ : res.get s <;> cases s₂ : res'.get s <;>
      simp_all [bind, Except.bind, pure, Except.pure]
    cases p₁ : res.get p <;> cases p₂ : res'.get p <;>
      simp_all [bind, Except.bind, pure, Except.pure]
    cases o₁ : res.get o <;> cases o₂ : res'.get o <;>
      simp_all [bind, Except.bind, pure, Except.pure]
    cases g with
    | none => rfl
    | some g =>
      have hg := h g
      unfold ResOps.val at hg
      cases g₁ : res.get g <;> cases g₂ : res'.get g <;>
        simp_all [bind, Except.bind, pure, Except.pure]

theorem readTriple_congr {ρ ρ' : Type} {ops : ResOps R ρ} {ops' : ResOps R ρ'} {res : Slab ρ}
    {res' : Slab ρ'} (h : ∀ i, ops'.val res' i = ops.val res i) (triples : Slab (Triple Nat)) :
    ops'.readTriple res' triples = ops.readTriple res triples := by
  funext k
  unfold ResOps.readTriple ResOps.tripleWithResources Slab.index
  cases triples.get k with
  | none => rfl
  | some q =>
    obtain ⟨s, p, o⟩ := q
    have hs := h s
    have hp := h p
    have ho := h o
    unfold ResOps.val at hs hp ho
    cases s₁ : res.get s <;> cases s₂ : res'.get s <;>
      simp_all [bind, Except.bind, pure, Except.pure]
    cases p₁ : res.get p <;> cases p₂ : res'.get p <;>
      simp_all [bind, Except.bind, pure, Except.pure]
    cases o₁ : res.get o <;> cases o₂ : res'.get o <;>
      simp_all [bind, Except.bind, pure, Except.pure]

theorem convert_good {b : BTreeDataset R} (h : GoodDataset b) :
    ∃ e, IndexedBTreeDataset.fromNonIndexed b = .ok e ∧ GoodIndexed e := by
  obtain ⟨b', hT, hI⟩ := h
  obtain ⟨e', he', hw, -⟩ := IndexedBTreeDataset.fromNonIndexed_spec hI
  obtain ⟨e, he, hT'⟩ := (fromNonIndexed_rel hT).ok_right he'
  exact ⟨e, he, e', hT', hw⟩

theorem graphConvert_good {b : BTreeGraph R} (h : GoodGraph b) :
    ∃ e, IndexedBTreeGraph.fromNonIndexed b = .ok e ∧ GoodIndexedGraph e := by
  obtain ⟨b', hT, hI⟩ := h
  obtain ⟨e', he', hw, -⟩ := IndexedBTreeGraph.fromNonIndexed_spec hI
  obtain ⟨e, he, hT'⟩ := (graphFromNonIndexed_rel hT).ok_right he'
  exact ⟨e, he, e', hT', hw⟩

theorem convert_same {b : BTreeDataset R} {e : IndexedBTreeDataset R}
    (h : IndexedBTreeDataset.fromNonIndexed b = .ok e) :
    e.iter = b.iter ∧ e.resourceList = b.resourceList := by
  unfold IndexedBTreeDataset.fromNonIndexed at h
  obtain ⟨c, hc, h⟩ := bind_ok h
  cases pure_ok h
  have hv : ∀ i, (indexOps R).val c.resources i = (countOps R).val b.resources i := fun i =>
    (sameVal_foldlM (res := fun c => c.resources) (fun _ _ _ => sameVal_convertStep) hc i).trans
      (val_mapCollect _ i)
  unfold IndexedBTreeDataset.iter BTreeDataset.iter IndexedBTreeDataset.resourceList
    BTreeDataset.resourceList
  exact ⟨by rw [readQuad_congr hv], readResources_congr hv _⟩

theorem graphConvert_same {b : BTreeGraph R} {e : IndexedBTreeGraph R}
    (h : IndexedBTreeGraph.fromNonIndexed b = .ok e) :
    e.iter = b.iter ∧ e.resourceList = b.resourceList := by
  unfold IndexedBTreeGraph.fromNonIndexed at h
  obtain ⟨c, hc, h⟩ := bind_ok h
  cases pure_ok h
  have hv : ∀ i, (indexOps R).val c.resources i = (countOps R).val b.resources i := fun i =>
    (sameVal_foldlM (res := fun c => c.resources) (fun _ _ _ => sameVal_graphConvertStep) hc i).trans
      (val_mapCollect _ i)
  unfold IndexedBTreeGraph.iter BTreeGraph.iter IndexedBTreeGraph.resourceList
    BTreeGraph.resourceList
  exact ⟨by rw [readTriple_congr hv], readResources_congr hv _⟩

theorem conversion_keeps (rep : Bool) : ConversionKeepsSpelling (R := R) rep := by
  refine ⟨fun b hb => ?_, fun b hb => ?_⟩
  · obtain ⟨e, he, -⟩ := convert_good (reached_dataset rep b hb)
    exact ⟨e, he, convert_same he⟩
  · obtain ⟨e, he, -⟩ := graphConvert_good (reached_graph rep b hb)
    exact ⟨e, he, graphConvert_same he⟩

/-! ## Removals from an indexed dataset -/

/-- Nothing in `d₁` that is not in `d`, slot by slot. -/
structure Shrinks (d d₁ : IndexedBTreeDataset R) : Prop where
  grows : Grows ((indexOps R).val d₁.resources) ((indexOps R).val d.resources)
  listed : ∀ j ∈ d₁.resourcesIndexes, j ∈ d.resourcesIndexes
  quads : ∀ k q, d₁.quads.get k = some q → d.quads.get k = some q

theorem Shrinks.refl (d : IndexedBTreeDataset R) : Shrinks d d :=
  ⟨.refl _, fun _ h => h, fun _ _ h => h⟩

theorem Shrinks.trans {d d₁ d₂ : IndexedBTreeDataset R} (h : Shrinks d d₁) (h' : Shrinks d₁ d₂) :
    Shrinks d d₂ :=
  ⟨h'.grows.trans h.grows, fun j hj => h.listed j (h'.listed j hj),
    fun k q hq => h.quads k q (h'.quads k q hq)⟩

theorem shrinks_removeByIndex {d d₁ : IndexedBTreeDataset R} {i : Nat} {rem : Bool}
    (h : d.removeByIndex i rem = .ok d₁) : Shrinks d d₁ := by
  obtain ⟨g, m, e, -⟩ := removeByIndex_cases h
  exact ⟨g, m, fun k q hq => get_of_erase (e ▸ hq)⟩

theorem good_lists {d : IndexedBTreeDataset R} {d' : IndexedBTreeDataset (Class R)}
    (hT : IndexedDatasetRel (Named (classOf R)) d d') (hI : d'.WF) :
    ∃ xs rs, d.iter = .ok xs ∧ d.resourceList = .ok rs ∧
      Mirrors IndexedBTreeDataset.abs (fun q => q.map (classOf R)) xs d' := by
  obtain ⟨xs, hx, M⟩ := mirrors (indexed_mirror false) (quad_keeps (classOf_keeps R))
    (IndexedBTreeDataset.laws false) hT hI
  obtain ⟨rs, hrs⟩ := readResources_ok ((indexed_calls false).slots d ⟨d', hT, hI⟩).listed
  exact ⟨xs, rs, hx, hrs, M⟩

theorem shrinks_lists {d d₁ : IndexedBTreeDataset R} (h : Shrinks d d₁) (hd : GoodIndexed d)
    (hd₁ : GoodIndexed d₁) {xs ys : List (Quad R)} (hx : d.iter = .ok xs) (hy : d₁.iter = .ok ys)
    {rs rs' : List R} (hr : d.resourceList = .ok rs) (hr' : d₁.resourceList = .ok rs') :
    (∀ z ∈ ys, z ∈ xs) ∧ ∀ r ∈ rs', r ∈ rs := by
  have Sl := (indexed_calls false).slots d hd
  have Sl' := (indexed_calls false).slots d₁ hd₁
  refine ⟨fun z hz => ?_, fun r hm => ?_⟩
  · obtain ⟨k, hk', hv⟩ := ((indexed_calls false).iter d₁ ys hy z).1 hz
    obtain ⟨q, hq⟩ := (Sl'.mem k).1 hk'
    refine ((indexed_calls false).iter d xs hx z).2 ⟨k, (Sl.mem k).2 ⟨q, h.quads k q hq⟩, ?_⟩
    simp only [Shape.sval, hq, h.quads k q hq, Option.bind_some] at hv ⊢
    exact valued_grows quadShape_laws h.grows hv
  · obtain ⟨i, hi', hv⟩ := (readResources_mem hr' r).1 hm
    exact (readResources_mem hr r).2 ⟨i, h.listed i hi', h.grows i r hv⟩

theorem shrinks_removeGraphLoop (rep : Bool) {l : List Nat} {d d₁ : IndexedBTreeDataset R}
    {g g₁ : BTreeGraph R} (h : d.removeGraphLoop rep g l = .ok (d₁, g₁)) : Shrinks d d₁ := by
  induction l generalizing d g with
  | nil =>
    cases h
    exact .refl _
  | cons i l ih =>
    obtain ⟨q, -, h⟩ := bind_ok h
    obtain ⟨d₂, h₂, h⟩ := bind_ok h
    obtain ⟨⟨g₂, b⟩, -, h⟩ := bind_ok h
    exact (shrinks_removeByIndex h₂).trans (ih h)

theorem shrinks_removeGraph (rep : Bool) {d d₁ : IndexedBTreeDataset R} {g : Option R}
    {out : Option (BTreeGraph R)} (h : d.removeGraph rep g = .ok (d₁, out)) : Shrinks d d₁ := by
  have key : ∀ l : List Nat, (do
      let (d', graph) ← IndexedBTreeDataset.removeGraphLoop rep d BTreeGraph.new l
      pure (d', some graph) : Res (IndexedBTreeDataset R × Option (BTreeGraph R))) = .ok (d₁, out) →
      Shrinks d d₁ := by
    intro l h
    obtain ⟨⟨d₂, g₂⟩, h₂, h⟩ := bind_ok h
    cases pure_ok h
    exact shrinks_removeGraphLoop rep h₂
  unfold IndexedBTreeDataset.removeGraph at h
  cases g with
  | none => exact key _ h
  | some g =>
    obtain ⟨o, -, h⟩ := bind_ok h
    cases o with
    | none =>
      cases pure_ok h
      exact .refl _
    | some i =>
      dsimp only at h
      split at h
      · obtain ⟨x, -, h⟩ := bind_ok h
        exact key _ h
      · cases pure_ok h
        exact .refl _

theorem optRel_map (g : Option R) : OptRel (Named (classOf R)) g (g.map (classOf R)) := by
  cases g
  · trivial
  · rfl

theorem removeGraph_good (rep : Bool) {d d₁ : IndexedBTreeDataset R}
    {d' : IndexedBTreeDataset (Class R)} (hT : IndexedDatasetRel (Named (classOf R)) d d')
    (hI : d'.WF) {g : Option R} {out : Option (BTreeGraph R)}
    (h : d.removeGraph rep g = .ok (d₁, out)) :
    ∃ d₁', IndexedDatasetRel (Named (classOf R)) d₁ d₁' ∧ d₁'.WF ∧
      ∀ y, d'.abs y → ¬ d₁'.abs y → y.g = g.map (classOf R) := by
  obtain ⟨d₁', out', h₁, hr⟩ := IndexedBTreeDataset.removeGraph_spec rep hI (g.map (classOf R))
  obtain ⟨a, ha, hT', -⟩ :=
    (removeGraph_rel (compat_named (classOf_keeps R)) rep hT (optRel_map g)).ok_right h₁
  rw [h] at ha
  cases ha
  refine ⟨d₁', hT', hr.wf, fun y hy hn => ?_⟩
  apply Classical.byContradiction
  intro hg
  exact hn ((hr.removed y).2 ⟨hy, fun e => hg e.1⟩)

/-! ## Extraction and matching -/

theorem loop_get {F σ : Type} {get : Nat → Option σ}
    {filter : Nat → σ → F → F × Except (Option Nat) Unit} {cap fuel : Nat} {m m' : Matcher F}
    {i : Nat} {q : σ} (h : m.loop get filter cap fuel = .ok (some (i, q), m')) :
    get i = some q := by
  induction fuel generalizing m with
  | zero =>
    unfold Matcher.loop at h
    split at h <;> cases h
  | succ n ih =>
    unfold Matcher.loop at h
    split at h
    · split at h
      · cases h
      · split at h
        · cases h
        · rename_i hq
          split at h
          · cases h
            exact hq
          · exact ih h
          · cases h
    · cases h

theorem extractNext_good {cap : Nat} {d d₁ : IndexedBTreeDataset R}
    {d' : IndexedBTreeDataset (Class R)} (hT : IndexedDatasetRel (Named (classOf R)) d d')
    (hI : d'.WF) {m m' : Matcher QuadFilter} {x : Quad R}
    (h : d.extractNext cap m = .ok (some x, m', d₁)) :
    (∃ k q, d.quads.get k = some q ∧ (quadShape R).sval (indexOps R) d.resources d.quads k = some x) ∧
    Shrinks d d₁ ∧
    ∃ d₁', IndexedDatasetRel (Named (classOf R)) d₁ d₁' ∧ d₁'.WF ∧
      ∀ y, d₁'.abs y ↔ d'.abs y ∧ y ≠ x.map (classOf R) := by
  unfold IndexedBTreeDataset.extractNext at h
  obtain ⟨⟨o, m₁⟩, hl, h⟩ := bind_ok h
  cases o with
  | none => cases pure_ok h
  | some iq =>
    obtain ⟨i, q⟩ := iq
    obtain ⟨w, hw, h⟩ := bind_ok h
    obtain ⟨d₂, h₂, h⟩ := bind_ok h
    cases pure_ok h
    have hq := loop_get hl
    have hx : (quadShape R).sval (indexOps R) d.resources d.quads i = some x := by
      rw [← readQuad_iff]
      unfold ResOps.readQuad
      rw [Slab.index_eq_ok.2 hq]
      exact hw
    refine ⟨⟨i, q, hq, hx⟩, shrinks_removeByIndex h₂, ?_⟩
    obtain ⟨d₁', hT', hI', y, hy, ha⟩ := removeByIndex_good hT hI h₂
    refine ⟨d₁', hT', hI', ?_⟩
    have e := quadWithResources_rel (indexOps_rel (Named (classOf R))) hT.resources q
    have hy' : (indexOps (Class R)).readQuad d'.resources d'.quads i = .ok y := readQuad_iff.2 hy
    unfold ResOps.readQuad at hy'
    rw [hT.quads, Slab.index_eq_ok.2 hq] at hy'
    change (indexOps (Class R)).quadWithResources d'.resources q = .ok y at hy'
    rw [hw, hy', quadRel_named] at e
    have e : y = x.map (classOf R) := e
    rw [← e]
    exact ha

theorem extractNext_none {cap : Nat} {d d₁ : IndexedBTreeDataset R} {m m' : Matcher QuadFilter}
    (h : d.extractNext cap m = .ok (none, m', d₁)) : d₁ = d := by
  unfold IndexedBTreeDataset.extractNext at h
  obtain ⟨⟨o, m₁⟩, hl, h⟩ := bind_ok h
  cases o with
  | none =>
    cases pure_ok h
    rfl
  | some iq =>
    obtain ⟨w, hw, h⟩ := bind_ok h
    obtain ⟨d₂, h₂, h⟩ := bind_ok h
    cases pure_ok h

theorem extractLoop_good {cap n : Nat} {d d₁ : IndexedBTreeDataset R}
    {d' : IndexedBTreeDataset (Class R)} (hT : IndexedDatasetRel (Named (classOf R)) d d')
    (hI : d'.WF) {m : Matcher QuadFilter} {ms : List (Quad R)} {b : Bool}
    (h : IndexedBTreeDataset.extractLoop cap n d m = .ok (d₁, ms, b)) :
    (∀ z ∈ ms, ∃ k q, d.quads.get k = some q ∧
      (quadShape R).sval (indexOps R) d.resources d.quads k = some z) ∧
    Shrinks d d₁ ∧
    ∃ d₁', IndexedDatasetRel (Named (classOf R)) d₁ d₁' ∧ d₁'.WF ∧
      ∀ y, d₁'.abs y ↔ d'.abs y ∧ ∀ z ∈ ms, y ≠ z.map (classOf R) := by
  induction n generalizing d d' m ms with
  | zero =>
    cases pure_ok h
    exact ⟨by simp, .refl _, d', hT, hI, by simp⟩
  | succ n ih =>
    obtain ⟨⟨o, m₁, d₂⟩, h₂, h⟩ := bind_ok h
    cases o with
    | none =>
      cases extractNext_none h₂
      cases pure_ok h
      exact ⟨by simp, .refl _, d', hT, hI, by simp⟩
    | some x =>
      obtain ⟨⟨d₃, ms₃, b₃⟩, h₃, h⟩ := bind_ok h
      cases pure_ok h
      obtain ⟨hx, hs, d₂', hT₂, hI₂, ha₂⟩ := extractNext_good hT hI h₂
      obtain ⟨hz, hs₃, d₃', hT₃, hI₃, ha₃⟩ := ih hT₂ hI₂ h₃
      refine ⟨?_, hs.trans hs₃, d₃', hT₃, hI₃, ?_⟩
      · intro z hm
        rcases List.mem_cons.1 hm with rfl | hm
        · exact hx
        · obtain ⟨k, q, hq, hv⟩ := hz z hm
          refine ⟨k, q, hs.quads k q hq, ?_⟩
          simp only [Shape.sval, hq, hs.quads k q hq, Option.bind_some] at hv ⊢
          exact valued_grows quadShape_laws hs.grows hv
      · intro y
        rw [ha₃, ha₂]
        simp [and_assoc]

theorem collectAll_mem {M X : Type} {next : M → Res (Option X × M)} {P : X → Prop}
    (hn : ∀ m x m', next m = .ok (some x, m') → P x) {fuel : Nat} {m : M} {xs : List X}
    (h : collectAll next fuel m = .ok xs) : ∀ x ∈ xs, P x := by
  induction fuel generalizing m xs with
  | zero => cases h
  | succ n ih =>
    obtain ⟨⟨o, m₁⟩, h₁, h⟩ := bind_ok h
    cases o with
    | none =>
      cases pure_ok h
      simp
    | some x =>
      obtain ⟨ys, hy, h⟩ := bind_ok h
      cases pure_ok h
      intro z hz
      rcases List.mem_cons.1 hz with rfl | hz
      · exact hn _ _ _ h₁
      · exact ih hy z hz

theorem matchNext_mem {cap : Nat} {d : IndexedBTreeDataset R} (hd : GoodIndexed d)
    {xs : List (Quad R)} (hx : d.iter = .ok xs) (m m' : Matcher QuadFilter) (x : Quad R)
    (h : d.matchNext cap m = .ok (some x, m')) : x ∈ xs := by
  unfold IndexedBTreeDataset.matchNext at h
  obtain ⟨⟨o, m₁⟩, hl, h⟩ := bind_ok h
  cases o with
  | none => cases pure_ok h
  | some iq =>
    obtain ⟨i, q⟩ := iq
    obtain ⟨w, hw, h⟩ := bind_ok h
    cases pure_ok h
    have hq := loop_get hl
    refine ((indexed_calls false).iter d xs hx x).2
      ⟨i, (((indexed_calls false).slots d hd).mem i).2 ⟨q, hq⟩, readQuad_iff.1 ?_⟩
    unfold ResOps.readQuad
    rw [Slab.index_eq_ok.2 hq]
    exact hw

theorem tripleMatchNext_mem {cap : Nat} {d : IndexedBTreeGraph R} (hd : GoodIndexedGraph d)
    {xs : List (Triple R)} (hx : d.iter = .ok xs) (m m' : Matcher TripleFilter) (x : Triple R)
    (h : d.matchNext cap m = .ok (some x, m')) : x ∈ xs := by
  unfold IndexedBTreeGraph.matchNext at h
  obtain ⟨⟨o, m₁⟩, hl, h⟩ := bind_ok h
  cases o with
  | none => cases pure_ok h
  | some iq =>
    obtain ⟨i, q⟩ := iq
    obtain ⟨w, hw, h⟩ := bind_ok h
    cases pure_ok h
    have hq := loop_get hl
    refine ((indexedGraph_calls false).iter d xs hx x).2
      ⟨i, (((indexedGraph_calls false).slots d hd).mem i).2 ⟨q, hq⟩, readTriple_iff.1 ?_⟩
    unfold ResOps.readTriple
    rw [Slab.index_eq_ok.2 hq]
    exact hw

/-! ## States that can be reached -/

theorem answerIndexed_good (rep : Bool) (d : IndexedBTreeDataset R) (a : IndexedCall R)
    (d₁ : IndexedBTreeDataset R) (x : Reply (Quad R) R) (hd : GoodIndexed d)
    (h : answerIndexed rep d a = .ok (d₁, x)) : GoodIndexed d₁ := by
  cases a with
  | common a => exact good_answer (indexed_mirror rep) (IndexedBTreeDataset.laws rep) hd h
  | list p =>
    cases p <;>
    · obtain ⟨_, -, h⟩ := bind_ok h
      cases pure_ok h
      exact hd
  | count p =>
    cases pure_ok h
    exact hd
  | resourceCount =>
    cases pure_ok h
    exact hd
  | removeGraph g =>
    obtain ⟨⟨d₂, out⟩, h₂, h⟩ := bind_ok h
    obtain ⟨d', hT, hI⟩ := hd
    obtain ⟨d₂', hT₂, hI₂, -⟩ := removeGraph_good rep hT hI h₂
    cases out with
    | none =>
      cases pure_ok h
      exact ⟨d₂', hT₂, hI₂⟩
    | some gr =>
      obtain ⟨_, -, h⟩ := bind_ok h
      cases pure_ok h
      exact ⟨d₂', hT₂, hI₂⟩
  | matching cap pat =>
    obtain ⟨_, -, h⟩ := bind_ok h
    cases pure_ok h
    exact hd
  | multiMatching cap pat =>
    obtain ⟨_, -, h⟩ := bind_ok h
    cases pure_ok h
    exact hd
  | extract cap pat n =>
    obtain ⟨⟨d₂, l, b⟩, h₂, h⟩ := bind_ok h
    cases pure_ok h
    obtain ⟨d', hT, hI⟩ := hd
    obtain ⟨m, -, h₂⟩ := bind_ok h₂
    obtain ⟨-, -, d₂', hT₂, hI₂, -⟩ := extractLoop_good hT hI h₂
    exact ⟨d₂', hT₂, hI₂⟩

theorem answerIndexedGraph_good (rep : Bool) (d : IndexedBTreeGraph R) (a : IndexedGraphCall R)
    (d₁ : IndexedBTreeGraph R) (x : Reply (Triple R) R) (hd : GoodIndexedGraph d)
    (h : answerIndexedGraph rep d a = .ok (d₁, x)) : GoodIndexedGraph d₁ := by
  cases a with
  | common a => exact good_answer (indexedGraph_mirror rep) (IndexedBTreeGraph.laws rep) hd h
  | subjects | predicates | objects | matching =>
    obtain ⟨_, -, h⟩ := bind_ok h
    cases pure_ok h
    exact hd
  | resourceCount | subjectCount | predicateCount | objectCount =>
    cases pure_ok h
    exact hd

theorem reached_indexed (rep : Bool) (d : IndexedBTreeDataset R) (h : ReachedIndexed rep d) :
    GoodIndexed d := by
  obtain ⟨e, l, he, hl⟩ := h
  refine good_session (P := GoodIndexed) (answerIndexed_good rep) ?_ hl
  rcases he with rfl | ⟨b, hb, he⟩
  · exact ⟨_, (indexed_mirror rep).empty, (IndexedBTreeDataset.laws rep).inv_empty⟩
  · obtain ⟨e', he', hg⟩ := convert_good (reached_dataset rep b hb)
    rw [he] at he'
    cases he'
    exact hg

theorem reached_indexedGraph (rep : Bool) (d : IndexedBTreeGraph R)
    (h : ReachedIndexedGraph rep d) : GoodIndexedGraph d := by
  obtain ⟨e, l, he, hl⟩ := h
  refine good_session (P := GoodIndexedGraph) (answerIndexedGraph_good rep) ?_ hl
  rcases he with rfl | ⟨b, hb, he⟩
  · exact ⟨_, (indexedGraph_mirror rep).empty, (IndexedBTreeGraph.laws rep).inv_empty⟩
  · obtain ⟨e', he', hg⟩ := graphConvert_good (reached_graph rep b hb)
    rw [he] at he'
    cases he'
    exact hg

/-! ## The claims -/

theorem dataset_keeps (rep : Bool) :
    KeepsSpelling (ReachedDataset rep) (BTreeDataset.container rep R) AlikeQuad
      (fun f q => q.map f) quadTerms BTreeDataset.resourceList :=
  keepsSpelling quadShape_laws (dataset_mirror rep) (BTreeDataset.laws rep)
    (quad_keeps (classOf_keeps R))
    (fun x y h => alikeQuad_eq x y ((quad_class x y).1 h)) quad_class (reached_dataset rep)
    (dataset_calls rep) alikeQuad_spell

theorem graph_keeps (rep : Bool) :
    KeepsSpelling (ReachedGraph rep) (BTreeGraph.container rep R) AlikeTriple
      (fun f q => q.map f) tripleTerms BTreeGraph.resourceList :=
  keepsSpelling tripleShape_laws (graph_mirror rep) (BTreeGraph.laws rep)
    (triple_keeps (classOf_keeps R))
    (fun x y h => alikeTriple_eq x y ((triple_class x y).1 h)) triple_class
    (reached_graph rep) (graph_calls rep) alikeTriple_spell

theorem indexed_keeps (rep : Bool) :
    KeepsSpelling (ReachedIndexed rep) (IndexedBTreeDataset.container rep R) AlikeQuad
      (fun f q => q.map f) quadTerms IndexedBTreeDataset.resourceList :=
  keepsSpelling quadShape_laws (indexed_mirror rep) (IndexedBTreeDataset.laws rep)
    (quad_keeps (classOf_keeps R))
    (fun x y h => alikeQuad_eq x y ((quad_class x y).1 h)) quad_class (reached_indexed rep)
    (indexed_calls rep) alikeQuad_spell

theorem indexedGraph_keeps (rep : Bool) :
    KeepsSpelling (ReachedIndexedGraph rep) (IndexedBTreeGraph.container rep R) AlikeTriple
      (fun f q => q.map f) tripleTerms IndexedBTreeGraph.resourceList :=
  keepsSpelling tripleShape_laws (indexedGraph_mirror rep) (IndexedBTreeGraph.laws rep)
    (triple_keeps (classOf_keeps R))
    (fun x y h => alikeTriple_eq x y ((triple_class x y).1 h)) triple_class
    (reached_indexedGraph rep) (indexedGraph_calls rep) alikeTriple_spell

theorem returnsListed (rep : Bool) : ReturnsListed (R := R) rep := by
  intro d hd
  have hg := reached_indexed rep d hd
  obtain ⟨d', hT, hI⟩ := reached_indexed rep d hd
  obtain ⟨xs, rs, hx, hrs, M⟩ := good_lists hT hI
  have eq : ∀ x y : Quad R, x.map (classOf R) = y.map (classOf R) → compare x y = .eq :=
    fun x y h => alikeQuad_eq x y ((quad_class x y).1 h)
  refine ⟨xs, rs, hx, hrs, ?_, ?_, ?_, ?_⟩
  · intro cap pat ms h
    obtain ⟨m, -, h⟩ := bind_ok h
    exact collectAll_mem (fun m x m' => matchNext_mem hg hx m m' x) h
  · intro cap pat ms h
    obtain ⟨m, -, h⟩ := bind_ok h
    exact collectAll_mem (fun m x m' => matchNext_mem hg hx m m' x) h
  · intro cap pat n d₁ ms b h
    obtain ⟨m, -, h⟩ := bind_ok h
    obtain ⟨hz, hs, d₁', hT₁, hI₁, ha⟩ := extractLoop_good hT hI h
    obtain ⟨ys, rs', hy, hrs', M₁⟩ := good_lists hT₁ hI₁
    obtain ⟨hyx, hr⟩ := shrinks_lists hs hg ⟨d₁', hT₁, hI₁⟩ hx hy hrs hrs'
    have hmx : ∀ z ∈ ms, z ∈ xs := by
      intro z hm
      obtain ⟨k, q, hq, hv⟩ := hz z hm
      exact ((indexed_calls false).iter d xs hx z).2
        ⟨k, (((indexed_calls false).slots d hg).mem k).2 ⟨q, hq⟩, hv⟩
    refine ⟨ys, rs', hy, hrs', fun z => ⟨fun hzx => ?_, ?_⟩, ?_, hr⟩
    · by_cases hm : z ∈ ms
      · exact .inr hm
      · obtain ⟨w, hw, hwz⟩ := M₁.complete (z.map (classOf R)) ((ha _).2 ⟨M.sound z hzx,
          fun z' hz' e => hm (M.inj eq hzx (hmx z' hz') e ▸ hz')⟩)
        exact .inl (M.inj eq (hyx w hw) hzx hwz ▸ hw)
    · rintro (h | h)
      · exact hyx z h
      · exact hmx z h
    · exact fun z hm hzy => ((ha _).1 (M₁.sound z hzy)).2 z hm rfl
  · intro g d₁ out h
    have hs := shrinks_removeGraph rep h
    obtain ⟨d₁', hT₁, hI₁, ha⟩ := removeGraph_good rep hT hI h
    obtain ⟨ys, rs', hy, hrs', M₁⟩ := good_lists hT₁ hI₁
    obtain ⟨hyx, hr⟩ := shrinks_lists hs hg ⟨d₁', hT₁, hI₁⟩ hx hy hrs hrs'
    refine ⟨ys, rs', hy, hrs', hyx, fun z hzx hn => ?_, hr⟩
    have hz := ha _ (M.sound z hzx) (fun h => hn (by
      obtain ⟨w, hw, hwz⟩ := M₁.complete _ h
      exact M.inj eq (hyx w hw) hzx hwz ▸ hw))
    clear hn hzx
    obtain ⟨s, p, o, zg⟩ := z
    simp only [Quad.map] at hz
    cases zg <;> cases g <;> simp_all [AlikeGraph, Like, classOf_eq]

theorem returnsListedTriples (rep : Bool) : ReturnsListedTriples (R := R) rep := by
  intro d hd
  have hg := reached_indexedGraph rep d hd
  obtain ⟨d', hT, hI⟩ := reached_indexedGraph rep d hd
  obtain ⟨xs, hx, M⟩ := mirrors (indexedGraph_mirror rep) (triple_keeps (classOf_keeps R))
    (IndexedBTreeGraph.laws rep) hT hI
  refine ⟨xs, hx, fun cap pat ms h => ?_⟩
  obtain ⟨m, -, h⟩ := bind_ok h
  exact collectAll_mem (fun m x m' => tripleMatchNext_mem hg hx m m' x) h

end calls

end RdfTypes.Proof.Spelling
