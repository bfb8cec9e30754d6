import Verif.Proof.Indexed

/-! # `IndexedBTreeDataset` follows sets -/

set_option linter.unusedSectionVars false
set_option linter.unusedSimpArgs false

namespace RdfTypes

namespace IndexedBTreeDataset

variable {R : Type} [Ord R] [Std.TransOrd R] [Std.LawfulEqOrd R]

structure WF (d : IndexedBTreeDataset R) : Prop where
  inv : Inv (quadShape R) (indexOps R) IndexRep d.resources d.resourcesIndexes d.quads
    d.quadsIndexes
  subj : PosSet (quadShape R) d.quads .subj d.subjects
  pred : PosSet (quadShape R) d.quads .pred d.predicates
  obj : PosSet (quadShape R) d.quads .obj d.objects
  dfltAsc : d.defaultGraph.Asc
  dflt : ∀ k, k ∈ d.defaultGraph ↔ ∃ q, d.quads.get k = some q ∧ q.g = none
  namedAsc : d.namedGraphs.Asc
  named : PosFull (quadShape R) d.quads .graph d.namedGraphs

def abs (d : IndexedBTreeDataset R) : Quad R → Prop :=
  (quadShape R).abs (indexOps R) d.resources d.quads

def sval (d : IndexedBTreeDataset R) (k : Nat) : Option (Quad R) :=
  (quadShape R).sval (indexOps R) d.resources d.quads k

def Clean (d : IndexedBTreeDataset R) : Prop := (indexOps R).Clean d.resources d.resourcesIndexes

def Covers (d : IndexedBTreeDataset R) : Prop := (indexOps R).Covers d.resources d.resourcesIndexes

/-- The sets of subjects, predicates and objects are complete, and that of graph
names is sound. -/
structure Full (d : IndexedBTreeDataset R) : Prop where
  subj : PosFull (quadShape R) d.quads .subj d.subjects
  pred : PosFull (quadShape R) d.quads .pred d.predicates
  obj : PosFull (quadShape R) d.quads .obj d.objects
  named : PosSet (quadShape R) d.quads .graph d.namedGraphs

theorem contains_spec {d : IndexedBTreeDataset R} (h : d.WF) (x : Quad R) :
    ∃ b, d.contains x = .ok b ∧ (b = true ↔ d.abs x) := by
  obtain ⟨o, e, -, ho⟩ := Inv.get_spec quadShape_laws h.inv x
    (quadCmp_compares d.quads x d.quadsIndexes)
  exact ⟨o.isSome, by simp [contains, indexOfQuad, e, bind, Except.bind, pure, Except.pure], ho⟩

theorem insert_spec (rep : Bool) {d : IndexedBTreeDataset R} (h : d.WF) (x : Quad R) :
    ∃ d' b, d.insert rep x = .ok (d', b) ∧ d'.WF ∧ (∀ y, d'.abs y ↔ d.abs y ∨ y = x) ∧
      (b = true ↔ ¬ d.abs x) ∧ (b = false → d' = d) ∧
      (d.Covers → d'.Covers) ∧
      (d.Clean → (quadShape R).RepeatsOnly
        (fun r => ∃ y, d.abs y ∧ (quadShape R).Occurs y r) x → d'.Clean) ∧
      (d.Full → d'.Full) ∧
      (PosSet (quadShape R) d.quads .graph d.namedGraphs →
        PosSet (quadShape R) d'.quads .graph d'.namedGraphs) ∧
      (b = true → ∃ q, d'.quads = d.quads.insert q ∧
        d'.subjects = NatSet.insert q.s d.subjects ∧
        d'.predicates = NatSet.insert q.p d.predicates ∧
        d'.objects = NatSet.insert q.o d.objects) := by
  obtain ⟨b, hb, hbi⟩ := contains_spec h x
  cases b with
  | true =>
    have hx := hbi.1 rfl
    refine ⟨d, false, by simp [insert, hb, bind, Except.bind, pure, Except.pure], h, ?_, ?_,
      fun _ => rfl, id, fun hc _ => hc, id, id, by simp⟩
    · intro y
      constructor
      · exact Or.inl
      · rintro (hy | rfl)
        · exact hy
        · exact hx
    · simp [hx]
  | false =>
    have hx : ¬ d.abs x := fun e => by simpa using hbi.2 e
    obtain ⟨res', ridx', q, sidx', e1, e2, h1, -, h3, a⟩ :=
      Inv.insertQuad_spec (indexOps_laws R) rep h.inv x hx
    have hw := h.inv.wf
    have hclean : d.Clean → (quadShape R).RepeatsOnly
        (fun r => ∃ y, d.abs y ∧ (quadShape R).Occurs y r) x → (indexOps R).Clean res' ridx' := by
      intro hc hr
      refine a.clean hc ?_
      intro p p' r hp h1 h2
      obtain ⟨y, hy, ho⟩ := hr p p' r hp h1 h2
      exact Inv.val_of_occurs quadShape_laws hy ho
    cases hg : q.g with
    | none =>
      refine ⟨⟨res', d.quads.insert q, ridx', sidx', NatSet.insert q.s d.subjects,
        NatSet.insert q.p d.predicates, NatSet.insert q.o d.objects,
        NatSet.insert d.quads.vacantKey d.defaultGraph, d.namedGraphs⟩, true, ?_, ?_, h3,
        by simp [hx], by simp, a.covers, hclean, ?_, ?_, fun _ => ⟨q, rfl, rfl, rfl, rfl⟩⟩
      · simp [insert, hb, e1, e2, hg, bind, Except.bind, pure, Except.pure]
      · refine ⟨h1, h.subj.insert hw rfl, h.pred.insert hw rfl, h.obj.insert hw rfl,
          NatSet.asc_insert h.dfltAsc, ?_, h.namedAsc, h.named.insert_none hw hg⟩
        intro k
        simp only [NatSet.mem_insert, h.dflt, Slab.get_insert hw]
        by_cases hk : k = d.quads.vacantKey
        · simp [hk, hg]
        · simp [hk]
      · intro hf
        exact ⟨hf.subj.insert hw rfl, hf.pred.insert hw rfl, hf.obj.insert hw rfl,
          hf.named.insert_none hw q⟩
      · exact fun hp => hp.insert_none hw q
    | some g =>
      refine ⟨⟨res', d.quads.insert q, ridx', sidx', NatSet.insert q.s d.subjects,
        NatSet.insert q.p d.predicates, NatSet.insert q.o d.objects,
        d.defaultGraph, NatSet.insert g d.namedGraphs⟩, true, ?_, ?_, h3,
        by simp [hx], by simp, a.covers, hclean, ?_, ?_, fun _ => ⟨q, rfl, rfl, rfl, rfl⟩⟩
      · simp [insert, hb, e1, e2, hg, bind, Except.bind, pure, Except.pure]
      · refine ⟨h1, h.subj.insert hw rfl, h.pred.insert hw rfl, h.obj.insert hw rfl,
          h.dfltAsc, ?_, NatSet.asc_insert h.namedAsc, h.named.insert hw hg⟩
        intro k
        simp only [h.dflt, Slab.get_insert hw]
        by_cases hk : k = d.quads.vacantKey
        · simp [hk, hg, Slab.get_vacantKey hw]
        · simp [hk]
      · intro hf
        exact ⟨hf.subj.insert hw rfl, hf.pred.insert hw rfl, hf.obj.insert hw rfl,
          hf.named.insert hw hg⟩
      · exact fun hp => hp.insert hw hg

/-- What the removal of the quad `x`, stored as `q` in slot `k`, does. -/
structure RemovedAt (d : IndexedBTreeDataset R) (k : Nat) (q : Quad Nat) (x : Quad R)
    (d' : IndexedBTreeDataset R) : Prop where
  get : d.quads.get k = some q
  was : d.sval k = some x
  wf : d'.WF
  sval : ∀ n, d'.sval n = if n = k then none else d.sval n
  abs : ∀ y, d'.abs y ↔ d.abs y ∧ y ≠ x
  clean : d.Clean → d'.Clean
  quads : d'.quads = d.quads.erase k
  subjects : d'.subjects = NatSet.remove q.s d.subjects
  predicates : d'.predicates = NatSet.remove q.p d.predicates
  objects : d'.objects = NatSet.remove q.o d.objects
  named : (∀ i p n, (quadShape R).comp q .graph = some i → (quadShape R).uses d.quads i p n →
    p = .graph) → PosSet (quadShape R) d.quads .graph d.namedGraphs →
    PosSet (quadShape R) d'.quads .graph d'.namedGraphs
  namedMem : ∀ i, i ∈ d'.namedGraphs ↔
    i ∈ d.namedGraphs ∧ ¬ (q.g = some i ∧ (indexOps R).val d'.resources i = none)
  releases : Releasing (indexOps R) IndexRep d.resources d.resourcesIndexes d'.resources
    d'.resourcesIndexes (fun i p n => (quadShape R).uses d.quads i p n ∧ n ≠ k)
  calls : ∃ sidx', removeByIndex { d with quadsIndexes := sidx' } k false = .ok d'

/-- Successive removals of the listed quads. -/
inductive Removed : IndexedBTreeDataset R → List (Quad R) → IndexedBTreeDataset R → Prop
  | nil (d) : Removed d [] d
  | cons {d k q x d₁ xs d'} : RemovedAt d k q x d₁ → Removed d₁ xs d' → Removed d (x :: xs) d'

/-- Slots of graph names are used in no other position. -/
def GraphOnly (d : IndexedBTreeDataset R) : Prop :=
  ∀ i p n n', (quadShape R).uses d.quads i .graph n → (quadShape R).uses d.quads i p n' → p = .graph

theorem Removed.length {d d' : IndexedBTreeDataset R} {xs : List (Quad R)} (h : Removed d xs d') :
    d'.quads.entries.length = d.quads.entries.length := by
  induction h with
  | nil => rfl
  | cons r _ ih => rw [ih, r.quads]; simp [Slab.erase]

theorem Removed.named {d d' : IndexedBTreeDataset R} {xs : List (Quad R)} (h : Removed d xs d') :
    d.GraphOnly → PosSet (quadShape R) d.quads .graph d.namedGraphs →
    PosSet (quadShape R) d'.quads .graph d'.namedGraphs := by
  induction h with
  | nil => exact fun _ h => h
  | cons r _ ih =>
    intro hg hp
    refine ih ?_ (r.named (fun i p n hi hu => hg i p _ n ⟨_, r.get, hi⟩ hu) hp)
    intro i p n n' hn hn'
    rw [r.quads] at hn hn'
    exact hg i p n n' ((Shape.uses_erase i .graph _ n).1 hn).1
      ((Shape.uses_erase i p _ n').1 hn').1

theorem Removed.abs {d d' : IndexedBTreeDataset R} {xs : List (Quad R)} (h : Removed d xs d') :
    (∀ y, d'.abs y ↔ d.abs y ∧ y ∉ xs) ∧ xs.Nodup ∧ ∀ y ∈ xs, d.abs y := by
  induction h with
  | nil => simp
  | @cons d k q x d₁ xs d' r _ ih =>
    obtain ⟨h1, h2, h3⟩ := ih
    refine ⟨?_, ?_, ?_⟩
    · intro y
      rw [h1, r.abs]
      simp [and_assoc]
    · refine List.nodup_cons.2 ⟨fun hx => ?_, h2⟩
      exact ((r.abs x).1 (h3 x hx)).2 rfl
    · intro y hy
      rcases List.mem_cons.1 hy with rfl | hy
      · exact ⟨k, r.was⟩
      · exact ((r.abs y).1 (h3 y hy)).1

theorem Removed.wf {d d' : IndexedBTreeDataset R} {xs : List (Quad R)} (h : Removed d xs d') :
    d.WF → d'.WF := by
  induction h with
  | nil => exact id
  | cons r _ ih => exact fun _ => ih r.wf

theorem Removed.clean {d d' : IndexedBTreeDataset R} {xs : List (Quad R)} (h : Removed d xs d') :
    d.Clean → d'.Clean := by
  induction h with
  | nil => exact id
  | cons r _ ih => exact fun hc => ih (r.clean hc)

/-- `removeByIndex` once the quad has left the index of quads. -/
theorem removeByIndex_core {d : IndexedBTreeDataset R} (h : d.WF) {k : Nat} {q : Quad Nat}
    {x : Quad R} (hq : d.quads.get k = some q) (hx : d.sval k = some x) {sidx' : Index}
    (hs : Index.Sorted d.sval sidx')
    (hm : ∀ n, n ∈ sidx' ↔ n ∈ d.quadsIndexes ∧ d.sval n ≠ some x) :
    ∃ d', removeByIndex { d with quadsIndexes := sidx' } k false = .ok d' ∧
      RemovedAt d k q x d' := by
  obtain ⟨r1, i1, b1, r2, i2, b2, r3, i3, b3, e1, e2, e3, hn, hg⟩ :=
    Inv.releaseQuad_spec (indexOps_laws R) h.inv hq hx
      (fun res => (indexOps R).resourceIndexCmp res q.s)
      (fun res => (indexOps R).resourceIndexCmp res q.p)
      (fun res => (indexOps R).resourceIndexCmp res q.o)
      (fun g res => (indexOps R).resourceIndexCmp res g)
      (cmp_by_index _ _) (cmp_by_index _ _) (cmp_by_index _ _)
      (fun g y _ _ => cmp_by_index g y)
  cases hqg : q.g with
  | none =>
    have rl := hn hqg
    obtain ⟨w, hv, ha⟩ := h.inv.remove_final quadShape_laws (indexOps_laws R) hq hx rl.inv
      (fun i p n => Iff.rfl) rl.val hs hm
    have ec : removeByIndex { d with quadsIndexes := sidx' } k false =
        .ok ⟨r3, d.quads.erase k, i3, sidx', NatSet.remove q.s d.subjects,
          NatSet.remove q.p d.predicates, NatSet.remove q.o d.objects,
          NatSet.remove k d.defaultGraph, d.namedGraphs⟩ := by
      simp [removeByIndex, Slab.remove_ok hq, e1, e2, e3, hqg, bind, Except.bind, pure,
        Except.pure]
    refine ⟨_, ec, hq, hx, ?_, hv, ha, rl.clean, rfl, rfl, rfl, rfl, ?_, by simp [hqg], rl, _, ec⟩
    · refine ⟨w, h.subj.remove hq rfl, h.pred.remove hq rfl, h.obj.remove hq rfl,
        NatSet.asc_remove h.dfltAsc, ?_, h.namedAsc, ?_⟩
      · intro n
        simp only [NatSet.mem_remove, h.dflt, Slab.get_erase]
        by_cases e : n = k <;> simp [e]
      · intro i n hi
        exact h.named i n ((Shape.uses_erase i .graph k n).1 hi).1
    · intro _ hp
      refine ⟨hp.asc, fun i hi => ?_⟩
      obtain ⟨n, hu⟩ := hp.sound i hi
      refine ⟨n, (Shape.uses_erase i .graph k n).2 ⟨hu, ?_⟩⟩
      rintro rfl
      obtain ⟨q', hq', hc⟩ := hu
      rw [hq] at hq'
      cases hq'
      simp [quadShape, hqg] at hc
  | some g =>
    obtain ⟨r4, i4, b4, e4, hb4, rl⟩ := hg g hqg
    obtain ⟨w, hv, ha⟩ := h.inv.remove_final quadShape_laws (indexOps_laws R) hq hx rl.inv
      (fun i p n => Iff.rfl) rl.val hs hm
    have ec : removeByIndex { d with quadsIndexes := sidx' } k false =
        .ok ⟨r4, d.quads.erase k, i4, sidx', NatSet.remove q.s d.subjects,
          NatSet.remove q.p d.predicates, NatSet.remove q.o d.objects, d.defaultGraph,
          if b4 then NatSet.remove g d.namedGraphs else d.namedGraphs⟩ := by
      simp [removeByIndex, Slab.remove_ok hq, e1, e2, e3, e4, hqg, bind, Except.bind, pure,
        Except.pure]
    refine ⟨_, ec, hq, hx, ?_, hv, ha, rl.clean, rfl, rfl, rfl, rfl, ?_, ?_, rl, _, ec⟩
    · refine ⟨w, h.subj.remove hq rfl, h.pred.remove hq rfl, h.obj.remove hq rfl,
        h.dfltAsc, ?_, ?_, ?_⟩
      · intro n
        simp only [h.dflt, Slab.get_erase]
        by_cases e : n = k
        · simp [e, hq, hqg]
        · simp [e]
      · cases b4
        · exact h.namedAsc
        · exact NatSet.asc_remove h.namedAsc
      · intro i n hi
        have hi' := h.named i n ((Shape.uses_erase i .graph k n).1 hi).1
        cases b4 with
        | false => exact hi'
        | true =>
          simp only [if_true, NatSet.mem_remove]
          refine ⟨hi', ?_⟩
          rintro rfl
          obtain ⟨r, hr⟩ := w.table.val_isSome_of_used hi
          rw [hb4.1 rfl] at hr
          cases hr
    · intro hd hp
      have keep : ∀ i, i ≠ g → i ∈ d.namedGraphs →
          ∃ n, (quadShape R).uses (d.quads.erase k) i .graph n := by
        intro i hne hi
        obtain ⟨n, hu⟩ := hp.sound i hi
        refine ⟨n, (Shape.uses_erase i .graph k n).2 ⟨hu, ?_⟩⟩
        rintro rfl
        obtain ⟨q', hq', hc⟩ := hu
        rw [hq] at hq'
        cases hq'
        simp only [quadShape, hqg, Option.some.injEq] at hc
        exact hne hc.symm
      cases hb : b4 with
      | true =>
        refine ⟨NatSet.asc_remove hp.asc, fun i hi => ?_⟩
        obtain ⟨hi, hne⟩ := NatSet.mem_remove.1 hi
        exact keep i hne hi
      | false =>
        refine ⟨hp.asc, fun i hi => ?_⟩
        by_cases hne : i = g
        · subst hne
          cases hv4 : (indexOps R).val r4 i with
          | none =>
            have := hb4.2 hv4
            rw [hb] at this
            cases this
          | some r =>
            obtain ⟨p, n, hu⟩ := w.table.used_of_val hv4
            have := hd i p n hqg ((Shape.uses_erase i p k n).1 hu).1
            subst this
            exact ⟨n, hu⟩
        · exact keep i hne hi
    · intro i
      cases hb : b4 with
      | true =>
        simp only [if_true, NatSet.mem_remove, hqg, Option.some.injEq]
        constructor
        · rintro ⟨hi, hne⟩
          exact ⟨hi, fun h => hne h.1.symm⟩
        · rintro ⟨hi, hne⟩
          refine ⟨hi, ?_⟩
          rintro rfl
          exact hne ⟨rfl, hb4.1 hb⟩
      | false =>
        simp only [Bool.false_eq_true, if_false, hqg, Option.some.injEq]
        refine ⟨fun hi => ⟨hi, ?_⟩, And.left⟩
        rintro ⟨rfl, hn⟩
        rw [hb4.2 hn] at hb
        cases hb

/-- `removeByIndex`, including the removal from the index of quads. -/
theorem removeByIndex_spec {d : IndexedBTreeDataset R} (h : d.WF) {k : Nat} {x : Quad R}
    (hx : d.sval k = some x) :
    ∃ q d', d.removeByIndex k true = .ok d' ∧ RemovedAt d k q x d' := by
  rcases Inv.removeIndex_spec quadShape_laws h.inv x
      (quadIndexCmp_compares d.quads x k d.quadsIndexes hx) with
    ⟨k', q, sidx', e, hq, hx', hs, hm⟩ | ⟨e, hno⟩
  · have : k' = k := h.inv.sval_inj quadShape_laws hx' hx
    subst this
    obtain ⟨d', h1, h2⟩ := removeByIndex_core h hq hx hs hm
    refine ⟨q, d', ?_, h2⟩
    rw [← h1]
    simp [removeByIndex, e, bind, Except.bind, pure, Except.pure]
  · exact absurd ⟨k, hx⟩ hno

/-- `remove`, with the slot it vacates. -/
theorem remove_core {d : IndexedBTreeDataset R} (h : d.WF) (x : Quad R) :
    (∃ k q d', d.remove x = .ok (d', true) ∧ RemovedAt d k q x d') ∨
    (d.remove x = .ok (d, false) ∧ ¬ d.abs x) := by
  rcases Inv.removeIndex_spec quadShape_laws h.inv x
      (quadCmp_compares d.quads x d.quadsIndexes) with
    ⟨k, q, sidx', e, hq, hx, hs, hm⟩ | ⟨e, hx⟩
  · obtain ⟨d', h1, h2⟩ := removeByIndex_core h hq hx hs hm
    exact Or.inl ⟨k, q, d', by simp [remove, e, h1, bind, Except.bind, pure, Except.pure], h2⟩
  · exact Or.inr ⟨by simp [remove, e, bind, Except.bind, pure, Except.pure], hx⟩

theorem remove_spec {d : IndexedBTreeDataset R} (h : d.WF) (x : Quad R) :
    ∃ d' b, d.remove x = .ok (d', b) ∧ d'.WF ∧ (∀ y, d'.abs y ↔ d.abs y ∧ y ≠ x) ∧
      (b = true ↔ d.abs x) ∧ (b = false → d' = d) ∧ (d.Clean → d'.Clean) := by
  rcases remove_core h x with ⟨k, q, d', e, r⟩ | ⟨e, hx⟩
  · refine ⟨d', true, e, r.wf, r.abs, ?_, by simp, r.clean⟩
    simp only [true_iff]
    exact ⟨k, r.was⟩
  · refine ⟨d, false, e, h, ?_, ?_, by simp, id⟩
    · intro y
      constructor
      · intro hy
        exact ⟨hy, by rintro rfl; exact hx hy⟩
      · exact fun hy => hy.1
    · simp only [Bool.false_eq_true, false_iff]
      exact hx

/-- The loop of `remove_graph`. -/
theorem removeGraphLoop_spec (rep : Bool) {l : List Nat} :
    ∀ {d : IndexedBTreeDataset R} {g : BTreeGraph R}, d.WF → g.WF → l.Nodup →
    (∀ k ∈ l, ∃ x, d.sval k = some x) →
    ∃ d' g', removeGraphLoop rep d g l = .ok (d', g') ∧ d'.WF ∧ g'.WF ∧
      (∀ y, d'.abs y ↔ d.abs y ∧ ¬ ∃ k, k ∈ l ∧ d.sval k = some y) ∧
      (∀ t, g'.abs t ↔ g.abs t ∨ ∃ k x, k ∈ l ∧ d.sval k = some x ∧ x.intoTriple.1 = t) ∧
      ∃ xs, Removed d xs d' ∧ xs.map some = l.map d.sval := by
  induction l with
  | nil =>
    intro d g hd hg _ _
    exact ⟨d, g, rfl, hd, hg, by simp, by simp, [], .nil d, rfl⟩
  | cons k l ih =>
    intro d g hd hg hn hk
    obtain ⟨hkl, hn'⟩ := List.nodup_cons.1 hn
    obtain ⟨x, hx⟩ := hk k (by simp)
    obtain ⟨q1, d1, e1, r1⟩ := removeByIndex_spec hd hx
    obtain ⟨w1, v1, a1⟩ := And.intro r1.wf (And.intro r1.sval r1.abs)
    obtain ⟨g1, b, e2, w2, a2, -⟩ := BTreeGraph.insert_spec rep hg x.intoTriple.1
    have v1' : ∀ n ∈ l, d1.sval n = d.sval n := by
      intro n hnl
      rw [v1]
      have : n ≠ k := fun e => hkl (e ▸ hnl)
      simp [this]
    obtain ⟨d', g', e3, w3, w4, a3, a4, xs, c3, o3⟩ := ih w1 w2 hn' (by
      intro n hnl
      obtain ⟨y, hy⟩ := hk n (by simp [hnl])
      exact ⟨y, by rw [v1' n hnl, hy]⟩)
    refine ⟨d', g', ?_, w3, w4, ?_, ?_, x :: xs, .cons r1 c3, ?_⟩
    · have hr : (indexOps R).readQuad d.resources d.quads k = .ok x := readQuad_eq hx
      simp [removeGraphLoop, hr, e1, e2, e3, bind, Except.bind]
    · intro y
      rw [a3, a1]
      constructor
      · rintro ⟨⟨hy, hne⟩, hno⟩
        refine ⟨hy, ?_⟩
        rintro ⟨n, hn, hv⟩
        rcases List.mem_cons.1 hn with rfl | hn
        · rw [hx] at hv
          cases hv
          exact hne rfl
        · exact hno ⟨n, hn, by rw [v1' n hn, hv]⟩
      · rintro ⟨hy, hno⟩
        refine ⟨⟨hy, ?_⟩, ?_⟩
        · rintro rfl
          exact hno ⟨k, by simp, hx⟩
        · rintro ⟨n, hn, hv⟩
          exact hno ⟨n, by simp [hn], by rw [← v1' n hn, hv]⟩
    · intro t
      rw [a4, a2]
      constructor
      · rintro ((ht | rfl) | ⟨n, y, hn, hv, rfl⟩)
        · exact Or.inl ht
        · exact Or.inr ⟨k, x, by simp, hx, rfl⟩
        · exact Or.inr ⟨n, y, by simp [hn], by rw [← v1' n hn, hv], rfl⟩
      · rintro (ht | ⟨n, y, hn, hv, rfl⟩)
        · exact Or.inl (Or.inl ht)
        · rcases List.mem_cons.1 hn with rfl | hn
          · rw [hx] at hv
            cases hv
            exact Or.inl (Or.inr rfl)
          · exact Or.inr ⟨n, y, hn, by rw [v1' n hn, hv], rfl⟩
    · have : l.map d1.sval = l.map d.sval := List.map_congr_left v1'
      simp [hx, o3, this]

theorem iter_spec {d : IndexedBTreeDataset R} (h : d.WF) :
    ∃ xs, d.iter = .ok xs ∧ Spec.Lists xs d.abs ∧ d.len = xs.length := by
  obtain ⟨xs, h1, h2, h3, h4, -⟩ := Inv.iter_spec quadShape_laws h.inv
    (f := (indexOps R).readQuad d.resources d.quads) (fun i x hx => readQuad_eq hx)
  exact ⟨xs, h1, ⟨h2, h3⟩, h4⟩

theorem intoIter_eq {d : IndexedBTreeDataset R} (h : d.WF) : d.intoIter = d.iter :=
  drainQuads_eq h.inv.sorted.nodup h.inv.sorted.defined

theorem wf_new : (new : IndexedBTreeDataset R).WF where
  inv := Inv.empty
  subj := ⟨NatSet.asc_nil, by simp [new]⟩
  pred := ⟨NatSet.asc_nil, by simp [new]⟩
  obj := ⟨NatSet.asc_nil, by simp [new]⟩
  dfltAsc := NatSet.asc_nil
  dflt := by simp [new]
  namedAsc := NatSet.asc_nil
  named := by rintro i k ⟨q, hq, -⟩; simp [new] at hq

theorem full_new : (new : IndexedBTreeDataset R).Full := by
  constructor
  · rintro i k ⟨q, hq, -⟩; simp [new] at hq
  · rintro i k ⟨q, hq, -⟩; simp [new] at hq
  · rintro i k ⟨q, hq, -⟩; simp [new] at hq
  · exact ⟨NatSet.asc_nil, by simp [new]⟩

theorem laws (rep : Bool) : (container rep R).Laws WF abs where
  inv_empty := wf_new
  abs_empty := by
    rintro x ⟨k, hk⟩
    simp [Shape.sval, container, new] at hk
  insert d x h := by
    obtain ⟨d', b, h1, h2, h3, h4, h5, -⟩ := insert_spec rep h x
    exact ⟨d', b, h1, h2, h3, h4, h5⟩
  remove d x h := by
    obtain ⟨d', b, h1, h2, h3, h4, h5, -⟩ := remove_spec h x
    exact ⟨d', b, h1, h2, h3, h4, h5⟩
  contains d x h := contains_spec h x
  iter d h := iter_spec h
  intoIter d xs h hx := by
    have := intoIter_eq h
    simp only [container] at hx ⊢
    rw [this, hx]
  isEmpty d := rfl

end IndexedBTreeDataset

end RdfTypes
