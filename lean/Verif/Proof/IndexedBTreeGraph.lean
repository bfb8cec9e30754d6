import Verif.Model.IndexedBTreeGraph
import Verif.Proof.Indexed

/-! # `IndexedBTreeGraph` follows sets -/

set_option linter.unusedSectionVars false
set_option linter.unusedSimpArgs false

namespace RdfTypes

namespace IndexedBTreeGraph

variable {R : Type} [Ord R] [Std.TransOrd R] [Std.LawfulEqOrd R]

structure WF (d : IndexedBTreeGraph R) : Prop where
  inv : Inv (tripleShape R) (indexOps R) IndexRep d.resources d.resourcesIndexes d.triples
    d.triplesIndexes
  subj : PosSet (tripleShape R) d.triples .subj d.subjects
  pred : PosSet (tripleShape R) d.triples .pred d.predicates
  obj : PosSet (tripleShape R) d.triples .obj d.objects

def abs (d : IndexedBTreeGraph R) : Triple R → Prop :=
  (tripleShape R).abs (indexOps R) d.resources d.triples

def Clean (d : IndexedBTreeGraph R) : Prop := (indexOps R).Clean d.resources d.resourcesIndexes

def Covers (d : IndexedBTreeGraph R) : Prop := (indexOps R).Covers d.resources d.resourcesIndexes

/-- The sets of subjects, predicates and objects are complete. -/
structure Full (d : IndexedBTreeGraph R) : Prop where
  subj : PosFull (tripleShape R) d.triples .subj d.subjects
  pred : PosFull (tripleShape R) d.triples .pred d.predicates
  obj : PosFull (tripleShape R) d.triples .obj d.objects

theorem contains_spec {d : IndexedBTreeGraph R} (h : d.WF) (x : Triple R) :
    ∃ b, d.contains x = .ok b ∧ (b = true ↔ d.abs x) := by
  obtain ⟨o, e, -, ho⟩ := Inv.get_spec tripleShape_laws h.inv x
    (tripleCmp_compares d.triples x d.triplesIndexes)
  exact ⟨o.isSome, by simp [contains, indexOfTriple, e, bind, Except.bind, pure, Except.pure], ho⟩

theorem insert_spec (rep : Bool) {d : IndexedBTreeGraph R} (h : d.WF) (x : Triple R) :
    ∃ d' b, d.insert rep x = .ok (d', b) ∧ d'.WF ∧ (∀ y, d'.abs y ↔ d.abs y ∨ y = x) ∧
      (b = true ↔ ¬ d.abs x) ∧ (b = false → d' = d) ∧
      (d.Covers → d'.Covers) ∧
      (d.Clean → (tripleShape R).RepeatsOnly
        (fun r => ∃ y, d.abs y ∧ (tripleShape R).Occurs y r) x → d'.Clean) ∧
      (d.Full → d'.Full) ∧
      (b = true → ∃ q, d'.triples = d.triples.insert q ∧
        d'.subjects = NatSet.insert q.s d.subjects ∧
        d'.predicates = NatSet.insert q.p d.predicates ∧
        d'.objects = NatSet.insert q.o d.objects) := by
  obtain ⟨b, hb, hbi⟩ := contains_spec h x
  cases b with
  | true =>
    have hx := hbi.1 rfl
    refine ⟨d, false, by simp [insert, hb, bind, Except.bind, pure, Except.pure], h, ?_, ?_,
      fun _ => rfl, id, fun hc _ => hc, id, by simp⟩
    · intro y
      constructor
      · exact Or.inl
      · rintro (hy | rfl)
        · exact hy
        · exact hx
    · simp [hx]
  | false =>
    have hx : ¬ d.abs x := fun e => by simpa using hbi.2 e
    obtain ⟨res', ridx', q, sidx', e1, e2, h1, -, h3, a⟩ :=
      Inv.insertTriple_spec (indexOps_laws R) rep h.inv x hx
    refine ⟨⟨res', d.triples.insert q, ridx', sidx', NatSet.insert q.s d.subjects,
      NatSet.insert q.p d.predicates, NatSet.insert q.o d.objects⟩, true, ?_, ?_, h3, by simp [hx],
      by simp, a.covers, ?_, ?_, fun _ => ⟨q, rfl, rfl, rfl, rfl⟩⟩
    · simp [insert, hb, e1, e2, bind, Except.bind, pure, Except.pure]
    · exact ⟨h1, h.subj.insert h.inv.wf rfl, h.pred.insert h.inv.wf rfl,
        h.obj.insert h.inv.wf rfl⟩
    · intro hc hr
      refine a.clean hc ?_
      intro p p' r hp h1 h2
      obtain ⟨y, hy, ho⟩ := hr p p' r hp h1 h2
      exact Inv.val_of_occurs tripleShape_laws hy ho
    · intro hf
      exact ⟨hf.subj.insert h.inv.wf rfl, hf.pred.insert h.inv.wf rfl,
        hf.obj.insert h.inv.wf rfl⟩

def sval (d : IndexedBTreeGraph R) (k : Nat) : Option (Triple R) :=
  (tripleShape R).sval (indexOps R) d.resources d.triples k

/-- What the removal of the triple `x`, stored as `q` in slot `k`, does. -/
structure RemovedAt (d : IndexedBTreeGraph R) (k : Nat) (q : Triple Nat) (x : Triple R)
    (d' : IndexedBTreeGraph R) : Prop where
  get : d.triples.get k = some q
  was : d.sval k = some x
  wf : d'.WF
  abs : ∀ y, d'.abs y ↔ d.abs y ∧ y ≠ x
  clean : d.Clean → d'.Clean
  triples : d'.triples = d.triples.erase k
  subjects : d'.subjects = NatSet.remove q.s d.subjects
  predicates : d'.predicates = NatSet.remove q.p d.predicates
  objects : d'.objects = NatSet.remove q.o d.objects
  sval : ∀ n, d'.sval n = if n = k then none else d.sval n
  releases : Releasing (indexOps R) IndexRep d.resources d.resourcesIndexes d'.resources
    d'.resourcesIndexes (fun i p n => (tripleShape R).uses d.triples i p n ∧ n ≠ k)

/-- `remove`, with the slot it vacates. -/
theorem remove_core {d : IndexedBTreeGraph R} (h : d.WF) (x : Triple R) :
    (∃ k q d', d.remove x = .ok (d', true) ∧ RemovedAt d k q x d') ∨
    (d.remove x = .ok (d, false) ∧ ¬ d.abs x) := by
  rcases Inv.removeIndex_spec tripleShape_laws h.inv x
      (tripleCmp_compares d.triples x d.triplesIndexes) with
    ⟨k, q, sidx', e, hq, hx, hs, hm⟩ | ⟨e, hx⟩
  · obtain ⟨r1, i1, b1, r2, i2, b2, r3, i3, b3, e1, e2, e3, rl⟩ :=
      Inv.releaseTriple_spec (indexOps_laws R) h.inv hq hx
        (fun res => (indexOps R).resourceCmp res x.s) (fun res => (indexOps R).resourceCmp res x.p)
        (fun res => (indexOps R).resourceCmp res x.o)
        (cmp_by_value _ _) (cmp_by_value _ _) (cmp_by_value _ _)
    obtain ⟨w, hv, ha⟩ := h.inv.remove_final tripleShape_laws (indexOps_laws R) hq hx rl.inv
      (fun i p n => Iff.rfl) rl.val hs hm
    refine Or.inl ⟨k, q, ⟨r3, d.triples.erase k, i3, sidx', NatSet.remove q.s d.subjects,
      NatSet.remove q.p d.predicates, NatSet.remove q.o d.objects⟩, ?_, hq, hx,
      ⟨w, h.subj.remove hq rfl, h.pred.remove hq rfl, h.obj.remove hq rfl⟩, ha,
      rl.clean, rfl, rfl, rfl, rfl, hv, rl⟩
    simp [remove, e, Slab.remove_ok hq, e1, e2, e3, bind, Except.bind, pure, Except.pure]
  · exact Or.inr ⟨by simp [remove, e, bind, Except.bind, pure, Except.pure], hx⟩

theorem remove_spec {d : IndexedBTreeGraph R} (h : d.WF) (x : Triple R) :
    ∃ d' b, d.remove x = .ok (d', b) ∧ d'.WF ∧ (∀ y, d'.abs y ↔ d.abs y ∧ y ≠ x) ∧
      (b = true ↔ d.abs x) ∧ (b = false → d' = d) ∧ (d.Clean → d'.Clean) := by
  rcases remove_core h x with ⟨k, q, d', e, r⟩ | ⟨e, hx⟩
  · refine ⟨d', true, e, r.wf, r.abs, ?_, by simp, r.clean⟩
    simp only [true_iff]
    exact ⟨k, r.was⟩
  · refine ⟨d, false, e, h, ?_, ?_, by simp, id⟩
    · intro y
      constructor
      · intro hy
        exact ⟨hy, by rintro rfl; exact hx hy⟩
      · exact fun hy => hy.1
    · simp only [Bool.false_eq_true, false_iff]
      exact hx

theorem iter_spec {d : IndexedBTreeGraph R} (h : d.WF) :
    ∃ xs, d.iter = .ok xs ∧ Spec.Lists xs d.abs ∧ d.len = xs.length := by
  obtain ⟨xs, h1, h2, h3, h4, -⟩ := Inv.iter_spec tripleShape_laws h.inv
    (f := (indexOps R).readTriple d.resources d.triples) (fun i x hx => readTriple_eq hx)
  exact ⟨xs, h1, ⟨h2, h3⟩, h4⟩

theorem intoIter_eq {d : IndexedBTreeGraph R} (h : d.WF) : d.intoIter = d.iter :=
  drainTriples_eq h.inv.sorted.nodup h.inv.sorted.defined

theorem wf_new : (new : IndexedBTreeGraph R).WF where
  inv := Inv.empty
  subj := ⟨NatSet.asc_nil, by simp [new]⟩
  pred := ⟨NatSet.asc_nil, by simp [new]⟩
  obj := ⟨NatSet.asc_nil, by simp [new]⟩

theorem full_new : (new : IndexedBTreeGraph R).Full := by
  constructor <;> (rintro i k ⟨q, hq, -⟩; simp [new] at hq)

theorem laws (rep : Bool) : (container rep R).Laws WF abs where
  inv_empty := wf_new
  abs_empty := by
    rintro x ⟨k, hk⟩
    simp [Shape.sval, container, new] at hk
  insert d x h := by
    obtain ⟨d', b, h1, h2, h3, h4, h5, -⟩ := insert_spec rep h x
    exact ⟨d', b, h1, h2, h3, h4, h5⟩
  remove d x h := by
    obtain ⟨d', b, h1, h2, h3, h4, h5, -⟩ := remove_spec h x
    exact ⟨d', b, h1, h2, h3, h4, h5⟩
  contains d x h := contains_spec h x
  iter d h := iter_spec h
  intoIter d xs h hx := by
    have := intoIter_eq h
    simp only [container] at hx ⊢
    rw [this, hx]
  isEmpty d := rfl

end IndexedBTreeGraph

end RdfTypes
