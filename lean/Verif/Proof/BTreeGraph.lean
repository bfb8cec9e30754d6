import Verif.Model.BTreeGraph
import Verif.Proof.BTreeDataset

/-! # `BTreeGraph` follows sets -/

set_option linter.unusedSectionVars false
set_option linter.unusedSimpArgs false

namespace RdfTypes

namespace BTreeGraph

variable {R : Type} [Ord R] [Std.TransOrd R] [Std.LawfulEqOrd R]

def WF (d : BTreeGraph R) : Prop :=
  Inv (tripleShape R) (countOps R) CountRep d.resources d.resourcesIndexes d.triples d.triplesIndexes

def abs (d : BTreeGraph R) : Triple R → Prop := (tripleShape R).abs (countOps R) d.resources d.triples

def sval (d : BTreeGraph R) (k : Nat) : Option (Triple R) :=
  (tripleShape R).sval (countOps R) d.resources d.triples k

def Clean (d : BTreeGraph R) : Prop := (countOps R).Clean d.resources d.resourcesIndexes

def Covers (d : BTreeGraph R) : Prop := (countOps R).Covers d.resources d.resourcesIndexes

theorem contains_spec {d : BTreeGraph R} (h : d.WF) (x : Triple R) :
    ∃ b, d.contains x = .ok b ∧ (b = true ↔ d.abs x) := by
  obtain ⟨o, e, -, ho⟩ := Inv.get_spec tripleShape_laws h x (tripleCmp_compares d.triples x d.triplesIndexes)
  exact ⟨o.isSome, by simp [contains, indexOfTriple, e, bind, Except.bind, pure, Except.pure], ho⟩

theorem insert_spec (rep : Bool) {d : BTreeGraph R} (h : d.WF) (x : Triple R) :
    ∃ d' b, d.insert rep x = .ok (d', b) ∧ d'.WF ∧ (∀ y, d'.abs y ↔ d.abs y ∨ y = x) ∧
      (b = true ↔ ¬ d.abs x) ∧ (b = false → d' = d) ∧
      (d.Covers → d'.Covers) ∧
      (d.Clean → (tripleShape R).RepeatsOnly
        (fun r => ∃ y, d.abs y ∧ (tripleShape R).Occurs y r) x → d'.Clean) ∧
      (b = true → ∃ q, d'.triples = d.triples.insert q ∧
        ∀ k, d'.sval k = if k = d.triples.vacantKey then some x else d.sval k) := by
  obtain ⟨b, hb, hbi⟩ := contains_spec h x
  cases b with
  | true =>
    have hx := hbi.1 rfl
    refine ⟨d, false, by simp [insert, hb, bind, Except.bind, pure, Except.pure], h, ?_, ?_,
      fun _ => rfl, id, fun hc _ => hc, by simp⟩
    · intro y
      constructor
      · exact Or.inl
      · rintro (hy | rfl)
        · exact hy
        · exact hx
    · simp [hx]
  | false =>
    have hx : ¬ d.abs x := fun e => by simpa using hbi.2 e
    obtain ⟨res', ridx', q, sidx', e1, e2, h1, h2, h3, a⟩ :=
      Inv.insertTriple_spec (countOps_laws R) rep h x hx
    refine ⟨⟨res', d.triples.insert q, ridx', sidx'⟩, true, ?_, h1, h3, by simp [hx], by simp,
      a.covers, ?_, fun _ => ⟨q, rfl, h2⟩⟩
    · simp [insert, hb, e1, e2, bind, Except.bind, pure, Except.pure]
    · intro hc hr
      refine a.clean hc ?_
      intro p p' r hp h1 h2
      obtain ⟨y, hy, ho⟩ := hr p p' r hp h1 h2
      exact Inv.val_of_occurs tripleShape_laws hy ho

theorem remove_spec {d : BTreeGraph R} (h : d.WF) (x : Triple R) :
    ∃ d' b, d.remove x = .ok (d', b) ∧ d'.WF ∧ (∀ y, d'.abs y ↔ d.abs y ∧ y ≠ x) ∧
      (b = true ↔ d.abs x) ∧ (b = false → d' = d) ∧ (d.Clean → d'.Clean) ∧
      (b = true → ∃ k, d.sval k = some x ∧ d'.triples = d.triples.erase k ∧
        ∀ n, d'.sval n = if n = k then none else d.sval n) := by
  rcases Inv.removeIndex_spec tripleShape_laws h x (tripleCmp_compares d.triples x d.triplesIndexes) with
    ⟨k, q, sidx', e, hq, hx, hs, hm⟩ | ⟨e, hx⟩
  · obtain ⟨r1, i1, b1, r2, i2, b2, r3, i3, b3, e1, e2, e3, rl⟩ :=
      Inv.releaseTriple_spec (countOps_laws R) h hq hx
        (fun res => (countOps R).resourceCmp res x.s) (fun res => (countOps R).resourceCmp res x.p)
        (fun res => (countOps R).resourceCmp res x.o)
        (cmp_by_value _ _) (cmp_by_value _ _) (cmp_by_value _ _)
    obtain ⟨w, hv, ha⟩ := h.remove_final tripleShape_laws (countOps_laws R) hq hx rl.inv
      (fun i p n => Iff.rfl) rl.val hs hm
    refine ⟨⟨r3, d.triples.erase k, i3, sidx'⟩, true, ?_, w, ha, ?_, by simp, rl.clean,
      fun _ => ⟨k, hx, rfl, hv⟩⟩
    · simp [remove, e, Slab.remove_ok hq, e1, e2, e3, bind, Except.bind, pure, Except.pure]
    · simp only [true_iff]
      exact ⟨k, hx⟩
  · refine ⟨d, false, ?_, h, ?_, ?_, by simp, id, by simp⟩
    · simp [remove, e, bind, Except.bind, pure, Except.pure]
    · intro y
      constructor
      · intro hy
        exact ⟨hy, by rintro rfl; exact hx hy⟩
      · exact fun hy => hy.1
    · simp only [Bool.false_eq_true, false_iff]
      exact hx

theorem iter_spec {d : BTreeGraph R} (h : d.WF) :
    ∃ xs, d.iter = .ok xs ∧ Spec.Lists xs d.abs ∧ d.len = xs.length := by
  obtain ⟨xs, h1, h2, h3, h4, -⟩ := Inv.iter_spec tripleShape_laws h (f := (countOps R).readTriple d.resources d.triples)
    (fun i x hx => readTriple_eq hx)
  exact ⟨xs, h1, ⟨h2, h3⟩, h4⟩

theorem intoIter_eq {d : BTreeGraph R} (h : d.WF) : d.intoIter = d.iter :=
  drainTriples_eq h.sorted.nodup h.sorted.defined

theorem laws (rep : Bool) : (container rep R).Laws WF abs where
  inv_empty := Inv.empty
  abs_empty := by
    rintro x ⟨k, hk⟩
    simp [Shape.sval, container, new] at hk
  insert d x h := by
    obtain ⟨d', b, h1, h2, h3, h4, h5, -⟩ := insert_spec rep h x
    exact ⟨d', b, h1, h2, h3, h4, h5⟩
  remove d x h := by
    obtain ⟨d', b, h1, h2, h3, h4, h5, -⟩ := remove_spec h x
    exact ⟨d', b, h1, h2, h3, h4, h5⟩
  contains d x h := contains_spec h x
  iter d h := iter_spec h
  intoIter d xs h hx := by
    have := intoIter_eq h
    simp only [container] at hx ⊢
    rw [this, hx]
  isEmpty d := rfl

end BTreeGraph

end RdfTypes
