import Verif.Model.BTreeDataset
import Verif.Proof.Tables
import Verif.Proof.Container

/-! # `BTreeDataset` follows sets -/

set_option linter.unusedSectionVars false
set_option linter.unusedSimpArgs false

namespace RdfTypes

/-- A counter stands for a finite set of occurrences of that size. -/
def CountRep {R : Type} (x : CountedResource R) (E : Pos → Nat → Prop) : Prop :=
  ∃ l : List (Pos × Nat), l.Nodup ∧ (∀ p k, (p, k) ∈ l ↔ E p k) ∧ x.occurrences = l.length

theorem countOps_laws (R : Type) : ResLaws (countOps R) CountRep where
  congr := by
    rintro x E E' ⟨l, h1, h2, h3⟩ h
    exact ⟨l, h1, fun p k => by rw [h2, h], h3⟩
  mk_rep := by
    intro r p k
    exact ⟨[(p, k)], by simp, by simp, rfl⟩
  mk_value := by simp [countOps]
  add_rep := by
    rintro x E p k ⟨l, h1, h2, h3⟩ h
    refine ⟨_, rfl, ⟨(p, k) :: l, ?_, ?_, ?_⟩, rfl⟩
    · exact List.nodup_cons.2 ⟨fun hm => h ((h2 p k).1 hm), h1⟩
    · intro p' k'
      rw [List.mem_cons, h2, Prod.mk.injEq]
      exact Or.comm
    · simp [h3]
  del_rep := by
    rintro x E p k ⟨l, h1, h2, h3⟩ h
    have hm := (h2 p k).2 h
    obtain ⟨n, hn⟩ : ∃ n, l.length = n + 1 := ⟨l.length - 1, by
      have := List.length_pos_of_mem hm; omega⟩
    refine ⟨{ x with occurrences := n }, ?_, ⟨l.erase (p, k), h1.erase _, ?_, ?_⟩, rfl⟩
    · simp [countOps, h3, hn]
    · intro p' k'
      rw [h1.mem_erase_iff, h2, ne_eq, Prod.mk.injEq]
      exact And.comm
    · rw [List.length_erase_of_mem hm]
      simp [hn]
  isEmpty_rep := by
    rintro x E ⟨l, h1, h2, h3⟩
    simp only [countOps, h3, beq_iff_eq]
    constructor
    · intro hl p k hE
      have := (h2 p k).2 hE
      have := List.length_pos_of_mem this
      omega
    · intro h
      cases l with
      | nil => rfl
      | cons a l => exact absurd ((h2 a.1 a.2).1 (by simp)) (h _ _)

namespace BTreeDataset

variable {R : Type} [Ord R] [Std.TransOrd R] [Std.LawfulEqOrd R]

def WF (d : BTreeDataset R) : Prop :=
  Inv (quadShape R) (countOps R) CountRep d.resources d.resourcesIndexes d.quads d.quadsIndexes

def abs (d : BTreeDataset R) : Quad R → Prop := (quadShape R).abs (countOps R) d.resources d.quads

def sval (d : BTreeDataset R) (k : Nat) : Option (Quad R) :=
  (quadShape R).sval (countOps R) d.resources d.quads k

def Clean (d : BTreeDataset R) : Prop := (countOps R).Clean d.resources d.resourcesIndexes

def Covers (d : BTreeDataset R) : Prop := (countOps R).Covers d.resources d.resourcesIndexes

theorem contains_spec {d : BTreeDataset R} (h : d.WF) (x : Quad R) :
    ∃ b, d.contains x = .ok b ∧ (b = true ↔ d.abs x) := by
  obtain ⟨o, e, -, ho⟩ := Inv.get_spec quadShape_laws h x (quadCmp_compares d.quads x d.quadsIndexes)
  exact ⟨o.isSome, by simp [contains, indexOfQuad, e, bind, Except.bind, pure, Except.pure], ho⟩

theorem insert_spec (rep : Bool) {d : BTreeDataset R} (h : d.WF) (x : Quad R) :
    ∃ d' b, d.insert rep x = .ok (d', b) ∧ d'.WF ∧ (∀ y, d'.abs y ↔ d.abs y ∨ y = x) ∧
      (b = true ↔ ¬ d.abs x) ∧ (b = false → d' = d) ∧
      (d.Covers → d'.Covers) ∧
      (d.Clean → (quadShape R).RepeatsOnly
        (fun r => ∃ y, d.abs y ∧ (quadShape R).Occurs y r) x → d'.Clean) ∧
      (b = true → ∃ q, d'.quads = d.quads.insert q ∧
        ∀ k, d'.sval k = if k = d.quads.vacantKey then some x else d.sval k) := by
  obtain ⟨b, hb, hbi⟩ := contains_spec h x
  cases b with
  | true =>
    have hx := hbi.1 rfl
    refine ⟨d, false, by simp [insert, hb, bind, Except.bind, pure, Except.pure], h, ?_, ?_,
      fun _ => rfl, id, fun hc _ => hc, by simp⟩
    · intro y
      constructor
      · exact Or.inl
      · rintro (hy | rfl)
        · exact hy
        · exact hx
    · simp [hx]
  | false =>
    have hx : ¬ d.abs x := fun e => by simpa using hbi.2 e
    obtain ⟨res', ridx', q, sidx', e1, e2, h1, h2, h3, a⟩ :=
      Inv.insertQuad_spec (countOps_laws R) rep h x hx
    refine ⟨⟨res', d.quads.insert q, ridx', sidx'⟩, true, ?_, h1, h3, by simp [hx], by simp,
      a.covers, ?_, fun _ => ⟨q, rfl, h2⟩⟩
    · simp [insert, hb, e1, e2, bind, Except.bind, pure, Except.pure]
    · intro hc hr
      refine a.clean hc ?_
      intro p p' r hp h1 h2
      obtain ⟨y, hy, ho⟩ := hr p p' r hp h1 h2
      exact Inv.val_of_occurs quadShape_laws hy ho

theorem remove_spec {d : BTreeDataset R} (h : d.WF) (x : Quad R) :
    ∃ d' b, d.remove x = .ok (d', b) ∧ d'.WF ∧ (∀ y, d'.abs y ↔ d.abs y ∧ y ≠ x) ∧
      (b = true ↔ d.abs x) ∧ (b = false → d' = d) ∧ (d.Clean → d'.Clean) ∧
      (b = true → ∃ k, d.sval k = some x ∧ d'.quads = d.quads.erase k ∧
        ∀ n, d'.sval n = if n = k then none else d.sval n) := by
  rcases Inv.removeIndex_spec quadShape_laws h x (quadCmp_compares d.quads x d.quadsIndexes) with
    ⟨k, q, sidx', e, hq, hx, hs, hm⟩ | ⟨e, hx⟩
  · obtain ⟨r1, i1, b1, r2, i2, b2, r3, i3, b3, e1, e2, e3, hn, hg⟩ :=
      Inv.releaseQuad_spec (countOps_laws R) h hq hx
        (fun res => (countOps R).resourceCmp res x.s) (fun res => (countOps R).resourceCmp res x.p)
        (fun res => (countOps R).resourceCmp res x.o)
        (fun g res => (countOps R).resourceIndexCmp res g)
        (cmp_by_value _ _) (cmp_by_value _ _) (cmp_by_value _ _)
        (fun g y _ _ => cmp_by_index g y)
    cases hqg : q.g with
    | none =>
      have rl := hn hqg
      obtain ⟨w, hv, ha⟩ := h.remove_final quadShape_laws (countOps_laws R) hq hx rl.inv
        (fun i p n => Iff.rfl) rl.val hs hm
      refine ⟨⟨r3, d.quads.erase k, i3, sidx'⟩, true, ?_, w, ha, ?_, by simp, rl.clean,
        fun _ => ⟨k, hx, rfl, hv⟩⟩
      · simp [remove, e, Slab.remove_ok hq, e1, e2, e3, hqg, bind, Except.bind, pure, Except.pure]
      · simp only [true_iff]
        exact ⟨k, hx⟩
    | some g =>
      obtain ⟨r4, i4, b4, e4, -, rl⟩ := hg g hqg
      obtain ⟨w, hv, ha⟩ := h.remove_final quadShape_laws (countOps_laws R) hq hx rl.inv
        (fun i p n => Iff.rfl) rl.val hs hm
      refine ⟨⟨r4, d.quads.erase k, i4, sidx'⟩, true, ?_, w, ha, ?_, by simp, rl.clean,
        fun _ => ⟨k, hx, rfl, hv⟩⟩
      · simp [remove, e, Slab.remove_ok hq, e1, e2, e3, e4, hqg, bind, Except.bind, pure,
          Except.pure]
      · simp only [true_iff]
        exact ⟨k, hx⟩
  · refine ⟨d, false, ?_, h, ?_, ?_, by simp, id, by simp⟩
    · simp [remove, e, bind, Except.bind, pure, Except.pure]
    · intro y
      constructor
      · intro hy
        exact ⟨hy, by rintro rfl; exact hx hy⟩
      · exact fun hy => hy.1
    · simp only [Bool.false_eq_true, false_iff]
      exact hx

theorem iter_spec {d : BTreeDataset R} (h : d.WF) :
    ∃ xs, d.iter = .ok xs ∧ Spec.Lists xs d.abs ∧ d.len = xs.length := by
  obtain ⟨xs, h1, h2, h3, h4, -⟩ := Inv.iter_spec quadShape_laws h (f := (countOps R).readQuad d.resources d.quads)
    (fun i x hx => readQuad_eq hx)
  exact ⟨xs, h1, ⟨h2, h3⟩, h4⟩

theorem intoIter_eq {d : BTreeDataset R} (h : d.WF) : d.intoIter = d.iter :=
  drainQuads_eq h.sorted.nodup h.sorted.defined

theorem laws (rep : Bool) : (container rep R).Laws WF abs where
  inv_empty := Inv.empty
  abs_empty := by
    rintro x ⟨k, hk⟩
    simp [Shape.sval, container, new] at hk
  insert d x h := by
    obtain ⟨d', b, h1, h2, h3, h4, h5, -⟩ := insert_spec rep h x
    exact ⟨d', b, h1, h2, h3, h4, h5⟩
  remove d x h := by
    obtain ⟨d', b, h1, h2, h3, h4, h5, -⟩ := remove_spec h x
    exact ⟨d', b, h1, h2, h3, h4, h5⟩
  contains d x h := contains_spec h x
  iter d h := iter_spec h
  intoIter d xs h hx := by
    have := intoIter_eq h
    simp only [container] at hx ⊢
    rw [this, hx]
  isEmpty d := rfl

end BTreeDataset

end RdfTypes
