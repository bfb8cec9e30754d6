import Verif.Spec.Indexed
import Verif.Proof.Claims
import Verif.Proof.RemoveGraph
import Verif.Proof.PatternMatching

/-! # States of the indexed containers -/

set_option linter.unusedSectionVars false
set_option linter.unusedSimpArgs false

namespace RdfTypes

open Container

variable {R : Type} [Ord R] [Std.TransOrd R] [Std.LawfulEqOrd R] {rep : Bool}

theorem IndexedBTreeGraph.reach_stands {P₀ P : (Triple R → Prop) → Op (Triple R) → Prop}
    {d : IndexedBTreeGraph R} {A : Triple R → Prop} (h : Spec.GraphReach rep P₀ P d A) :
    Stands IndexedBTreeGraph.WF IndexedBTreeGraph.abs d A := by
  induction h with
  | new => exact (laws rep).stands_empty
  | @convert g A d h e =>
    have hs := (BTreeGraph.laws rep).reach_stands h
    obtain ⟨d', e', w, -, a, -⟩ := fromNonIndexed_spec hs.1
    rw [e] at e'
    cases e'
    exact ⟨w, fun x => by rw [a, hs.2]⟩
  | @insert d A x d' b h _ e ih =>
    obtain ⟨d1, b1, e1, i1, a1, -⟩ := insert_spec rep ih.1 x
    rw [e] at e1
    cases e1
    exact ⟨i1, fun y => by rw [a1, ih.2]⟩
  | @remove d A x d' b h _ e ih =>
    obtain ⟨d1, b1, e1, i1, a1, -⟩ := remove_spec ih.1 x
    rw [e] at e1
    cases e1
    exact ⟨i1, fun y => by rw [a1, ih.2]⟩

theorem IndexedBTreeDataset.returned_iff {d d' : IndexedBTreeDataset R} {g : Option R}
    {out : Option (BTreeGraph R)} (h : GraphRemoved d g d' out) (y : Quad R) :
    Spec.returned g out y ↔ y.g = g ∧ ∃ gr, out = some gr ∧ gr.abs y.intoTriple.1 := by
  unfold Spec.returned
  refine and_congr_right fun _ => exists_congr fun gr => and_congr_right fun hg => ?_
  obtain ⟨b, hb, hbi⟩ := BTreeGraph.contains_spec (h.outWF gr hg) y.intoTriple.1
  rw [hb, ← hbi, Except.ok.injEq]

theorem IndexedBTreeDataset.reach_stands {P₀ P : (Quad R → Prop) → Op (Quad R) → Prop}
    {takes : Prop} {d : IndexedBTreeDataset R} {A : Quad R → Prop}
    (h : Spec.DatasetReach rep P₀ P takes d A) :
    Stands IndexedBTreeDataset.WF IndexedBTreeDataset.abs d A := by
  induction h with
  | new => exact (laws rep).stands_empty
  | @convert g A d h e =>
    have hs := (BTreeDataset.laws rep).reach_stands h
    obtain ⟨d', e', w, -, a, -⟩ := fromNonIndexed_spec hs.1
    rw [e] at e'
    cases e'
    exact ⟨w, fun x => by rw [a, hs.2]⟩
  | @insert d A x d' b h _ e ih =>
    obtain ⟨d1, b1, e1, i1, a1, -⟩ := insert_spec rep ih.1 x
    rw [e] at e1
    cases e1
    exact ⟨i1, fun y => by rw [a1, ih.2]⟩
  | @remove d A x d' b h _ e ih =>
    obtain ⟨d1, b1, e1, i1, a1, -⟩ := remove_spec ih.1 x
    rw [e] at e1
    cases e1
    exact ⟨i1, fun y => by rw [a1, ih.2]⟩
  | @removeGraph d A g d' out h _ e ih =>
    obtain ⟨d1, out1, e1, gr⟩ := removeGraph_spec rep ih.1 g
    rw [e] at e1
    cases e1
    exact ⟨gr.wf, fun y => by simp only [gr.removed, ih.2, returned_iff gr]⟩
  | @extract d A pat cap n d' out ended h _ hcap e ih =>
    obtain ⟨d1, out1, ended1, e1, hr, -⟩ := extractPatternMatching_spec ih.1 hcap pat n
    rw [e] at e1
    cases e1
    exact ⟨hr.wf ih.1, fun y => by rw [hr.abs.1, ih.2]⟩

end RdfTypes
