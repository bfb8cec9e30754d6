import Verif.Property.Sets
import Verif.Proof.Tree

/-!
# C77: no answer depends on the shape of the trees

The crate keeps its indexes in B-trees, which call a comparator on some of the items;
on which ones depends on the shape of the tree. The model of the trees fails if the
comparator panics on any item or if the answers are out of order (`Index.check`).
C01–C04 and the others show that it does not fail; these theorems say what follows.
-/

set_option linter.unusedSectionVars false

namespace RdfTypes.Property

open Container Spec

variable {R : Type} [Ord R] [Std.TransOrd R] [Std.LawfulEqOrd R]

/-- C77. When a search of the model succeeds, every search succeeds, and finds what the
model takes for the result of `get`, `insert` and `remove`. -/
theorem C77_every_search (cmp : Nat → Res Ordering) (l : List Nat) (o : Res (Nat × Bool))
    (ho : Probe cmp l 0 l.length o) :
    (∀ r, Index.get cmp l = .ok r → ∃ n b, o = .ok (n, b) ∧ r = if b then l[n]? else none) ∧
    (∀ rep item l', Index.insert rep cmp item l = .ok l' → ∃ n b, o = .ok (n, b) ∧
      l' = if b then (if rep then l.set n item else l) else l.take n ++ item :: l.drop n) ∧
    (∀ r, Index.remove cmp l = .ok r → ∃ n b, o = .ok (n, b) ∧
      r = if b then (l.eraseIdx n, l[n]?) else (l, none)) := by
  refine ⟨?_, ?_, ?_⟩
  · intro r h
    obtain ⟨hc, h⟩ := Index.check_cases h
    obtain ⟨n, b, hl⟩ := Index.check_lands hc
    refine ⟨n, b, hl.probe ho (Nat.zero_le _) hl.le hl.found, ?_⟩
    rw [hl.getFrom] at h
    cases h
    rfl
  · intro rep item l' h
    obtain ⟨hc, h⟩ := Index.check_cases h
    obtain ⟨n, b, hl⟩ := Index.check_lands hc
    refine ⟨n, b, hl.probe ho (Nat.zero_le _) hl.le hl.found, ?_⟩
    rw [hl.insertFrom] at h
    cases h
    rfl
  · intro r h
    obtain ⟨hc, h⟩ := Index.check_cases h
    obtain ⟨n, b, hl⟩ := Index.check_lands hc
    refine ⟨n, b, hl.probe ho (Nat.zero_le _) hl.le hl.found, ?_⟩
    rw [hl.removeFrom] at h
    cases h
    rfl

/-- Among items in order all searches end at the same place. -/
theorem C77_one_place {cmp : Nat → Res Ordering} {l : List Nat} (h : InOrder cmp l) :
    ∃ n b, Probe cmp l 0 l.length (.ok (n, b)) ∧
      ∀ o, Probe cmp l 0 l.length o → o = .ok (n, b) := by
  obtain ⟨n, b, hl⟩ := Index.check_lands (Index.check_iff.2 h)
  refine ⟨n, b, ?_, fun o ho => hl.probe ho (Nat.zero_le _) hl.le hl.found⟩
  obtain ⟨o, ho⟩ := probe_exists cmp l 0 l.length (Nat.zero_le _) (Nat.le_refl _)
  rwa [hl.probe ho (Nat.zero_le _) hl.le hl.found] at ho

/-- After any history, whatever is looked for, the comparator answers on all the items of
the two indexes of each container, in order. -/
theorem C77_in_order (rep : Bool) :
    (∀ (d : BTreeDataset R) A, DatasetHistory rep d A →
      (∀ r, InOrder ((countOps R).resourceCmp d.resources r) d.resourcesIndexes) ∧
      ∀ x, InOrder ((countOps R).quadCmp d.resources d.quads x) d.quadsIndexes) ∧
    (∀ (d : BTreeGraph R) A, GraphHistory rep d A →
      (∀ r, InOrder ((countOps R).resourceCmp d.resources r) d.resourcesIndexes) ∧
      ∀ x, InOrder ((countOps R).tripleCmp d.resources d.triples x) d.triplesIndexes) ∧
    (∀ (d : IndexedBTreeDataset R) A, IndexedDatasetHistory rep d A →
      (∀ r, InOrder ((indexOps R).resourceCmp d.resources r) d.resourcesIndexes) ∧
      ∀ x, InOrder ((indexOps R).quadCmp d.resources d.quads x) d.quadsIndexes) ∧
    (∀ (d : IndexedBTreeGraph R) A, IndexedGraphHistory rep d A →
      (∀ r, InOrder ((indexOps R).resourceCmp d.resources r) d.resourcesIndexes) ∧
      ∀ x, InOrder ((indexOps R).tripleCmp d.resources d.triples x) d.triplesIndexes) := by
  refine ⟨?_, ?_, ?_, ?_⟩ <;> intro d A h
  · have w := ((BTreeDataset.laws rep).reach_stands h).1
    exact ⟨fun r => Index.check_iff.1 (Index.check_ok w.table.sorted (ResInv.resourceCmp_compares _ r _)),
      fun x => Index.check_iff.1 (Index.check_ok w.sorted (quadCmp_compares _ x _))⟩
  · have w := ((BTreeGraph.laws rep).reach_stands h).1
    exact ⟨fun r => Index.check_iff.1 (Index.check_ok w.table.sorted (ResInv.resourceCmp_compares _ r _)),
      fun x => Index.check_iff.1 (Index.check_ok w.sorted (tripleCmp_compares _ x _))⟩
  · have w := (IndexedBTreeDataset.reach_stands h).1.inv
    exact ⟨fun r => Index.check_iff.1 (Index.check_ok w.table.sorted (ResInv.resourceCmp_compares _ r _)),
      fun x => Index.check_iff.1 (Index.check_ok w.sorted (quadCmp_compares _ x _))⟩
  · have w := (IndexedBTreeGraph.reach_stands h).1.inv
    exact ⟨fun r => Index.check_iff.1 (Index.check_ok w.table.sorted (ResInv.resourceCmp_compares _ r _)),
      fun x => Index.check_iff.1 (Index.check_ok w.sorted (tripleCmp_compares _ x _))⟩

/-- A search from the middle of four items. -/
example : Probe (fun i => .ok (compare i 7)) [1, 5, 7, 8] 0 4 (.ok (2, true)) :=
  .smaller (m := 1) (i := 5) (by decide) (by decide) rfl (by decide)
    (.greater (m := 3) (i := 8) (by decide) (by decide) rfl (by decide)
      (.equal (m := 2) (i := 7) (by decide) (by decide) rfl (by decide)))

example : Index.remove (fun i => .ok (compare i 7)) [1, 5, 7, 8] = .ok ([1, 5, 8], some 7) := by
  decide

/-- Out of order, two searches disagree, and the model fails. -/
example : Probe (fun i => .ok (compare i 7)) [8, 7] 0 2 (.ok (0, false)) ∧
    Probe (fun i => .ok (compare i 7)) [8, 7] 0 2 (.ok (1, true)) ∧
    Index.get (fun i => .ok (compare i 7)) [8, 7] = .error .disorder :=
  ⟨.greater (m := 0) (i := 8) (by decide) (by decide) rfl (by decide) .absent,
    .equal (m := 1) (i := 7) (by decide) (by decide) rfl (by decide), by decide⟩

/-- In the plain dataset of `sample_dataset`, which had a removal. -/
example : ∃ d : BTreeDataset Nat,
    (BTreeDataset.container true Nat).run BTreeDataset.new sampleOps = .ok d ∧
    ∀ x, ∃ n b, ∀ o, Probe ((countOps Nat).quadCmp d.resources d.quads x) d.quadsIndexes 0
      d.quadsIndexes.length o → o = .ok (n, b) := by
  obtain ⟨d, e, hd⟩ := sample_dataset
  refine ⟨d, e, fun x => ?_⟩
  obtain ⟨n, b, -, h⟩ := C77_one_place (((C77_in_order true).1 d _ hd).2 x)
  exact ⟨n, b, h⟩

/-- Whatever the search, 6 goes between 5 and 7. -/
example (o : Res (Nat × Bool)) (ho : Probe (fun i => .ok (compare i 6)) [1, 5, 7, 8] 0 4 o) :
    ∃ n b, o = .ok (n, b) ∧ [1, 5, 6, 7, 8] = if b then [1, 5, 7, 8].set n 6 else
      [1, 5, 7, 8].take n ++ 6 :: [1, 5, 7, 8].drop n := by
  obtain ⟨n, b, e, h⟩ := (C77_every_search _ _ _ ho).2.1 true 6 [1, 5, 6, 7, 8] (by decide)
  exact ⟨n, b, e, by simpa using h⟩

end RdfTypes.Property
