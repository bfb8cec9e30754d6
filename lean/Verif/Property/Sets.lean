import Verif.Proof.Histories

/-!
# C01–C12: the four containers are sets of statements

`rep` is the choice left open for `RawBTree::insert` on an equal element; every
theorem holds for both values. `R` is any type of resources with a lawful total
order.
-/

set_option linter.unusedSectionVars false

namespace RdfTypes.Property

open Container

variable {R : Type} [Ord R] [Std.TransOrd R] [Std.LawfulEqOrd R]

/-! ## The histories considered -/

/-- Any history of calls on a `BTreeDataset`. -/
abbrev DatasetHistory (rep : Bool) : BTreeDataset R → (Quad R → Prop) → Prop :=
  Spec.Reach (BTreeDataset.container rep R) Spec.anyCall

/-- Any history of calls on a `BTreeGraph`. -/
abbrev GraphHistory (rep : Bool) : BTreeGraph R → (Triple R → Prop) → Prop :=
  Spec.Reach (BTreeGraph.container rep R) Spec.anyCall

/-- Any history of calls on an `IndexedBTreeDataset`, started empty or by
conversion. -/
abbrev IndexedDatasetHistory (rep : Bool) : IndexedBTreeDataset R → (Quad R → Prop) → Prop :=
  Spec.DatasetReach rep Spec.anyCall Spec.anyCall True

/-- Any history of calls on an `IndexedBTreeGraph`, started empty or by
conversion. -/
abbrev IndexedGraphHistory (rep : Bool) : IndexedBTreeGraph R → (Triple R → Prop) → Prop :=
  Spec.GraphReach rep Spec.anyCall Spec.anyCall

section examples

/-- A history of a plain dataset with a removal and a resource in two positions. -/
def sampleOps : List (Op (Quad Nat)) :=
  [.insert ⟨1, 2, 3, none⟩, .extend [⟨1, 1, 2, some 5⟩, ⟨7, 2, 3, some 1⟩],
    .remove ⟨1, 2, 3, none⟩]

/-- The same for a graph. -/
def sampleTripleOps : List (Op (Triple Nat)) :=
  [.insert ⟨1, 2, 3⟩, .extend [⟨1, 1, 2⟩, ⟨7, 2, 3⟩], .remove ⟨1, 2, 3⟩]

/-- The histories of the properties below are inhabited by non-trivial states: any
run from the empty container is one. -/
theorem sample_dataset : ∃ d, (BTreeDataset.container true Nat).run BTreeDataset.new sampleOps
      = .ok d ∧ DatasetHistory true d (Spec.after Spec.nothing sampleOps) := by
  obtain ⟨d, hd, -⟩ := (BTreeDataset.laws true).run_stands (BTreeDataset.laws true).stands_empty
    sampleOps
  exact ⟨d, hd, .run .new hd⟩

theorem sample_graph : ∃ d, (BTreeGraph.container true Nat).run BTreeGraph.new sampleTripleOps
      = .ok d ∧ GraphHistory true d (Spec.after Spec.nothing sampleTripleOps) := by
  obtain ⟨d, hd, -⟩ := (BTreeGraph.laws true).run_stands (BTreeGraph.laws true).stands_empty
    sampleTripleOps
  exact ⟨d, hd, .run .new hd⟩

/-- An indexed dataset obtained by conversion, then changed. -/
theorem sample_indexed_dataset : ∃ (d : IndexedBTreeDataset Nat) (A : Quad Nat → Prop),
    IndexedDatasetHistory true d A ∧
      d.contains ⟨1, 1, 2, some 5⟩ = .ok true ∧ d.contains ⟨9, 9, 9, none⟩ = .ok true := by
  obtain ⟨d0, h0, r0⟩ := sample_dataset
  obtain ⟨d1, e1, w1, -⟩ := IndexedBTreeDataset.fromNonIndexed_spec
    ((BTreeDataset.laws true).reach_stands r0).1
  obtain ⟨d2, b, e2, -⟩ := IndexedBTreeDataset.insert_spec true w1 ⟨9, 9, 9, none⟩
  have h2 : IndexedDatasetHistory true d2 _ :=
    .insert (.convert r0 e1) trivial e2
  have hs := IndexedBTreeDataset.reach_stands h2
  refine ⟨d2, _, h2, ?_, ?_⟩
  · obtain ⟨b, hb, hbi⟩ := (IndexedBTreeDataset.laws true).membership hs ⟨1, 1, 2, some 5⟩
    have : b = true := hbi.2 (by simp [Spec.after, Spec.apply, sampleOps, Spec.nothing])
    rw [← this]
    exact hb
  · obtain ⟨b, hb, hbi⟩ := (IndexedBTreeDataset.laws true).membership hs ⟨9, 9, 9, none⟩
    have : b = true := hbi.2 (by simp)
    rw [← this]
    exact hb

theorem sample_indexed_graph : ∃ (d : IndexedBTreeGraph Nat) (A : Triple Nat → Prop),
    IndexedGraphHistory true d A ∧
      d.contains ⟨1, 1, 2⟩ = .ok true ∧ d.contains ⟨9, 9, 9⟩ = .ok true := by
  obtain ⟨d0, h0, r0⟩ := sample_graph
  obtain ⟨d1, e1, w1, -⟩ := IndexedBTreeGraph.fromNonIndexed_spec
    ((BTreeGraph.laws true).reach_stands r0).1
  obtain ⟨d2, b, e2, -⟩ := IndexedBTreeGraph.insert_spec true w1 ⟨9, 9, 9⟩
  have h2 : IndexedGraphHistory true d2 _ :=
    .insert (.convert r0 e1) trivial e2
  have hs := IndexedBTreeGraph.reach_stands h2
  refine ⟨d2, _, h2, ?_, ?_⟩
  · obtain ⟨b, hb, hbi⟩ := (IndexedBTreeGraph.laws true).membership hs ⟨1, 1, 2⟩
    have : b = true := hbi.2 (by simp [Spec.after, Spec.apply, sampleTripleOps, Spec.nothing])
    rw [← this]
    exact hb
  · obtain ⟨b, hb, hbi⟩ := (IndexedBTreeGraph.laws true).membership hs ⟨9, 9, 9⟩
    have : b = true := hbi.2 (by simp)
    rw [← this]
    exact hb

end examples

/-! ## C01–C04 -/

/-- C01. Any list of calls on an empty `BTreeDataset` runs without panic, and then
`contains` decides membership in the mathematical set obtained by the same
calls. -/
theorem C01_btree_dataset (rep : Bool) (h : List (Op (Quad R))) :
    ∃ d, (BTreeDataset.container rep R).run BTreeDataset.new h = .ok d ∧
      ∀ q, ∃ b, d.contains q = .ok b ∧ (b = true ↔ Spec.after Spec.nothing h q) := by
  obtain ⟨d, hd, hs⟩ := (BTreeDataset.laws rep).run_stands (BTreeDataset.laws rep).stands_empty h
  exact ⟨d, hd, fun q => (BTreeDataset.laws rep).membership hs q⟩

example : ((BTreeDataset.container true Nat).run BTreeDataset.new sampleOps).bind
    (fun d => do
      let a ← d.contains ⟨1, 2, 3, none⟩
      let b ← d.contains ⟨1, 1, 2, some 5⟩
      let c ← d.contains ⟨1, 1, 2, none⟩
      pure (a, b, c)) = .ok (false, true, false) := by decide

/-- C02. The same for `BTreeGraph`. -/
theorem C02_btree_graph (rep : Bool) (h : List (Op (Triple R))) :
    ∃ d, (BTreeGraph.container rep R).run BTreeGraph.new h = .ok d ∧
      ∀ q, ∃ b, d.contains q = .ok b ∧ (b = true ↔ Spec.after Spec.nothing h q) := by
  obtain ⟨d, hd, hs⟩ := (BTreeGraph.laws rep).run_stands (BTreeGraph.laws rep).stands_empty h
  exact ⟨d, hd, fun q => (BTreeGraph.laws rep).membership hs q⟩

example : ((BTreeGraph.container true Nat).run BTreeGraph.new sampleTripleOps).bind
    (fun d => do
      let a ← d.contains ⟨1, 2, 3⟩
      let b ← d.contains ⟨1, 1, 2⟩
      pure (a, b)) = .ok (false, true) := by decide

/-- C03. In any state of an `IndexedBTreeDataset`, whether started empty or by
conversion, `contains` decides membership in the set obtained by the same calls,
and no further mutating call panics (so that every history can be continued). -/
theorem C03_indexed_dataset (rep : Bool) :
    Spec.IsSet (IndexedBTreeDataset.container rep R) (IndexedDatasetHistory rep) ∧
    (∀ (d : IndexedBTreeDataset R) A g, IndexedDatasetHistory rep d A →
      ∃ d' out, d.removeGraph rep g = .ok (d', out)) ∧
    (∀ (d : IndexedBTreeDataset R) A pat cap n, IndexedDatasetHistory rep d A →
      d.quads.entries.length ≤ cap →
      ∃ d' out ended, d.extractPatternMatching cap pat n = .ok (d', out, ended)) := by
  refine ⟨(IndexedBTreeDataset.laws rep).isSet fun d A => IndexedBTreeDataset.reach_stands, ?_, ?_⟩
  · intro d A g h
    obtain ⟨d', out, e, -⟩ := IndexedBTreeDataset.removeGraph_spec rep
      (IndexedBTreeDataset.reach_stands h).1 g
    exact ⟨d', out, e⟩
  · intro d A pat cap n h hcap
    obtain ⟨d', out, ended, e, -⟩ := IndexedBTreeDataset.extractPatternMatching_spec
      (IndexedBTreeDataset.reach_stands h).1 hcap pat n
    exact ⟨d', out, ended, e⟩

example := sample_indexed_dataset

/-- C04. Any list of calls on an empty `IndexedBTreeGraph` runs without panic, and
then `contains` decides membership; the same from a converted graph. -/
theorem C04_indexed_graph (rep : Bool) :
    (∀ h : List (Op (Triple R)),
      ∃ d, (IndexedBTreeGraph.container rep R).run IndexedBTreeGraph.new h = .ok d ∧
        ∀ q, ∃ b, d.contains q = .ok b ∧ (b = true ↔ Spec.after Spec.nothing h q)) ∧
    Spec.IsSet (IndexedBTreeGraph.container rep R) (IndexedGraphHistory rep) := by
  refine ⟨?_, (IndexedBTreeGraph.laws rep).isSet fun d A => IndexedBTreeGraph.reach_stands⟩
  intro h
  obtain ⟨d, hd, hs⟩ := (IndexedBTreeGraph.laws rep).run_stands
    (IndexedBTreeGraph.laws rep).stands_empty h
  exact ⟨d, hd, fun q => (IndexedBTreeGraph.laws rep).membership hs q⟩

example := sample_indexed_graph

/-! ## C05–C12, each for the four containers -/

/-- A claim about containers, made for the four of them. -/
def AllFour (rep : Bool)
    (claim : ∀ {S D : Type} [Ord S], Container S D → (D → (S → Prop) → Prop) → Prop) : Prop :=
  claim (BTreeDataset.container rep R) (DatasetHistory rep) ∧
  claim (BTreeGraph.container rep R) (GraphHistory rep) ∧
  claim (IndexedBTreeDataset.container rep R) (IndexedDatasetHistory rep) ∧
  claim (IndexedBTreeGraph.container rep R) (IndexedGraphHistory rep)

/-- C05. -/
theorem C05_insert_remove_report (rep : Bool) :
    AllFour (R := R) rep (fun c Reach => Spec.ReportsChange c Reach) :=
  ⟨(BTreeDataset.laws rep).reportsChange fun _ _ => (BTreeDataset.laws rep).reach_stands,
    (BTreeGraph.laws rep).reportsChange fun _ _ => (BTreeGraph.laws rep).reach_stands,
    (IndexedBTreeDataset.laws rep).reportsChange fun _ _ => IndexedBTreeDataset.reach_stands,
    (IndexedBTreeGraph.laws rep).reportsChange fun _ _ => IndexedBTreeGraph.reach_stands⟩

example : ((BTreeDataset.container true Nat).run BTreeDataset.new sampleOps).bind
    (fun d => do
      let (_, a) ← d.insert true ⟨1, 1, 2, some 5⟩
      let (_, b) ← d.insert true ⟨1, 2, 3, none⟩
      let (_, c) ← d.remove ⟨7, 2, 3, some 1⟩
      pure (a, b, c)) = .ok (false, true, true) := by decide

/-- C06. -/
theorem C06_iteration (rep : Bool) :
    AllFour (R := R) rep (fun c Reach => Spec.Iterates c Reach) :=
  ⟨(BTreeDataset.laws rep).iterates fun _ _ => (BTreeDataset.laws rep).reach_stands,
    (BTreeGraph.laws rep).iterates fun _ _ => (BTreeGraph.laws rep).reach_stands,
    (IndexedBTreeDataset.laws rep).iterates fun _ _ => IndexedBTreeDataset.reach_stands,
    (IndexedBTreeGraph.laws rep).iterates fun _ _ => IndexedBTreeGraph.reach_stands⟩

example : ((BTreeDataset.container true Nat).run BTreeDataset.new sampleOps).bind
    (fun d => d.iter) = .ok [⟨1, 1, 2, some 5⟩, ⟨7, 2, 3, some 1⟩] := by decide

/-- C07. -/
theorem C07_len (rep : Bool) :
    AllFour (R := R) rep (fun c Reach => Spec.Counts c Reach) :=
  ⟨(BTreeDataset.laws rep).counts fun _ _ => (BTreeDataset.laws rep).reach_stands,
    (BTreeGraph.laws rep).counts fun _ _ => (BTreeGraph.laws rep).reach_stands,
    (IndexedBTreeDataset.laws rep).counts fun _ _ => IndexedBTreeDataset.reach_stands,
    (IndexedBTreeGraph.laws rep).counts fun _ _ => IndexedBTreeGraph.reach_stands⟩

example : ((BTreeGraph.container true Nat).run BTreeGraph.new sampleTripleOps).map
    (fun d => (d.len, d.isEmpty)) = .ok (2, false) := by decide

/-- C08. -/
theorem C08_equality (rep : Bool) :
    AllFour (R := R) rep (fun c Reach => Spec.EqualByContent c Reach) :=
  ⟨(BTreeDataset.laws rep).equalByContent fun _ _ => (BTreeDataset.laws rep).reach_stands,
    (BTreeGraph.laws rep).equalByContent fun _ _ => (BTreeGraph.laws rep).reach_stands,
    (IndexedBTreeDataset.laws rep).equalByContent fun _ _ => IndexedBTreeDataset.reach_stands,
    (IndexedBTreeGraph.laws rep).equalByContent fun _ _ => IndexedBTreeGraph.reach_stands⟩

/-- Two histories with the same content but different internal states. -/
example : (do
      let c := BTreeDataset.container true Nat
      let d ← c.run c.empty sampleOps
      let d' ← c.run c.empty [.extend [⟨7, 2, 3, some 1⟩, ⟨1, 1, 2, some 5⟩]]
      let b ← c.eq c (fun x y => decide (x = y)) d d'
      pure (b, decide (d = d'))) = (.ok (true, false) : Res (Bool × Bool)) := by decide

/-- C09. -/
theorem C09_order (rep : Bool) :
    AllFour (R := R) rep (fun c Reach => Spec.OrderedByContent c Reach) :=
  ⟨(BTreeDataset.laws rep).orderedByContent fun _ _ => (BTreeDataset.laws rep).reach_stands,
    (BTreeGraph.laws rep).orderedByContent fun _ _ => (BTreeGraph.laws rep).reach_stands,
    (IndexedBTreeDataset.laws rep).orderedByContent fun _ _ => IndexedBTreeDataset.reach_stands,
    (IndexedBTreeGraph.laws rep).orderedByContent fun _ _ => IndexedBTreeGraph.reach_stands⟩

example : (do
      let c := BTreeDataset.container true Nat
      let d ← c.run c.empty sampleOps
      let d' ← c.run c.empty [.extend [⟨1, 1, 2, none⟩, ⟨9, 9, 9, none⟩]]
      c.cmp d d') = .ok .gt := by decide

/-- C10. -/
theorem C10_hash (rep : Bool) :
    AllFour (R := R) rep (fun c Reach => Spec.HashedByContent c Reach) :=
  ⟨(BTreeDataset.laws rep).hashedByContent fun _ _ => (BTreeDataset.laws rep).reach_stands,
    (BTreeGraph.laws rep).hashedByContent fun _ _ => (BTreeGraph.laws rep).reach_stands,
    (IndexedBTreeDataset.laws rep).hashedByContent fun _ _ => IndexedBTreeDataset.reach_stands,
    (IndexedBTreeGraph.laws rep).hashedByContent fun _ _ => IndexedBTreeGraph.reach_stands⟩

example : (do
      let c := BTreeDataset.container true Nat
      let h : Quad Nat → List HashWrite := Quad.hashWrites (fun n => [.usize n])
      let d ← c.run c.empty sampleOps
      let d' ← c.run c.empty [.extend [⟨7, 2, 3, some 1⟩, ⟨1, 1, 2, some 5⟩]]
      let w ← c.hash h d
      let w' ← c.hash h d'
      pure (decide (w = w'), w.length)) = (.ok (true, 11) : Res (Bool × Nat)) := by decide

/-- C10, the converse: the writes tell containers of different content apart, if the
writes of resources can be told apart. -/
theorem C10_tells_apart (rep : Bool) :
    AllFour (R := R) rep (fun c Reach => Spec.HashTellsApart c Reach) ∧
    (∀ h : R → List HashWrite, Spec.SelfDelimiting h →
      Spec.SelfDelimiting (Quad.hashWrites h) ∧ Spec.SelfDelimiting (Triple.hashWrites h)) := by
  refine ⟨⟨(BTreeDataset.laws rep).hashTellsApart fun _ _ => (BTreeDataset.laws rep).reach_stands,
    (BTreeGraph.laws rep).hashTellsApart fun _ _ => (BTreeGraph.laws rep).reach_stands,
    (IndexedBTreeDataset.laws rep).hashTellsApart fun _ _ => IndexedBTreeDataset.reach_stands,
    (IndexedBTreeGraph.laws rep).hashTellsApart fun _ _ => IndexedBTreeGraph.reach_stands⟩,
    fun h hh => ⟨?_, ?_⟩⟩
  · rintro ⟨s, p, o, g⟩ ⟨s', p', o', g'⟩ l l' e
    simp only [Quad.hashWrites, List.append_assoc] at e
    obtain ⟨rfl, e1⟩ := hh _ _ _ _ e
    obtain ⟨rfl, e2⟩ := hh _ _ _ _ e1
    obtain ⟨rfl, e3⟩ := hh _ _ _ _ e2
    cases g <;> cases g' <;> simp only [Option.hashWrites, List.cons_append, List.nil_append,
      List.cons.injEq, HashWrite.isize.injEq, true_and, false_and,
      Int.reduceEq] at e3
    · exact ⟨rfl, e3⟩
    · obtain ⟨rfl, e4⟩ := hh _ _ _ _ e3
      exact ⟨rfl, e4⟩
  · rintro ⟨s, p, o⟩ ⟨s', p', o'⟩ l l' e
    simp only [Triple.hashWrites, List.append_assoc] at e
    obtain ⟨rfl, e1⟩ := hh _ _ _ _ e
    obtain ⟨rfl, e2⟩ := hh _ _ _ _ e1
    obtain ⟨rfl, e3⟩ := hh _ _ _ _ e2
    exact ⟨rfl, e3⟩

/-- The hypothesis holds of numbers, which are one write each. -/
example : Spec.SelfDelimiting (fun n : Nat => [HashWrite.usize n]) := by
  intro x y l l' h
  simpa using h

/-- C11. -/
theorem C11_collect (rep : Bool) :
    AllFour (R := R) rep (fun c Reach => Spec.Collects c Reach) :=
  ⟨(BTreeDataset.laws rep).collects fun _ _ => (BTreeDataset.laws rep).reach_stands,
    (BTreeGraph.laws rep).collects fun _ _ => (BTreeGraph.laws rep).reach_stands,
    (IndexedBTreeDataset.laws rep).collects fun _ _ => IndexedBTreeDataset.reach_stands,
    (IndexedBTreeGraph.laws rep).collects fun _ _ => IndexedBTreeGraph.reach_stands⟩

example : (do
      let c := IndexedBTreeGraph.container true Nat
      let d ← c.fromIter [⟨3, 3, 3⟩, ⟨1, 2, 3⟩, ⟨3, 3, 3⟩]
      c.iter d) = .ok [⟨1, 2, 3⟩, ⟨3, 3, 3⟩] := by decide

/-- C12. -/
theorem C12_into_iter (rep : Bool) :
    AllFour (R := R) rep (fun c Reach => Spec.Consumes c Reach) :=
  ⟨(BTreeDataset.laws rep).consumes fun _ _ => (BTreeDataset.laws rep).reach_stands,
    (BTreeGraph.laws rep).consumes fun _ _ => (BTreeGraph.laws rep).reach_stands,
    (IndexedBTreeDataset.laws rep).consumes fun _ _ => IndexedBTreeDataset.reach_stands,
    (IndexedBTreeGraph.laws rep).consumes fun _ _ => IndexedBTreeGraph.reach_stands⟩

example : ((BTreeDataset.container true Nat).run BTreeDataset.new sampleOps).bind
    (fun d => d.intoIter) = .ok [⟨1, 1, 2, some 5⟩, ⟨7, 2, 3, some 1⟩] := by decide

end RdfTypes.Property
