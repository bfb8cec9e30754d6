import Verif.Property.Resources
import Verif.Property.Patterns
import Verif.Proof.Traits

/-!
# C20–C23 and C25–C27: pattern matching

The code violates C21, the completeness part of C22 and C23, C25 and C26; each is
refuted by a concrete history (`_false`), for both values of `rep`, and proved for
the histories and patterns the defects do not reach (`_partial`).
-/

set_option linter.unusedSectionVars false

namespace RdfTypes.Property

open Container Spec

variable {R : Type} [Ord R] [Std.TransOrd R] [Std.LawfulEqOrd R]

abbrev matchQuads (cap : Nat) (d : IndexedBTreeDataset R) (pat : CanonicalQuadPattern R) :=
  d.patternMatching cap pat

abbrev matchTriples (cap : Nat) (d : IndexedBTreeGraph R) (pat : CanonicalTriplePattern R) :=
  d.patternMatching cap pat

abbrev matchListed (cap : Nat) (d : IndexedBTreeDataset R) (pat : CanonicalQuadPattern (List R)) :=
  d.multiPatternMatching cap pat

/-- States with as many statements as the container ever had, reached by inserting a
resource at two positions of a statement only when it already occurs. -/
abbrev DatasetAtPeak (rep : Bool) (d : IndexedBTreeDataset R) (A : Quad R → Prop) : Prop :=
  DatasetPeak rep knownRepeats d A d.len

abbrev GraphAtPeak (rep : Bool) (d : IndexedBTreeGraph R) (A : Triple R → Prop) : Prop :=
  GraphPeak rep knownTripleRepeats d A d.len

section samples

/-- A history that leaves the first slot vacant. -/
def holeOps : List (Op (Quad Nat)) :=
  [.insert ⟨1, 2, 3, none⟩, .insert ⟨4, 5, 6, some 7⟩, .remove ⟨1, 2, 3, none⟩]

def holeTripleOps : List (Op (Triple Nat)) :=
  [.insert ⟨1, 2, 3⟩, .insert ⟨4, 5, 6⟩, .remove ⟨1, 2, 3⟩]

/-- The vacant slot is filled again. -/
def refillOps : List (Op (Quad Nat)) := holeOps ++ [.insert ⟨4, 5, 4, none⟩]

/-- What running a list of calls and then looking at the state gives. -/
theorem dataset_run (rep : Bool) {l : List (Op (Quad Nat))} (ha : Allowed anyCall nothing l) :
    ∃ d, IndexedDatasetHistory rep d (after nothing l) ∧ ∀ {X : Type}
      (look : IndexedBTreeDataset Nat → Res X) (v : Res X), ((IndexedBTreeDataset.container rep Nat).run
        IndexedBTreeDataset.new l).bind look = v → look d = v := by
  obtain ⟨d, e, hd⟩ := IndexedBTreeDataset.run_reach rep anyCall True ha
  exact ⟨d, hd, fun look v h => by rw [e] at h; exact h⟩

theorem graph_run (rep : Bool) {l : List (Op (Triple Nat))} (ha : Allowed anyCall nothing l) :
    ∃ d, IndexedGraphHistory rep d (after nothing l) ∧ ∀ {X : Type}
      (look : IndexedBTreeGraph Nat → Res X) (v : Res X), ((IndexedBTreeGraph.container rep Nat).run
        IndexedBTreeGraph.new l).bind look = v → look d = v := by
  obtain ⟨d, e, hd⟩ := IndexedBTreeGraph.run_reach rep anyCall ha
  exact ⟨d, hd, fun look v h => by rw [e] at h; exact h⟩

end samples

/-! ## C20 -/

/-- C20. After any history and for any canonical pattern, `pattern_matching` on an
indexed container ends without panic and yields only contained statements that
match, each at most once. -/
theorem C20_sound (rep : Bool) :
    YieldsOnly (IndexedDatasetHistory (R := R) rep) datasetSlots matchQuads matchesQuad ∧
    YieldsOnly (IndexedGraphHistory (R := R) rep) graphSlots matchTriples matchesTriple := by
  refine ⟨?_, ?_⟩
  · intro d A h cap hcap pat
    obtain ⟨xs, e, hf⟩ :=
      IndexedBTreeDataset.found (IndexedBTreeDataset.reach_stands h) hcap pat
    exact ⟨xs, e, hf.nodup, hf.sound⟩
  · intro d A h cap hcap pat
    obtain ⟨xs, e, hf⟩ := IndexedBTreeGraph.found (IndexedBTreeGraph.reach_stands h) hcap pat
    exact ⟨xs, e, hf.nodup, hf.sound⟩

example : ((IndexedBTreeDataset.container true Nat).run IndexedBTreeDataset.new refillOps).bind
    (fun d => matchQuads 8 d (.anySubject (.givenPredicate 5 (.anyObject .anyGraph))))
    = .ok [⟨4, 5, 4, none⟩, ⟨4, 5, 6, some 7⟩] := by decide

/-! ## C21 -/

/-- C21 is false of both indexed containers. After `holeOps`, the pattern with no
constraint yields nothing although a statement is left; after inserting a statement
with a new resource as subject and predicate, the pattern "predicate same as
subject" yields nothing. -/
theorem C21_false (rep : Bool) :
    Misses (IndexedDatasetHistory (R := Nat) rep) datasetSlots matchQuads matchesQuad
      (.anySubject (.anyPredicate (.anyObject .anyGraph))) ∧
    Misses (IndexedGraphHistory (R := Nat) rep) graphSlots matchTriples matchesTriple
      (.anySubject (.anyPredicate .anyObject)) ∧
    Misses (IndexedDatasetHistory (R := Nat) rep) datasetSlots matchQuads matchesQuad
      (.anySubject (.sameAsSubject (.anyObject .anyGraph))) ∧
    Misses (IndexedGraphHistory (R := Nat) rep) graphSlots matchTriples matchesTriple
      (.anySubject (.sameAsSubject .anyObject)) := by
  refine ⟨?_, ?_, ?_, ?_⟩
  · obtain ⟨d, hd, hr⟩ := dataset_run rep (l := holeOps) (by simp [Allowed, holeOps, anyCall])
    refine ⟨d, _, ⟨4, 5, 6, some 7⟩, hd, by simp [after, apply, holeOps], trivial,
      fun cap hcap => ⟨[], ?_, by simp⟩⟩
    cases cap with
    | zero => refine hr (matchQuads _ · _) _ ?_; cases rep <;> with_unfolding_all rfl
    | succ n => refine hr (matchQuads _ · _) _ ?_; cases rep <;> with_unfolding_all rfl
  · obtain ⟨d, hd, hr⟩ := graph_run rep (l := holeTripleOps)
      (by simp [Allowed, holeTripleOps, anyCall])
    refine ⟨d, _, ⟨4, 5, 6⟩, hd, by simp [after, apply, holeTripleOps], trivial,
      fun cap hcap => ⟨[], ?_, by simp⟩⟩
    cases cap with
    | zero => refine hr (matchTriples _ · _) _ ?_; cases rep <;> with_unfolding_all rfl
    | succ n => refine hr (matchTriples _ · _) _ ?_; cases rep <;> with_unfolding_all rfl
  · obtain ⟨d, hd, hr⟩ := dataset_run rep (l := forgetOps.take 1)
      (by simp [Allowed, forgetOps, anyCall])
    refine ⟨d, _, ⟨1, 1, 2, none⟩, hd, by simp [after, apply, forgetOps], ⟨rfl, trivial⟩,
      fun cap hcap => ⟨[], ?_, by simp⟩⟩
    match cap with
    | 0 => refine hr (matchQuads _ · _) _ ?_; cases rep <;> with_unfolding_all rfl
    | 1 => refine hr (matchQuads _ · _) _ ?_; cases rep <;> with_unfolding_all rfl
    | n + 2 => refine hr (matchQuads _ · _) _ ?_; cases rep <;> with_unfolding_all rfl
  · obtain ⟨d, hd, hr⟩ := graph_run rep (l := forgetTripleOps.take 1)
      (by simp [Allowed, forgetTripleOps, anyCall])
    refine ⟨d, _, ⟨1, 1, 2⟩, hd, by simp [after, apply, forgetTripleOps], ⟨rfl, trivial⟩,
      fun cap hcap => ⟨[], ?_, by simp⟩⟩
    match cap with
    | 0 => refine hr (matchTriples _ · _) _ ?_; cases rep <;> with_unfolding_all rfl
    | 1 => refine hr (matchTriples _ · _) _ ?_; cases rep <;> with_unfolding_all rfl
    | n + 2 => refine hr (matchTriples _ · _) _ ?_; cases rep <;> with_unfolding_all rfl

theorem dataset_exact {rep : Bool} {takes : Prop} {d : IndexedBTreeDataset R} {A : Quad R → Prop}
    (h : IndexedDatasetHistoryOf rep knownRepeats takes d A) : d.Clean :=
  IndexedBTreeDataset.reach_clean (fun _ _ h => h) (fun _ _ h => h) h

theorem graph_exact {rep : Bool} {d : IndexedBTreeGraph R} {A : Triple R → Prop}
    (h : IndexedGraphHistoryOf rep knownTripleRepeats d A) : d.Clean :=
  IndexedBTreeGraph.reach_clean (fun _ _ h => h) (fun _ _ h => h) h

theorem dataset_peak {rep : Bool} {d : IndexedBTreeDataset R} {A : Quad R → Prop}
    (h : DatasetAtPeak rep d A) :
    Stands IndexedBTreeDataset.WF IndexedBTreeDataset.abs d A ∧ d.Clean ∧ d.Dense :=
  ⟨IndexedBTreeDataset.reach_stands h.reach, dataset_exact h.reach,
    IndexedBTreeDataset.peak_dense h rfl⟩

theorem graph_peak {rep : Bool} {d : IndexedBTreeGraph R} {A : Triple R → Prop}
    (h : GraphAtPeak rep d A) :
    Stands IndexedBTreeGraph.WF IndexedBTreeGraph.abs d A ∧ d.Clean ∧ d.Dense :=
  ⟨IndexedBTreeGraph.reach_stands h.reach, graph_exact h.reach, IndexedBTreeGraph.peak_dense h rfl⟩

/-- C21 for patterns that give the subject, after histories that insert a resource at
two positions of a statement only when it already occurs. Missing: other
histories and, unless the container is at its largest size, other patterns. -/
theorem C21_given_subject_partial (rep : Bool) (takes : Prop) :
    YieldsAll (IndexedDatasetHistoryOf (R := R) rep knownRepeats takes) datasetSlots matchQuads
      matchesQuad givesSubject ∧
    YieldsAll (IndexedGraphHistoryOf (R := R) rep knownTripleRepeats) graphSlots matchTriples
      matchesTriple tripleGivesSubject := by
  refine ⟨?_, ?_⟩
  · intro d A h cap hcap pat hp y hy hw
    obtain ⟨xs, e, hf⟩ := IndexedBTreeDataset.found (IndexedBTreeDataset.reach_stands h) hcap pat
    exact ⟨xs, e, hf.complete ⟨dataset_exact h, Or.inl hp⟩ y hy hw⟩
  · intro d A h cap hcap pat hp y hy hw
    obtain ⟨xs, e, hf⟩ := IndexedBTreeGraph.found (IndexedBTreeGraph.reach_stands h) hcap pat
    exact ⟨xs, e, hf.complete ⟨graph_exact h, Or.inl hp⟩ y hy hw⟩

example : ∃ xs, matchQuads 3 Case.indexedDataset
      (.givenSubject 1 (.anyPredicate (.anyObject .anyGraph))) = .ok xs ∧
    ⟨1, 2, 4, some 9⟩ ∈ xs :=
  (C21_given_subject_partial true True).1 _ _ (Case.indexedDataset_reached Case.known_quads) 3
    (by decide +kernel) (.givenSubject 1 (.anyPredicate (.anyObject .anyGraph))) trivial
    ⟨1, 2, 4, some 9⟩ (by decide) ⟨rfl, trivial⟩

/-- C21 for all patterns, when the container has as many statements as it ever had
(as after insertions only), under the same restriction on insertions. -/
theorem C21_at_peak_partial (rep : Bool) :
    YieldsAll (DatasetAtPeak (R := R) rep) datasetSlots matchQuads matchesQuad (fun _ => True) ∧
    YieldsAll (GraphAtPeak (R := R) rep) graphSlots matchTriples matchesTriple (fun _ => True) := by
  refine ⟨?_, ?_⟩
  · intro d A h cap hcap pat hp y hy hw
    obtain ⟨hs, hc, hd⟩ := dataset_peak h
    obtain ⟨xs, e, hf⟩ := IndexedBTreeDataset.found hs hcap pat
    exact ⟨xs, e, hf.complete ⟨hc, Or.inr hd⟩ y hy hw⟩
  · intro d A h cap hcap pat hp y hy hw
    obtain ⟨hs, hc, hd⟩ := graph_peak h
    obtain ⟨xs, e, hf⟩ := IndexedBTreeGraph.found hs hcap pat
    exact ⟨xs, e, hf.complete ⟨hc, Or.inr hd⟩ y hy hw⟩

example : ∃ xs, matchTriples 3 Case.indexedGraph
      (.anySubject (.anyPredicate (.givenObject 3))) = .ok xs ∧ ⟨5, 2, 3⟩ ∈ xs :=
  (C21_at_peak_partial true).2 _ _ Case.indexedGraph_peak 3 (by decide +kernel) _ trivial
    ⟨5, 2, 3⟩ (by decide) rfl

/-- `refillOps` has removals and leaves the dataset at its largest size. -/
theorem sample_peak : ∃ d A, DatasetAtPeak (R := Nat) true d A ∧ A ⟨4, 5, 4, none⟩ ∧
    matchQuads 8 d (.anySubject (.anyPredicate (.sameAsSubject .anyGraph)))
      = .ok [⟨4, 5, 4, none⟩] := by
  have h0 : ∀ l : List (Op (Quad Nat)), Allowed (both insertOnly knownRepeats) nothing l →
      ∃ d, (IndexedBTreeDataset.container true Nat).run IndexedBTreeDataset.new l = .ok d ∧
        DatasetPeak true knownRepeats d (after nothing l) d.len := fun l hl => by
    obtain ⟨d, e, hd⟩ := IndexedBTreeDataset.run_reach true (both insertOnly knownRepeats) False hl
    exact ⟨d, e, .start hd⟩
  obtain ⟨d, e, hd⟩ := h0 (holeOps.take 2) (by
    simp only [holeOps, List.take, Allowed, both, insertOnly, knownRepeats, apply, nothing,
      quadRepeats, quadHas]
    refine ⟨⟨trivial, ?_⟩, ⟨trivial, ?_⟩, trivial⟩ <;>
    · intro r hr
      simp at hr
      omega)
  obtain ⟨d1, b1, e1, -⟩ := IndexedBTreeDataset.remove_spec
    (IndexedBTreeDataset.reach_stands hd.reach).1 ⟨1, 2, 3, none⟩
  have hd1 := hd.remove trivial e1
  obtain ⟨d2, b2, e2, -⟩ := IndexedBTreeDataset.insert_spec true
    (IndexedBTreeDataset.reach_stands hd1.reach).1 ⟨4, 5, 4, none⟩
  have hd2 := hd1.insert (by
    intro r hr
    refine ⟨⟨4, 5, 6, some 7⟩, by simp [after, apply, holeOps], ?_⟩
    simp [quadRepeats, quadHas] at hr ⊢
    omega) e2
  have hl : ((IndexedBTreeDataset.container true Nat).run IndexedBTreeDataset.new
      (holeOps.take 2)).bind (fun d => do
        let (d1, _) ← d.remove ⟨1, 2, 3, none⟩
        let (d2, _) ← d1.insert true ⟨4, 5, 4, none⟩
        let m ← matchQuads 8 d2 (.anySubject (.anyPredicate (.sameAsSubject .anyGraph)))
        pure (d.len, d2.len, m)) = .ok (2, 2, [⟨4, 5, 4, none⟩]) := by decide
  rw [e] at hl
  simp only [Except.bind, e1, e2, bind] at hl
  obtain ⟨m, hm, hl⟩ := ok_of_bind hl
  simp only [pure, Except.pure, Except.ok.injEq, Prod.mk.injEq] at hl
  obtain ⟨h1, h2, rfl⟩ := hl
  rw [h1, h2] at hd2
  rw [show max 2 2 = d2.len by rw [h2]; rfl] at hd2
  exact ⟨d2, _, hd2, Or.inr rfl, hm⟩

/-! ## C22 -/

theorem IndexedBTreeDataset.foundListed {d : IndexedBTreeDataset R} {A : Quad R → Prop}
    (hs : Stands IndexedBTreeDataset.WF IndexedBTreeDataset.abs d A) {cap : Nat}
    (hcap : datasetSlots d ≤ cap) (pat : CanonicalQuadPattern (List R)) :
    ∃ xs, matchListed cap d pat = .ok xs ∧ xs.Nodup ∧ (∀ y ∈ xs, A y ∧ matchesListed pat y) ∧
      (d.Clean → givesSubject pat ∨ d.Dense → ∀ y, A y → matchesListed pat y → y ∈ xs) := by
  obtain ⟨xs, e, h1, h2, h3⟩ := IndexedBTreeDataset.multiPatternMatching_spec hs.1 hcap pat
  simp only [partsIn_listed] at h2 h3
  refine ⟨xs, e, h1, fun y hy => ⟨(hs.2 y).1 (h2 y hy).1, (h2 y hy).2⟩, fun hc hp y hy hw => ?_⟩
  refine h3 hc (hp.imp_left ?_) y ((hs.2 y).2 hy) hw
  cases pat <;> simp [givesSubject, CanonicalQuadPattern.subject]

/-- C22, without completeness: after any history and for any pattern over lists,
`multi_pattern_matching` ends without panic and yields only contained quads that
match with one of the listed resources at each given position, each at most once.
Missing: that it yields all of them, which is false (`C22_false`). -/
theorem C22_sound_partial (rep : Bool) :
    YieldsOnly (IndexedDatasetHistory (R := R) rep) datasetSlots matchListed matchesListed := by
  intro d A h cap hcap pat
  obtain ⟨xs, e, h1, h2, -⟩ :=
    IndexedBTreeDataset.foundListed (IndexedBTreeDataset.reach_stands h) hcap pat
  exact ⟨xs, e, h1, h2⟩

example : ∃ xs, matchListed 3 Case.indexedDataset
      (.anySubject (.anyPredicate (.givenObject [3, 4] (.givenGraph (some [9]))))) = .ok xs ∧
    xs.Nodup ∧ ∀ y ∈ xs, y ∈ Case.quads ∧ y.o ∈ [3, 4] ∧ ∃ g ∈ [9], y.g = some g :=
  C22_sound_partial true _ _ (Case.indexedDataset_reached Case.any_quads) 3 (by decide +kernel) _

/-- The completeness part of C22 is false, as for `C21_false`. -/
theorem C22_false (rep : Bool) :
    Misses (IndexedDatasetHistory (R := Nat) rep) datasetSlots matchListed matchesListed
      (.anySubject (.givenPredicate [5] (.anyObject .anyGraph))) := by
  obtain ⟨d, hd, hr⟩ := dataset_run rep (l := holeOps) (by simp [Allowed, holeOps, anyCall])
  refine ⟨d, _, ⟨4, 5, 6, some 7⟩, hd, by simp [after, apply, holeOps],
    ⟨by simp, trivial⟩, fun cap hcap => ⟨[], ?_, by simp⟩⟩
  cases cap with
  | zero => refine hr (matchListed _ · _) _ ?_; cases rep <;> with_unfolding_all rfl
  | succ n => refine hr (matchListed _ · _) _ ?_; cases rep <;> with_unfolding_all rfl

/-- The completeness part of C22 for the histories and patterns of
`C21_given_subject_partial` and `C21_at_peak_partial`. -/
theorem C22_complete_partial (rep : Bool) (takes : Prop) :
    YieldsAll (IndexedDatasetHistoryOf (R := R) rep knownRepeats takes) datasetSlots matchListed
      matchesListed givesSubject ∧
    YieldsAll (DatasetAtPeak (R := R) rep) datasetSlots matchListed matchesListed
      (fun _ => True) := by
  refine ⟨?_, ?_⟩
  · intro d A h cap hcap pat hp y hy hw
    obtain ⟨xs, e, -, -, h3⟩ :=
      IndexedBTreeDataset.foundListed (IndexedBTreeDataset.reach_stands h) hcap pat
    exact ⟨xs, e, h3 (dataset_exact h) (Or.inl hp) y hy hw⟩
  · intro d A h cap hcap pat hp y hy hw
    obtain ⟨hs, hc, hd⟩ := dataset_peak h
    obtain ⟨xs, e, -, -, h3⟩ := IndexedBTreeDataset.foundListed hs hcap pat
    exact ⟨xs, e, h3 hc (Or.inr hd) y hy hw⟩

example : ((IndexedBTreeDataset.container true Nat).run IndexedBTreeDataset.new refillOps).bind
    (fun d => matchListed 8 d
      (.givenSubject [9, 4, 1, 4] (.anyPredicate (.givenObject [6, 4, 6] .anyGraph))))
    = .ok [⟨4, 5, 4, none⟩, ⟨4, 5, 6, some 7⟩] := by decide

/-! ## C23 -/

/-- C23, without its last sentence: after any history and for any pattern and number
of items taken, extraction does not panic and ends, what it yields is contained and
matches, each quad once, and is exactly what disappears from the dataset.
Missing: that no quad left matches, which is false (`C23_false`). -/
theorem C23_extracts_partial (rep : Bool) :
    ExtractsOnly (IndexedDatasetHistory (R := R) rep) := by
  intro d A h cap hcap pat n
  have hs := IndexedBTreeDataset.reach_stands h
  obtain ⟨d', xs, ended, e, hr, hm, hl, hle, hc, -⟩ :=
    IndexedBTreeDataset.extractPatternMatching_spec hs.1 hcap pat n
  obtain ⟨h1, h2, h3⟩ := hr.abs
  refine ⟨d', xs, ended, e, h2, fun y hy => ⟨(hs.2 y).1 (h3 y hy), hm y hy⟩, ?_, hle, hl, ?_⟩
  · intro y
    obtain ⟨b, eb, hb⟩ := IndexedBTreeDataset.contains_spec (hr.wf hs.1) y
    exact ⟨b, eb, by rw [hb, h1, hs.2]⟩
  · intro hn
    cases ended with
    | true => rfl
    | false => have := hl rfl; omega

example : ∃ d' xs ended, Case.indexedDataset.extractPatternMatching 3
      (.anySubject (.anyPredicate (.givenObject 3 .anyGraph))) 1 = .ok (d', xs, ended) ∧
    xs.Nodup ∧ (∀ y ∈ xs, y ∈ Case.quads ∧ y.o = 3 ∧ True) ∧
    (∀ y, ∃ b, d'.contains y = .ok b ∧ (b = true ↔ y ∈ Case.quads ∧ y ∉ xs)) ∧
    xs.length ≤ 1 ∧ (ended = false → xs.length = 1) ∧ (3 < 1 → ended = true) :=
  C23_extracts_partial true _ _ (Case.indexedDataset_reached Case.any_quads) 3
    (by decide +kernel) _ 1

/-- After `holeOps`, extracting everything takes nothing. -/
theorem C23_false (rep : Bool) : ¬ ExtractsAll (IndexedDatasetHistory (R := Nat) rep)
    (fun pat => pat = .anySubject (.anyPredicate (.anyObject .anyGraph))) := by
  intro h
  obtain ⟨d, hd, hr⟩ := dataset_run rep (l := holeOps) (by simp [Allowed, holeOps, anyCall])
  obtain ⟨d', xs, ended, e, -, -, h4, -⟩ := C23_extracts_partial rep d _ hd _ (Nat.le_refl _)
    (.anySubject (.anyPredicate (.anyObject .anyGraph))) 1
  have h1 : (do
      let (_, xs, ended) ← d.extractPatternMatching (datasetSlots d)
        (.anySubject (.anyPredicate (.anyObject .anyGraph))) 1
      pure (xs, ended)) = Except.ok (ε := Panic) ([], true) :=
    hr (fun d => do
      let (_, xs, ended) ← d.extractPatternMatching (datasetSlots d)
        (.anySubject (.anyPredicate (.anyObject .anyGraph))) 1
      pure (xs, ended)) _ (by cases rep <;> decide)
  rw [e] at h1
  simp only [bind, Except.bind, pure, Except.pure, Except.ok.injEq, Prod.mk.injEq] at h1
  obtain ⟨rfl, rfl⟩ := h1
  obtain ⟨b, eb, hb⟩ := h4 ⟨4, 5, 6, some 7⟩
  have : b = true := hb.2 ⟨by simp [after, apply, holeOps], by simp⟩
  subst this
  exact h d _ hd _ (Nat.le_refl _) _ rfl 1 d' [] e _ eb trivial

/-- The last sentence of C23 for the histories and patterns of
`C21_given_subject_partial` and `C21_at_peak_partial`. -/
theorem C23_nothing_left_partial (rep : Bool) (takes : Prop) :
    ExtractsAll (IndexedDatasetHistoryOf (R := R) rep knownRepeats takes) givesSubject ∧
    ExtractsAll (DatasetAtPeak (R := R) rep) (fun _ => True) := by
  have key : ∀ (d : IndexedBTreeDataset R) A,
      Stands IndexedBTreeDataset.WF IndexedBTreeDataset.abs d A → d.Clean → ∀ pat,
      givesSubject pat ∨ d.Dense → ∀ cap, datasetSlots d ≤ cap → ∀ n d' xs,
      d.extractPatternMatching cap pat n = .ok (d', xs, true) →
      ∀ y, d'.contains y = .ok true → ¬ matchesQuad pat y := by
    intro d A hs hc pat hp cap hcap n d' xs e y hy hw
    obtain ⟨d1, xs1, ended, e1, hr, -, -, -, -, h5⟩ :=
      IndexedBTreeDataset.extractPatternMatching_spec hs.1 hcap pat n
    cases Except.ok.inj (e1.symm.trans e)
    obtain ⟨b, eb, hb⟩ := IndexedBTreeDataset.contains_spec (hr.wf hs.1) y
    cases Except.ok.inj (eb.symm.trans hy)
    obtain ⟨h1, h2⟩ := (hr.abs.1 y).1 (hb.1 rfl)
    refine h2 (h5 hc (hp.imp_left ?_) rfl y h1 hw)
    cases pat <;> simp [givesSubject, CanonicalQuadPattern.subject]
  refine ⟨?_, ?_⟩
  · intro d A h cap hcap pat hp
    exact key d A (IndexedBTreeDataset.reach_stands h) (dataset_exact h) pat (Or.inl hp) cap hcap
  · intro d A h cap hcap pat hp
    obtain ⟨hs, hc, hd⟩ := dataset_peak h
    exact key d A hs hc pat (Or.inr hd) cap hcap

example : ((IndexedBTreeDataset.container true Nat).run IndexedBTreeDataset.new refillOps).bind
    (fun d => do
      let (d, xs, ended) ← d.extractPatternMatching 8
        (.givenSubject 4 (.anyPredicate (.anyObject (.givenGraph none)))) 5
      pure (xs, ended, ← d.iter))
    = .ok ([⟨4, 5, 4, none⟩], true, [⟨4, 5, 6, some 7⟩]) := by decide

/-! ## C25 -/

section methods

abbrev containsStatement (_ : Nat) (d : IndexedBTreeDataset R) (x : Quad R) := d.contains x

abbrev containsTripleStatement (_ : Nat) (d : IndexedBTreeGraph R) (x : Triple R) := d.contains x

abbrev containsQuad (cap : Nat) (d : IndexedBTreeDataset R) (x : Quad R) :=
  (d.matching cap).containsQuad x

abbrev containsSubject (cap : Nat) (d : IndexedBTreeDataset R) (r : R) :=
  (d.matching cap).containsQuadSubject r

abbrev containsPredicate (cap : Nat) (d : IndexedBTreeDataset R) (r : R) :=
  (d.matching cap).containsQuadPredicate r

abbrev containsObject (cap : Nat) (d : IndexedBTreeDataset R) (r : R) :=
  (d.matching cap).containsQuadObject r

abbrev containsNamedGraph (cap : Nat) (d : IndexedBTreeDataset R) (r : R) :=
  (d.matching cap).containsNamedGraph r

abbrev containsTriple (cap : Nat) (d : IndexedBTreeGraph R) (x : Triple R) :=
  (d.matching cap).containsTriple x

abbrev containsTripleSubject (cap : Nat) (d : IndexedBTreeGraph R) (r : R) :=
  (d.matching cap).containsTripleSubject r

abbrev containsTriplePredicate (cap : Nat) (d : IndexedBTreeGraph R) (r : R) :=
  (d.matching cap).containsTriplePredicate r

abbrev containsTripleObject (cap : Nat) (d : IndexedBTreeGraph R) (r : R) :=
  (d.matching cap).containsTripleObject r

/-- What the nine searching methods need of a state. -/
theorem dataset_any {d : IndexedBTreeDataset R} {A : Quad R → Prop}
    (hs : Stands IndexedBTreeDataset.WF IndexedBTreeDataset.abs d A) {cap : Nat}
    (hcap : datasetSlots d ≤ cap) (pat : CanonicalQuadPattern R) {has : Quad R → Prop}
    (hw : ∀ y, matchesQuad pat y ↔ has y) :
    ∃ b, (d.matching cap).any pat = .ok b ∧ (b = true → ∃ y, A y ∧ has y) ∧
      (d.Clean ∧ (givesSubject pat ∨ d.Dense) → (b = true ↔ ∃ y, A y ∧ has y)) := by
  obtain ⟨xs, -, hf⟩ := IndexedBTreeDataset.found hs hcap pat
  simpa only [hw] using hf.any

theorem graph_any {d : IndexedBTreeGraph R} {A : Triple R → Prop}
    (hs : Stands IndexedBTreeGraph.WF IndexedBTreeGraph.abs d A) {cap : Nat}
    (hcap : graphSlots d ≤ cap) (pat : CanonicalTriplePattern R) {has : Triple R → Prop}
    (hw : ∀ y, matchesTriple pat y ↔ has y) :
    ∃ b, (d.matching cap).any pat = .ok b ∧ (b = true → ∃ y, A y ∧ has y) ∧
      (d.Clean ∧ (tripleGivesSubject pat ∨ d.Dense) → (b = true ↔ ∃ y, A y ∧ has y)) := by
  obtain ⟨xs, -, hf⟩ := IndexedBTreeGraph.found hs hcap pat
  simpa only [hw] using hf.any

end methods

/-- C25 for `contains_quad` and `contains_triple`, which the indexed containers
override by their own search: exact after any history. -/
theorem C25_statement_partial (rep : Bool) :
    AnswersExactly (IndexedDatasetHistory (R := R) rep) datasetSlots (fun y x => y = x)
      containsStatement ∧
    AnswersExactly (IndexedGraphHistory (R := R) rep) graphSlots (fun y x => y = x)
      containsTripleStatement := by
  refine ⟨?_, ?_⟩
  · intro d A h cap _ x
    have hs := IndexedBTreeDataset.reach_stands h
    obtain ⟨b, e, hb⟩ := IndexedBTreeDataset.contains_spec hs.1 x
    exact ⟨b, e, by rw [hb, hs.2]; simp⟩
  · intro d A h cap _ x
    have hs := IndexedBTreeGraph.reach_stands h
    obtain ⟨b, e, hb⟩ := IndexedBTreeGraph.contains_spec hs.1 x
    exact ⟨b, e, by rw [hb, hs.2]; simp⟩

example : ∃ b, containsStatement 3 Case.indexedDataset ⟨1, 2, 4, some 9⟩ = .ok b ∧
    (b = true ↔ ∃ y, y ∈ Case.quads ∧ y = ⟨1, 2, 4, some 9⟩) :=
  (C25_statement_partial true).1 _ _ (Case.indexedDataset_reached Case.any_quads) 3
    (by decide +kernel) _

/-- C25, one direction: after any history the methods do not panic and answer true
only when a contained statement has the term there. Missing: the converse, which
is false (`C25_false`). -/
theorem C25_true_only_partial (rep : Bool) :
    AnswersTrueOnly (IndexedDatasetHistory (R := R) rep) datasetSlots (fun y x => y = x)
      containsQuad ∧
    AnswersTrueOnly (IndexedDatasetHistory (R := R) rep) datasetSlots (fun y r => y.s = r)
      containsSubject ∧
    AnswersTrueOnly (IndexedDatasetHistory (R := R) rep) datasetSlots (fun y r => y.p = r)
      containsPredicate ∧
    AnswersTrueOnly (IndexedDatasetHistory (R := R) rep) datasetSlots (fun y r => y.o = r)
      containsObject ∧
    AnswersTrueOnly (IndexedDatasetHistory (R := R) rep) datasetSlots (fun y r => y.g = some r)
      containsNamedGraph ∧
    AnswersTrueOnly (IndexedGraphHistory (R := R) rep) graphSlots (fun y x => y = x)
      containsTriple ∧
    AnswersTrueOnly (IndexedGraphHistory (R := R) rep) graphSlots (fun y r => y.s = r)
      containsTripleSubject ∧
    AnswersTrueOnly (IndexedGraphHistory (R := R) rep) graphSlots (fun y r => y.p = r)
      containsTriplePredicate ∧
    AnswersTrueOnly (IndexedGraphHistory (R := R) rep) graphSlots (fun y r => y.o = r)
      containsTripleObject := by
  refine ⟨?_, ?_, ?_, ?_, ?_, ?_, ?_, ?_, ?_⟩
  · intro d A h cap hcap x
    obtain ⟨b, e, h1, -⟩ := dataset_any (IndexedBTreeDataset.reach_stands h) hcap (.fromQuad x)
      (Proof.quad_fromQuad_matches x)
    exact ⟨b, e, h1⟩
  · intro d A h cap hcap r
    obtain ⟨b, e, h1, -⟩ := dataset_any (IndexedBTreeDataset.reach_stands h) hcap
      (.givenSubject r (.anyPredicate (.anyObject .anyGraph))) (has := fun y => y.s = r)
      (fun y => by simp [matchesQuad, QuadMatch.givenAnyAny])
    exact ⟨b, e, h1⟩
  · intro d A h cap hcap r
    obtain ⟨b, e, h1, -⟩ := dataset_any (IndexedBTreeDataset.reach_stands h) hcap
      (.anySubject (.givenPredicate r (.anyObject .anyGraph))) (has := fun y => y.p = r)
      (fun y => by simp [matchesQuad, QuadMatch.anyGivenAny])
    exact ⟨b, e, h1⟩
  · intro d A h cap hcap r
    obtain ⟨b, e, h1, -⟩ := dataset_any (IndexedBTreeDataset.reach_stands h) hcap
      (.anySubject (.anyPredicate (.givenObject r .anyGraph))) (has := fun y => y.o = r)
      (fun y => by simp [matchesQuad, QuadMatch.anyAnyGiven])
    exact ⟨b, e, h1⟩
  · intro d A h cap hcap r
    obtain ⟨b, e, h1, -⟩ := dataset_any (IndexedBTreeDataset.reach_stands h) hcap
      (.anySubject (.anyPredicate (.anyObject (.givenGraph (some r)))))
      (has := fun y => y.g = some r)
      (fun y => by simp [matchesQuad, QuadMatch.anyAnyAny])
    exact ⟨b, e, h1⟩
  · intro d A h cap hcap x
    obtain ⟨b, e, h1, -⟩ := graph_any (IndexedBTreeGraph.reach_stands h) hcap (.fromTriple x)
      (Proof.fromTriple_matches x)
    exact ⟨b, e, h1⟩
  · intro d A h cap hcap r
    obtain ⟨b, e, h1, -⟩ := graph_any (IndexedBTreeGraph.reach_stands h) hcap
      (.givenSubject r (.anyPredicate .anyObject)) (has := fun y => y.s = r)
      (fun y => by simp [matchesTriple])
    exact ⟨b, e, h1⟩
  · intro d A h cap hcap r
    obtain ⟨b, e, h1, -⟩ := graph_any (IndexedBTreeGraph.reach_stands h) hcap
      (.anySubject (.givenPredicate r .anyObject)) (has := fun y => y.p = r)
      (fun y => by simp [matchesTriple])
    exact ⟨b, e, h1⟩
  · intro d A h cap hcap r
    obtain ⟨b, e, h1, -⟩ := graph_any (IndexedBTreeGraph.reach_stands h) hcap
      (.anySubject (.anyPredicate (.givenObject r))) (has := fun y => y.o = r)
      (fun y => by simp [matchesTriple])
    exact ⟨b, e, h1⟩

example : ∃ b, containsObject 3 Case.indexedDataset 3 = .ok b ∧
    (b = true → ∃ y, y ∈ Case.quads ∧ y.o = 3) :=
  (C25_true_only_partial true).2.2.2.1 _ _ (Case.indexedDataset_reached Case.any_quads) 3
    (by decide +kernel) 3

/-- C25 is false: after `forgetOps`, nothing has subject 1 or is the quad (1, 3, 4) for
the search; after `holeOps`, nothing has predicate 5, object 6 or graph 7. -/
theorem C25_false (rep : Bool) :
    Denies (IndexedDatasetHistory (R := Nat) rep) datasetSlots (fun y x => y = x) containsQuad ∧
    Denies (IndexedDatasetHistory (R := Nat) rep) datasetSlots (fun y r => y.s = r)
      containsSubject ∧
    Denies (IndexedDatasetHistory (R := Nat) rep) datasetSlots (fun y r => y.p = r)
      containsPredicate ∧
    Denies (IndexedDatasetHistory (R := Nat) rep) datasetSlots (fun y r => y.o = r)
      containsObject ∧
    Denies (IndexedDatasetHistory (R := Nat) rep) datasetSlots (fun y r => y.g = some r)
      containsNamedGraph ∧
    Denies (IndexedGraphHistory (R := Nat) rep) graphSlots (fun y x => y = x) containsTriple ∧
    Denies (IndexedGraphHistory (R := Nat) rep) graphSlots (fun y r => y.s = r)
      containsTripleSubject ∧
    Denies (IndexedGraphHistory (R := Nat) rep) graphSlots (fun y r => y.p = r)
      containsTriplePredicate ∧
    Denies (IndexedGraphHistory (R := Nat) rep) graphSlots (fun y r => y.o = r)
      containsTripleObject := by
  obtain ⟨d, hd, hr⟩ := dataset_run rep (l := holeOps) (by simp [Allowed, holeOps, anyCall])
  obtain ⟨d', hd', hr'⟩ := dataset_run rep (l := forgetOps) (by simp [Allowed, forgetOps, anyCall])
  obtain ⟨g, hg, hs⟩ := graph_run rep (l := holeTripleOps)
    (by simp [Allowed, holeTripleOps, anyCall])
  obtain ⟨g', hg', hs'⟩ := graph_run rep (l := forgetTripleOps)
    (by simp [Allowed, forgetTripleOps, anyCall])
  refine ⟨⟨d', _, ⟨1, 3, 4, none⟩, _, hd', by simp [after, apply, forgetOps], rfl, ?_⟩,
    ⟨d', _, 1, ⟨1, 3, 4, none⟩, hd', by simp [after, apply, forgetOps], rfl, ?_⟩,
    ⟨d, _, 5, ⟨4, 5, 6, some 7⟩, hd, by simp [after, apply, holeOps], rfl, ?_⟩,
    ⟨d, _, 6, ⟨4, 5, 6, some 7⟩, hd, by simp [after, apply, holeOps], rfl, ?_⟩,
    ⟨d, _, 7, ⟨4, 5, 6, some 7⟩, hd, by simp [after, apply, holeOps], rfl, ?_⟩,
    ⟨g', _, ⟨1, 3, 4⟩, _, hg', by simp [after, apply, forgetTripleOps], rfl, ?_⟩,
    ⟨g', _, 1, ⟨1, 3, 4⟩, hg', by simp [after, apply, forgetTripleOps], rfl, ?_⟩,
    ⟨g, _, 5, ⟨4, 5, 6⟩, hg, by simp [after, apply, holeTripleOps], rfl, ?_⟩,
    ⟨g, _, 6, ⟨4, 5, 6⟩, hg, by simp [after, apply, holeTripleOps], rfl, ?_⟩⟩ <;>
  intro cap _
  · refine hr' (containsQuad cap · _) _ ?_
    cases cap <;> cases rep <;> with_unfolding_all rfl
  · refine hr' (containsSubject cap · _) _ ?_
    cases cap <;> cases rep <;> with_unfolding_all rfl
  · refine hr (containsPredicate cap · _) _ ?_
    cases cap <;> cases rep <;> with_unfolding_all rfl
  · refine hr (containsObject cap · _) _ ?_
    cases cap <;> cases rep <;> with_unfolding_all rfl
  · refine hr (containsNamedGraph cap · _) _ ?_
    cases cap <;> cases rep <;> with_unfolding_all rfl
  · refine hs' (containsTriple cap · _) _ ?_
    cases cap <;> cases rep <;> with_unfolding_all rfl
  · refine hs' (containsTripleSubject cap · _) _ ?_
    cases cap <;> cases rep <;> with_unfolding_all rfl
  · refine hs (containsTriplePredicate cap · _) _ ?_
    cases cap <;> cases rep <;> with_unfolding_all rfl
  · refine hs (containsTripleObject cap · _) _ ?_
    cases cap <;> cases rep <;> with_unfolding_all rfl

/-- C25 for the methods that give the subject, after histories that insert a resource
at two positions of a statement only when it already occurs. -/
theorem C25_given_subject_partial (rep : Bool) (takes : Prop) :
    AnswersExactly (IndexedDatasetHistoryOf (R := R) rep knownRepeats takes) datasetSlots (fun y x => y = x)
      containsQuad ∧
    AnswersExactly (IndexedDatasetHistoryOf (R := R) rep knownRepeats takes) datasetSlots (fun y r => y.s = r)
      containsSubject ∧
    AnswersExactly (IndexedGraphHistoryOf (R := R) rep knownTripleRepeats) graphSlots (fun y x => y = x)
      containsTriple ∧
    AnswersExactly (IndexedGraphHistoryOf (R := R) rep knownTripleRepeats) graphSlots (fun y r => y.s = r)
      containsTripleSubject := by
  refine ⟨?_, ?_, ?_, ?_⟩
  · intro d A h cap hcap x
    obtain ⟨b, e, -, h1⟩ := dataset_any (IndexedBTreeDataset.reach_stands h) hcap
      (.fromQuad x)
      (Proof.quad_fromQuad_matches x)
    exact ⟨b, e, h1 ⟨dataset_exact h, Or.inl trivial⟩⟩
  · intro d A h cap hcap x
    obtain ⟨b, e, -, h1⟩ := dataset_any (IndexedBTreeDataset.reach_stands h) hcap
      (.givenSubject x (.anyPredicate (.anyObject .anyGraph))) (has := fun y => y.s = x)
      (fun y => by simp [matchesQuad, QuadMatch.givenAnyAny])
    exact ⟨b, e, h1 ⟨dataset_exact h, Or.inl trivial⟩⟩
  · intro d A h cap hcap x
    obtain ⟨b, e, -, h1⟩ := graph_any (IndexedBTreeGraph.reach_stands h) hcap
      (.fromTriple x)
      (Proof.fromTriple_matches x)
    exact ⟨b, e, h1 ⟨graph_exact h, Or.inl trivial⟩⟩
  · intro d A h cap hcap x
    obtain ⟨b, e, -, h1⟩ := graph_any (IndexedBTreeGraph.reach_stands h) hcap
      (.givenSubject x (.anyPredicate .anyObject)) (has := fun y => y.s = x)
      (fun y => by simp [matchesTriple])
    exact ⟨b, e, h1 ⟨graph_exact h, Or.inl trivial⟩⟩

example : ∃ b, containsTripleSubject 3 Case.indexedGraph 5 = .ok b ∧
    (b = true ↔ ∃ y, y ∈ Case.triples ∧ y.s = 5) :=
  (C25_given_subject_partial true True).2.2.2 _ _
    (Case.indexedGraph_reached Case.known_triples) 3 (by decide +kernel) 5

/-- C25 when the container has as many statements as it ever had, under the same
restriction on insertions. Missing: smaller containers, where the claim is false. -/
theorem C25_at_peak_partial (rep : Bool) :
    AnswersExactly (DatasetAtPeak (R := R) rep) datasetSlots (fun y x => y = x)
      containsQuad ∧
    AnswersExactly (DatasetAtPeak (R := R) rep) datasetSlots (fun y r => y.s = r)
      containsSubject ∧
    AnswersExactly (DatasetAtPeak (R := R) rep) datasetSlots (fun y r => y.p = r)
      containsPredicate ∧
    AnswersExactly (DatasetAtPeak (R := R) rep) datasetSlots (fun y r => y.o = r)
      containsObject ∧
    AnswersExactly (DatasetAtPeak (R := R) rep) datasetSlots (fun y r => y.g = some r)
      containsNamedGraph ∧
    AnswersExactly (GraphAtPeak (R := R) rep) graphSlots (fun y x => y = x)
      containsTriple ∧
    AnswersExactly (GraphAtPeak (R := R) rep) graphSlots (fun y r => y.s = r)
      containsTripleSubject ∧
    AnswersExactly (GraphAtPeak (R := R) rep) graphSlots (fun y r => y.p = r)
      containsTriplePredicate ∧
    AnswersExactly (GraphAtPeak (R := R) rep) graphSlots (fun y r => y.o = r)
      containsTripleObject := by
  refine ⟨?_, ?_, ?_, ?_, ?_, ?_, ?_, ?_, ?_⟩
  · intro d A h cap hcap x
    obtain ⟨hs, hc, hd⟩ := dataset_peak h
    obtain ⟨b, e, -, h1⟩ := dataset_any hs hcap
      (.fromQuad x)
      (Proof.quad_fromQuad_matches x)
    exact ⟨b, e, h1 ⟨hc, Or.inr hd⟩⟩
  · intro d A h cap hcap x
    obtain ⟨hs, hc, hd⟩ := dataset_peak h
    obtain ⟨b, e, -, h1⟩ := dataset_any hs hcap
      (.givenSubject x (.anyPredicate (.anyObject .anyGraph))) (has := fun y => y.s = x)
      (fun y => by simp [matchesQuad, QuadMatch.givenAnyAny])
    exact ⟨b, e, h1 ⟨hc, Or.inr hd⟩⟩
  · intro d A h cap hcap x
    obtain ⟨hs, hc, hd⟩ := dataset_peak h
    obtain ⟨b, e, -, h1⟩ := dataset_any hs hcap
      (.anySubject (.givenPredicate x (.anyObject .anyGraph))) (has := fun y => y.p = x)
      (fun y => by simp [matchesQuad, QuadMatch.anyGivenAny])
    exact ⟨b, e, h1 ⟨hc, Or.inr hd⟩⟩
  · intro d A h cap hcap x
    obtain ⟨hs, hc, hd⟩ := dataset_peak h
    obtain ⟨b, e, -, h1⟩ := dataset_any hs hcap
      (.anySubject (.anyPredicate (.givenObject x .anyGraph))) (has := fun y => y.o = x)
      (fun y => by simp [matchesQuad, QuadMatch.anyAnyGiven])
    exact ⟨b, e, h1 ⟨hc, Or.inr hd⟩⟩
  · intro d A h cap hcap x
    obtain ⟨hs, hc, hd⟩ := dataset_peak h
    obtain ⟨b, e, -, h1⟩ := dataset_any hs hcap
      (.anySubject (.anyPredicate (.anyObject (.givenGraph (some x))))) (has := fun y => y.g = some x)
      (fun y => by simp [matchesQuad, QuadMatch.anyAnyAny])
    exact ⟨b, e, h1 ⟨hc, Or.inr hd⟩⟩
  · intro d A h cap hcap x
    obtain ⟨hs, hc, hd⟩ := graph_peak h
    obtain ⟨b, e, -, h1⟩ := graph_any hs hcap
      (.fromTriple x)
      (Proof.fromTriple_matches x)
    exact ⟨b, e, h1 ⟨hc, Or.inr hd⟩⟩
  · intro d A h cap hcap x
    obtain ⟨hs, hc, hd⟩ := graph_peak h
    obtain ⟨b, e, -, h1⟩ := graph_any hs hcap
      (.givenSubject x (.anyPredicate .anyObject)) (has := fun y => y.s = x)
      (fun y => by simp [matchesTriple])
    exact ⟨b, e, h1 ⟨hc, Or.inr hd⟩⟩
  · intro d A h cap hcap x
    obtain ⟨hs, hc, hd⟩ := graph_peak h
    obtain ⟨b, e, -, h1⟩ := graph_any hs hcap
      (.anySubject (.givenPredicate x .anyObject)) (has := fun y => y.p = x)
      (fun y => by simp [matchesTriple])
    exact ⟨b, e, h1 ⟨hc, Or.inr hd⟩⟩
  · intro d A h cap hcap x
    obtain ⟨hs, hc, hd⟩ := graph_peak h
    obtain ⟨b, e, -, h1⟩ := graph_any hs hcap
      (.anySubject (.anyPredicate (.givenObject x))) (has := fun y => y.o = x)
      (fun y => by simp [matchesTriple])
    exact ⟨b, e, h1 ⟨hc, Or.inr hd⟩⟩

example : ((IndexedBTreeDataset.container true Nat).run IndexedBTreeDataset.new refillOps).bind
    (fun d => do
      pure (← containsSubject 8 d 4, ← containsSubject 8 d 1, ← containsPredicate 8 d 5,
        ← containsObject 8 d 6, ← containsNamedGraph 8 d 7, ← containsNamedGraph 8 d 4))
    = .ok (true, false, true, true, true, false) := by decide

/-! ## C26 -/

section objects

abbrev quadObjects (cap fuel : Nat) (d : IndexedBTreeDataset R) (x : Option R × R × R) :=
  (d.matching cap).quadObjects fuel x.1 x.2.1 x.2.2

abbrev tripleObjects (cap fuel : Nat) (d : IndexedBTreeGraph R) (x : R × R) :=
  (d.matching cap).tripleObjects fuel x.1 x.2

abbrev quadPredicatesObjects (cap fuel : Nat) (d : IndexedBTreeDataset R) (x : Option R × R) :=
  d.quadPredicatesObjects cap fuel x.1 x.2

abbrev triplePredicatesObjects (cap fuel : Nat) (d : IndexedBTreeGraph R) (x : R) :=
  d.triplePredicatesObjects cap fuel x

/-- The quad with a graph, subject, predicate and object. -/
abbrev quadOf (x : Option R × R × R) (o : R) : Quad R := ⟨x.2.1, x.2.2, o, x.1⟩

abbrev tripleOf (x : R × R) (o : R) : Triple R := ⟨x.1, x.2, o⟩

abbrev quadWith (x : Option R × R) (p o : R) : Quad R := ⟨x.2, p, o, x.1⟩

abbrev tripleWith (x : R) (p o : R) : Triple R := ⟨x, p, o⟩

theorem quadObjects_spec {d : IndexedBTreeDataset R} {A : Quad R → Prop}
    (hs : Stands IndexedBTreeDataset.WF IndexedBTreeDataset.abs d A) {cap fuel : Nat}
    (hcap : datasetSlots d ≤ cap) (hfuel : cap < fuel) (x : Option R × R × R) :
    ∃ os, quadObjects cap fuel d x = .ok os ∧ ObjectsOf d.Clean (fun o => A (quadOf x o)) os := by
  obtain ⟨g, s, p⟩ := x
  obtain ⟨xs, -, hf⟩ := IndexedBTreeDataset.found hs hcap
    (.givenSubject s (.givenPredicate p (.anyObject (.givenGraph g))))
  obtain ⟨m, e, hy⟩ := hf.yields
  have hc := (hy.objects (·.o)).collect (fuel := fuel)
    (by simp only [List.length_map]; exact Nat.lt_of_le_of_lt hf.length hfuel)
  obtain ⟨h1, h2, h3⟩ := hf.objects (f := (·.o)) (build := quadOf (g, s, p))
    (fun y => by
      cases y
      simp [matchesQuad, QuadMatch.givenGivenAny, quadOf])
    (fun o => rfl)
  refine ⟨_, ?_, h1, h2, fun h => h3 ⟨h, Or.inl trivial⟩⟩
  have e' : (d.matching cap).start (.fromOptionQuad ⟨some s, some p, none, some g⟩) = .ok m := e
  simp only [quadObjects, QuadMatching.quadObjects, e', bind, Except.bind]
  exact hc

theorem tripleObjects_spec {d : IndexedBTreeGraph R} {A : Triple R → Prop}
    (hs : Stands IndexedBTreeGraph.WF IndexedBTreeGraph.abs d A) {cap fuel : Nat}
    (hcap : graphSlots d ≤ cap) (hfuel : cap < fuel) (x : R × R) :
    ∃ os, tripleObjects cap fuel d x = .ok os ∧
      ObjectsOf d.Clean (fun o => A (tripleOf x o)) os := by
  obtain ⟨s, p⟩ := x
  obtain ⟨xs, -, hf⟩ := IndexedBTreeGraph.found hs hcap
    (.givenSubject s (.givenPredicate p .anyObject))
  obtain ⟨m, e, hy⟩ := hf.yields
  have hc := (hy.objects (·.o)).collect (fuel := fuel)
    (by simp only [List.length_map]; exact Nat.lt_of_le_of_lt hf.length hfuel)
  obtain ⟨h1, h2, h3⟩ := hf.objects (f := (·.o)) (build := tripleOf (s, p))
    (fun y => by cases y; simp [matchesTriple, tripleOf])
    (fun o => rfl)
  refine ⟨_, ?_, h1, h2, fun h => h3 ⟨h, Or.inl trivial⟩⟩
  have e' : (d.matching cap).start (.fromOptionTriple ⟨some s, some p, none⟩) = .ok m := e
  simp only [tripleObjects, TripleMatching.tripleObjects, e', bind, Except.bind]
  exact hc

theorem quadPredicatesObjects_spec {d : IndexedBTreeDataset R} {A : Quad R → Prop} {all : Prop}
    (hs : Stands IndexedBTreeDataset.WF IndexedBTreeDataset.abs d A) {cap fuel : Nat}
    (hcap : datasetSlots d ≤ cap) (hfuel : cap < fuel) (x : Option R × R)
    (ha : all → d.Clean ∧ ∀ q, A q → ∃ rs, d.predicateList = .ok rs ∧ q.p ∈ rs) :
    ∃ out, quadPredicatesObjects cap fuel d x = .ok out ∧
      PredicatesOf all (fun p o => A (quadWith x p o)) out := by
  obtain ⟨g, s⟩ := x
  obtain ⟨rs, h1, -, h3, -, h5⟩ := IndexedBTreeDataset.pos_listing hs (p := .pred) hs.1.pred
  have e : d.predicateList = .ok rs := h1
  obtain ⟨out, e', h⟩ := predicatesObjects_spec (mt := d.matching cap) (cap := cap) (A := A)
    (wanted := fun p => matchesQuad (.givenSubject s (.givenPredicate p (.anyObject (.givenGraph g)))))
    (all := d.Clean) (all' := all) (f := (·.o)) (build := quadWith (g, s)) hfuel
    (fun p => by
      obtain ⟨xs, -, hf⟩ := IndexedBTreeDataset.found hs hcap
        (.givenSubject s (.givenPredicate p (.anyObject (.givenGraph g))))
      exact ⟨xs, hf.yields, hf.length, hf.nodup, hf.sound,
        fun h => hf.complete ⟨h, Or.inl trivial⟩⟩)
    (fun p y => by
      cases y
      simp [matchesQuad, QuadMatch.givenGivenAny, quadWith])
    (fun p o => rfl) (ps := rs)
    (fun h => ⟨(ha h).1, h5 (ha h).1, fun p o hpo => by
      obtain ⟨rs', er, hm⟩ := (ha h).2 _ hpo
      cases Except.ok.inj (er.symm.trans e)
      exact hm⟩)
  refine ⟨out, ?_, h⟩
  simp only [quadPredicatesObjects, IndexedBTreeDataset.quadPredicatesObjects, e, bind,
    Except.bind]
  exact e'

theorem triplePredicatesObjects_spec {d : IndexedBTreeGraph R} {A : Triple R → Prop} {all : Prop}
    (hs : Stands IndexedBTreeGraph.WF IndexedBTreeGraph.abs d A) {cap fuel : Nat}
    (hcap : graphSlots d ≤ cap) (hfuel : cap < fuel) (x : R)
    (ha : all → d.Clean ∧ ∀ q, A q → ∃ rs, d.predicateList = .ok rs ∧ q.p ∈ rs) :
    ∃ out, triplePredicatesObjects cap fuel d x = .ok out ∧
      PredicatesOf all (fun p o => A (tripleWith x p o)) out := by
  obtain ⟨rs, h1, -, h3, -, h5⟩ := IndexedBTreeGraph.pos_listing hs (p := .pred) hs.1.pred
  have e : d.predicateList = .ok rs := h1
  obtain ⟨out, e', h⟩ := predicatesObjects_spec (mt := d.matching cap) (cap := cap) (A := A)
    (wanted := fun p => matchesTriple (.givenSubject x (.givenPredicate p .anyObject)))
    (all := d.Clean) (all' := all) (f := (·.o)) (build := tripleWith x) hfuel
    (fun p => by
      obtain ⟨xs, -, hf⟩ := IndexedBTreeGraph.found hs hcap
        (.givenSubject x (.givenPredicate p .anyObject))
      exact ⟨xs, hf.yields, hf.length, hf.nodup, hf.sound,
        fun h => hf.complete ⟨h, Or.inl trivial⟩⟩)
    (fun p y => by cases y; simp [matchesTriple, tripleWith])
    (fun p o => rfl) (ps := rs)
    (fun h => ⟨(ha h).1, h5 (ha h).1, fun p o hpo => by
      obtain ⟨rs', er, hm⟩ := (ha h).2 _ hpo
      cases Except.ok.inj (er.symm.trans e)
      exact hm⟩)
  refine ⟨out, ?_, h⟩
  simp only [triplePredicatesObjects, IndexedBTreeGraph.triplePredicatesObjects, e, bind,
    Except.bind]
  exact e'

end objects

/-- C26, one direction: after any history the four methods do not panic; they yield
only objects, and predicates with at least one of their objects, of contained
statements, each object once. Missing: that they yield all of them, which is false
(`C26_false`). -/
theorem C26_sound_partial (rep : Bool) :
    YieldsObjects (IndexedDatasetHistory (R := R) rep) datasetSlots False quadOf quadObjects ∧
    YieldsObjects (IndexedGraphHistory (R := R) rep) graphSlots False tripleOf tripleObjects ∧
    YieldsPredicates (IndexedDatasetHistory (R := R) rep) datasetSlots False quadWith
      quadPredicatesObjects ∧
    YieldsPredicates (IndexedGraphHistory (R := R) rep) graphSlots False tripleWith
      triplePredicatesObjects := by
  refine ⟨?_, ?_, ?_, ?_⟩
  · intro d A h cap hcap fuel hfuel x
    obtain ⟨os, e, h1, h2, -⟩ :=
      quadObjects_spec (IndexedBTreeDataset.reach_stands h) hcap hfuel x
    exact ⟨os, e, h1, h2, False.elim⟩
  · intro d A h cap hcap fuel hfuel x
    obtain ⟨os, e, h1, h2, -⟩ :=
      tripleObjects_spec (IndexedBTreeGraph.reach_stands h) hcap hfuel x
    exact ⟨os, e, h1, h2, False.elim⟩
  · intro d A h cap hcap fuel hfuel x
    exact quadPredicatesObjects_spec (IndexedBTreeDataset.reach_stands h) hcap hfuel x False.elim
  · intro d A h cap hcap fuel hfuel x
    exact triplePredicatesObjects_spec (IndexedBTreeGraph.reach_stands h) hcap hfuel x False.elim

example : ∃ os, tripleObjects 3 4 Case.indexedGraph (1, 2) = .ok os ∧
    os.Nodup ∧ (∀ o ∈ os, (⟨1, 2, o⟩ : Triple Nat) ∈ Case.triples) ∧
    (False → ∀ o, (⟨1, 2, o⟩ : Triple Nat) ∈ Case.triples → o ∈ os) :=
  (C26_sound_partial true).2.1 _ _ (Case.indexedGraph_reached Case.any_triples) 3
    (by decide +kernel) 4 (by decide) (1, 2)

/-- C26 is false: after `forgetOps`, no object is found for subject 1 and predicate 3;
after `dropOps`, no predicate is found for subject 1. -/
theorem C26_false (rep : Bool) :
    ¬ YieldsObjects (IndexedDatasetHistory (R := Nat) rep) datasetSlots True quadOf quadObjects ∧
    ¬ YieldsObjects (IndexedGraphHistory (R := Nat) rep) graphSlots True tripleOf tripleObjects ∧
    ¬ YieldsPredicates (IndexedDatasetHistory (R := Nat) rep) datasetSlots True quadWith
      quadPredicatesObjects ∧
    ¬ YieldsPredicates (IndexedGraphHistory (R := Nat) rep) graphSlots True tripleWith
      triplePredicatesObjects := by
  refine ⟨?_, ?_, ?_, ?_⟩
  · intro h
    obtain ⟨d, hd, hr⟩ := dataset_run rep (l := forgetOps) (by simp [Allowed, forgetOps, anyCall])
    obtain ⟨os, e, -, -, h3⟩ := h d _ hd _ (Nat.le_refl _) _ (Nat.lt_succ_self _) (none, 1, 3)
    cases Except.ok.inj (e.symm.trans (hr (fun d => quadObjects (datasetSlots d)
      (datasetSlots d + 1) d (none, 1, 3)) (.ok []) (by cases rep <;> decide)))
    have := h3 trivial 4 (by simp [after, apply, forgetOps])
    simp at this
  · intro h
    obtain ⟨d, hd, hr⟩ := graph_run rep (l := forgetTripleOps)
      (by simp [Allowed, forgetTripleOps, anyCall])
    obtain ⟨os, e, -, -, h3⟩ := h d _ hd _ (Nat.le_refl _) _ (Nat.lt_succ_self _) (1, 3)
    cases Except.ok.inj (e.symm.trans (hr (fun d => tripleObjects (graphSlots d)
      (graphSlots d + 1) d (1, 3)) (.ok []) (by cases rep <;> decide)))
    have := h3 trivial 4 (by simp [after, apply, forgetTripleOps])
    simp at this
  · intro h
    obtain ⟨d, hd, hr⟩ := dataset_run rep (l := dropOps) (by simp [Allowed, dropOps, anyCall])
    obtain ⟨out, e, -, h3⟩ := h d _ hd _ (Nat.le_refl _) _ (Nat.lt_succ_self _) (none, 1)
    cases Except.ok.inj (e.symm.trans (hr (fun d => quadPredicatesObjects (datasetSlots d)
      (datasetSlots d + 1) d (none, 1)) (.ok []) (by cases rep <;> decide)))
    have := (h3 trivial).2 2 4 (by simp [after, apply, dropOps])
    simp at this
  · intro h
    obtain ⟨d, hd, hr⟩ := graph_run rep (l := dropTripleOps)
      (by simp [Allowed, dropTripleOps, anyCall])
    obtain ⟨out, e, -, h3⟩ := h d _ hd _ (Nat.le_refl _) _ (Nat.lt_succ_self _) 1
    cases Except.ok.inj (e.symm.trans (hr (fun d => triplePredicatesObjects (graphSlots d)
      (graphSlots d + 1) d 1) (.ok []) (by cases rep <;> decide)))
    have := (h3 trivial).2 2 4 (by simp [after, apply, dropTripleOps])
    simp at this

/-- C26 for the objects, after histories that insert a resource at two positions of a
statement only when it already occurs. -/
theorem C26_objects_partial (rep : Bool) (takes : Prop) :
    YieldsObjects (IndexedDatasetHistoryOf (R := R) rep knownRepeats takes) datasetSlots True
      quadOf quadObjects ∧
    YieldsObjects (IndexedGraphHistoryOf (R := R) rep knownTripleRepeats) graphSlots True
      tripleOf tripleObjects := by
  refine ⟨?_, ?_⟩
  · intro d A h cap hcap fuel hfuel x
    obtain ⟨os, e, h1, h2, h3⟩ :=
      quadObjects_spec (IndexedBTreeDataset.reach_stands h) hcap hfuel x
    exact ⟨os, e, h1, h2, fun _ => h3 (dataset_exact h)⟩
  · intro d A h cap hcap fuel hfuel x
    obtain ⟨os, e, h1, h2, h3⟩ :=
      tripleObjects_spec (IndexedBTreeGraph.reach_stands h) hcap hfuel x
    exact ⟨os, e, h1, h2, fun _ => h3 (graph_exact h)⟩

example : ∃ os, tripleObjects 3 4 Case.indexedGraph (1, 2) = .ok os ∧
    os.Nodup ∧ (∀ o ∈ os, (⟨1, 2, o⟩ : Triple Nat) ∈ Case.triples) ∧
    (True → ∀ o, (⟨1, 2, o⟩ : Triple Nat) ∈ Case.triples → o ∈ os) :=
  (C26_objects_partial true True).2 _ _ (Case.indexedGraph_reached Case.known_triples) 3
    (by decide +kernel) 4 (by decide) (1, 2)

/-- C26 for the predicates with their objects, when moreover a statement is removed only
if no other contained statement has its predicate (`C18_each_once_partial`). -/
theorem C26_predicates_partial (rep : Bool) :
    YieldsPredicates (DatasetReach (R := R) rep knownRepeats (lastAndKnown (·.p)) False)
      datasetSlots True quadWith quadPredicatesObjects ∧
    YieldsPredicates (GraphReach (R := R) rep knownTripleRepeats (lastAndKnownTriple (·.p)))
      graphSlots True tripleWith triplePredicatesObjects := by
  obtain ⟨-, a2, -, -, a5, -⟩ := C18_each_once_partial (R := R) rep
  refine ⟨?_, ?_⟩
  · intro d A h cap hcap fuel hfuel x
    refine quadPredicatesObjects_spec (IndexedBTreeDataset.reach_stands h) hcap hfuel x
      (fun _ => ⟨IndexedBTreeDataset.reach_clean (fun _ _ h => h) (fun _ _ h => h.2) h, ?_⟩)
    intro q hq
    obtain ⟨rs, e, -, hm, -⟩ := a2 d A h
    exact ⟨rs, e, (hm q.p).2 ⟨q, hq, rfl⟩⟩
  · intro d A h cap hcap fuel hfuel x
    refine triplePredicatesObjects_spec (IndexedBTreeGraph.reach_stands h) hcap hfuel x
      (fun _ => ⟨IndexedBTreeGraph.reach_clean (fun _ _ h => h) (fun _ _ h => h.2) h, ?_⟩)
    intro q hq
    obtain ⟨rs, e, -, hm, -⟩ := a5 d A h
    exact ⟨rs, e, (hm q.p).2 ⟨q, hq, rfl⟩⟩

example : ((IndexedBTreeDataset.container true Nat).run IndexedBTreeDataset.new
    [.insert ⟨1, 2, 3, none⟩, .insert ⟨1, 2, 4, none⟩, .insert ⟨1, 5, 4, none⟩,
      .insert ⟨1, 5, 6, some 7⟩]).bind
    (fun d => do pure (← quadObjects 8 9 d (none, 1, 2), ← quadPredicatesObjects 8 9 d (none, 1)))
    = .ok ([3, 4], [(2, [3, 4]), (5, [4])]) := by decide

/-! ## C27 -/

/-- C27: the quads of a graph seen as a dataset are its triples in the default graph, in
the same order and number, and it has no named graph. -/
theorem C27_quads {M : Type} (gr : GraphImpl R M) :
    gr.quads.length = gr.triples.length ∧
    (∀ (i : Nat) (q : Quad R), gr.quads[i]? = some q ↔
      ∃ t, gr.triples[i]? = some t ∧ q.s = t.s ∧ q.p = t.p ∧ q.o = t.o ∧ q.g = none) ∧
    gr.namedGraphs.length = gr.namedGraphCount ∧
    (∀ r, ¬ (r ∈ gr.namedGraphs)) ∧
    (gr.triplesCount = gr.triples.length → gr.quadsCount = gr.quads.length) := by
  refine ⟨by simp [GraphImpl.quads], ?_, rfl, by simp [GraphImpl.namedGraphs],
    fun h => by simpa [GraphImpl.quads, GraphImpl.quadsCount] using h⟩
  intro i q
  obtain ⟨s, p, o, g⟩ := q
  simp only [GraphImpl.quads, List.getElem?_map, Option.map_eq_some_iff, Triple.intoQuad,
    Quad.mk.injEq]
  refine ⟨?_, ?_⟩
  · rintro ⟨t, h, rfl, rfl, rfl, rfl⟩
    exact ⟨t, h, rfl, rfl, rfl, rfl⟩
  · rintro ⟨t, h, rfl, rfl, rfl, rfl⟩
    exact ⟨t, h, rfl, rfl, rfl, rfl⟩

theorem mem_quads {M : Type} {gr : GraphImpl R M} (y : Quad R) :
    y ∈ gr.quads ↔ y.g = none ∧ (⟨y.s, y.p, y.o⟩ : Triple R) ∈ gr.triples := by
  obtain ⟨s, p, o, g⟩ := y
  simp only [GraphImpl.quads, List.mem_map, Triple.intoQuad, Quad.mk.injEq]
  refine ⟨?_, ?_⟩
  · rintro ⟨t, ht, rfl, rfl, rfl, rfl⟩
    exact ⟨rfl, ht⟩
  · rintro ⟨rfl, ht⟩
    exact ⟨_, ht, rfl, rfl, rfl, rfl⟩

/-- C27: matching a quad pattern on a graph is exact whenever matching triple patterns
on it is. -/
theorem C27_matching {M : Type} (gr : GraphImpl R M)
    (h : Exact gr.matching (· ∈ gr.triples) matchesTriple) :
    Exact gr.quadMatching (· ∈ gr.quads) matchesQuad := by
  have key : ∀ (pat : CanonicalQuadPattern R) (x : CanonicalTriplePattern R) (g : PatternGraph R),
      pat.intoTriple = (x, g) → (g = .any ∨ g = .given none) →
      ∃ m xs, gr.quadMatching.start pat = .ok m ∧ Yields gr.quadMatching.next m xs ∧ xs.Nodup ∧
        ∀ y, y ∈ xs ↔ y ∈ gr.quads ∧ matchesQuad pat y := by
    intro pat x g hx hg
    obtain ⟨m, ts, e, hy, hn, hm⟩ := h x
    refine ⟨some m, ts.map (·.intoQuad none), ?_, GraphImpl.yields hy, ?_, ?_⟩
    · rcases hg with rfl | rfl <;>
        simp [GraphImpl.quadMatching, hx, e, bind, Except.bind, pure, Except.pure]
    · refine List.Pairwise.map _ ?_ hn
      rintro ⟨s, p, o⟩ ⟨s', p', o'⟩ hne he
      simp [Triple.intoQuad] at he
      simp_all
    · rintro ⟨s, p, o, g'⟩
      rw [mem_quads, C31_into_triple.1, hx]
      simp only [List.mem_map, Triple.intoQuad, Quad.mk.injEq, hm]
      refine ⟨?_, ?_⟩
      · rintro ⟨⟨s', p', o'⟩, ⟨h1, h2⟩, rfl, rfl, rfl, rfl⟩
        refine ⟨⟨rfl, h1⟩, h2, ?_⟩
        rcases hg with rfl | rfl <;> simp [graphHolds]
      · rintro ⟨⟨rfl, h1⟩, h2, -⟩
        exact ⟨_, ⟨h1, h2⟩, rfl, rfl, rfl, rfl⟩
  intro pat
  obtain ⟨⟨x, g⟩, hx⟩ : ∃ xg, pat.intoTriple = xg := ⟨_, rfl⟩
  have hno : ∀ {g}, pat.intoTriple = (x, g) → g ≠ .any → g ≠ .given none →
      ∃ m xs, gr.quadMatching.start pat = .ok m ∧ Yields gr.quadMatching.next m xs ∧ xs.Nodup ∧
        ∀ y, y ∈ xs ↔ y ∈ gr.quads ∧ matchesQuad pat y := by
    intro g hx h1 h2
    refine ⟨none, [], ?_, .ends rfl, by simp, ?_⟩
    · simp only [GraphImpl.quadMatching, hx]
      cases g with
      | any => exact absurd rfl h1
      | given g => cases g with
        | none => exact absurd rfl h2
        | some g => rfl
      | _ => rfl
    · rintro ⟨s, p, o, g'⟩
      rw [mem_quads, C31_into_triple.1, hx]
      simp only [List.not_mem_nil, false_iff, not_and]
      rintro ⟨rfl, -⟩ -
      cases g with
      | any => exact absurd rfl h1
      | given g => cases g with
        | none => exact absurd rfl h2
        | some g => simp [graphHolds]
      | _ => simp [graphHolds]
  cases g with
  | any => exact key pat x _ hx (Or.inl rfl)
  | given g => cases g with
    | none => exact key pat x _ hx (Or.inr rfl)
    | some g => exact hno hx (by simp) (by simp)
  | _ => exact hno hx (by simp) (by simp)

example : ∃ gr, Case.indexedGraph.impl 3 = .ok gr ∧
    Exact gr.quadMatching (· ∈ gr.quads) matchesQuad := by
  obtain ⟨hs, hc, hd⟩ := graph_peak Case.indexedGraph_peak
  obtain ⟨xs, e1, h1, -⟩ := IndexedBTreeGraph.iter_spec hs.1
  obtain ⟨rs, hl, -⟩ := IndexedBTreeGraph.listing hs
  obtain ⟨ss, e2, -⟩ := IndexedBTreeGraph.pos_listing hs (p := .subj) hs.1.subj
  obtain ⟨ps, e3, -⟩ := IndexedBTreeGraph.pos_listing hs (p := .pred) hs.1.pred
  obtain ⟨os, e4, -⟩ := IndexedBTreeGraph.pos_listing hs (p := .obj) hs.1.obj
  have e2 : Case.indexedGraph.subjectList = .ok ss := e2
  have e3 : Case.indexedGraph.predicateList = .ok ps := e3
  have e4 : Case.indexedGraph.objectList = .ok os := e4
  refine ⟨_, by simp only [IndexedBTreeGraph.impl, e1, hl.ok, e2, e3, e4, bind, Except.bind, pure,
    Except.pure]; rfl, C27_matching _ fun pat => ?_⟩
  obtain ⟨ys, -, hf⟩ := IndexedBTreeGraph.found hs (cap := 3) (by decide +kernel) pat
  obtain ⟨m, em, hy⟩ := hf.yields
  refine ⟨m, ys, em, hy, hf.nodup, fun y => ⟨fun h => ?_, fun h => ?_⟩⟩
  · exact ⟨(h1.exact y).2 ((hs.2 y).2 (hf.sound y h).1), (hf.sound y h).2⟩
  · exact hf.complete ⟨hc, Or.inr hd⟩ y ((hs.2 y).1 ((h1.exact y).1 h.1)) h.2

/-- An `IndexedBTreeGraph` in the states of `C21_at_peak_partial`, seen as a dataset:
its quads are its triples in the default graph and matching is exact. -/
theorem C27_indexed_graph (rep : Bool) (d : IndexedBTreeGraph R) (A : Triple R → Prop)
    (h : GraphAtPeak rep d A) (cap : Nat) (hcap : graphSlots d ≤ cap) :
    ∃ gr, d.impl cap = .ok gr ∧
      (∀ q, q ∈ gr.quads ↔ A ⟨q.s, q.p, q.o⟩ ∧ q.g = none) ∧
      gr.quadsCount = gr.quads.length ∧
      Exact gr.quadMatching (fun q => A ⟨q.s, q.p, q.o⟩ ∧ q.g = none) matchesQuad := by
  obtain ⟨hs, hc, hd⟩ := graph_peak h
  obtain ⟨xs, e1, h1, -⟩ := IndexedBTreeGraph.iter_spec hs.1
  obtain ⟨rs, hl, -⟩ := IndexedBTreeGraph.listing hs
  obtain ⟨ss, e2, -⟩ := IndexedBTreeGraph.pos_listing hs (p := .subj) hs.1.subj
  obtain ⟨ps, e3, -⟩ := IndexedBTreeGraph.pos_listing hs (p := .pred) hs.1.pred
  obtain ⟨os, e4, -⟩ := IndexedBTreeGraph.pos_listing hs (p := .obj) hs.1.obj
  have e2 : d.subjectList = .ok ss := e2
  have e3 : d.predicateList = .ok ps := e3
  have e4 : d.objectList = .ok os := e4
  have hx : ∀ t, t ∈ xs ↔ A t := fun t => (h1.exact t).trans (hs.2 t)
  refine ⟨_, by simp only [IndexedBTreeGraph.impl, e1, hl.ok, e2, e3, e4, bind, Except.bind, pure,
    Except.pure]; rfl, ?_, ?_, ?_⟩
  · rintro ⟨s, p, o, g⟩
    rw [mem_quads, and_comm]
    simp only [hx]
  · simp [GraphImpl.quads, GraphImpl.quadsCount]
  · have := C27_matching ⟨xs, xs.length, rs, d.resourceCount, ss, d.subjectCount, ps,
      d.predicateCount, os, d.objectCount, d.matching cap⟩ (fun pat => by
        obtain ⟨ys, -, hf⟩ := IndexedBTreeGraph.found hs hcap pat
        obtain ⟨m, em, hy⟩ := hf.yields
        refine ⟨m, ys, em, hy, hf.nodup, fun y => ⟨fun h => ?_, fun h => ?_⟩⟩
        · exact ⟨(hx y).2 (hf.sound y h).1, (hf.sound y h).2⟩
        · exact hf.complete ⟨hc, Or.inr hd⟩ y ((hx y).1 h.1) h.2)
    intro pat
    obtain ⟨m, ys, h1, h2, h3, h4⟩ := this pat
    refine ⟨m, ys, h1, h2, h3, fun y => ?_⟩
    rw [h4]
    simp only [mem_quads, hx, and_comm]

example : ∃ gr, Case.indexedGraph.impl 3 = .ok gr ∧
    (∀ q, q ∈ gr.quads ↔ (⟨q.s, q.p, q.o⟩ : Triple Nat) ∈ Case.triples ∧ q.g = none) ∧
    gr.quadsCount = gr.quads.length ∧
    Exact gr.quadMatching (fun q => (⟨q.s, q.p, q.o⟩ : Triple Nat) ∈ Case.triples ∧ q.g = none)
      matchesQuad :=
  C27_indexed_graph true _ _ Case.indexedGraph_peak 3 (by decide +kernel)

example : ∃ gr, Case.indexedGraph.impl 3 = .ok gr ∧ gr.quads.length = gr.triples.length ∧
    (∀ r, ¬ r ∈ gr.namedGraphs) := by
  obtain ⟨gr, e, -⟩ := C27_indexed_graph true _ _ Case.indexedGraph_peak 3 (by decide +kernel)
  exact ⟨gr, e, (C27_quads gr).1, (C27_quads gr).2.2.2.1⟩

example : ∃ gr, Case.indexedGraph.impl 3 = .ok gr ∧
    (Exact gr.matching (· ∈ gr.triples) matchesTriple →
      Exact gr.quadMatching (· ∈ gr.quads) matchesQuad) := by
  obtain ⟨gr, e, -⟩ := C27_indexed_graph true _ _ Case.indexedGraph_peak 3 (by decide +kernel)
  exact ⟨gr, e, C27_matching gr⟩

/-- After any history an `IndexedBTreeGraph` seen as a dataset has its triples as quads of the
default graph, and lists and counts what it lists and counts as a graph: the resources of its
quads, each once and in order, and subjects, predicates and objects of its quads (C13, C17, C18
and C63 say which of them). -/
theorem C27_listings (rep : Bool) {d : IndexedBTreeGraph R} {A : Triple R → Prop}
    (h : IndexedGraphHistory rep d A) (cap : Nat) :
    ∃ gr, d.impl cap = .ok gr ∧ (∀ q, q ∈ gr.quads ↔ A ⟨q.s, q.p, q.o⟩ ∧ q.g = none) ∧
      gr.quadsCount = gr.quads.length ∧
      (d.resourceList = .ok gr.resources ∧ gr.resources.Pairwise (fun a b => compare a b = .lt) ∧
        ∀ r ∈ gr.resources, ∃ q ∈ gr.quads, r = q.s ∨ r = q.p ∨ r = q.o) ∧
      (d.subjectList = .ok gr.subjects ∧ ∀ r ∈ gr.subjects, ∃ q ∈ gr.quads, r = q.s) ∧
      (d.predicateList = .ok gr.predicates ∧ ∀ r ∈ gr.predicates, ∃ q ∈ gr.quads, r = q.p) ∧
      (d.objectList = .ok gr.objects ∧ ∀ r ∈ gr.objects, ∃ q ∈ gr.quads, r = q.o) ∧
      gr.resourceCount = d.resourceCount ∧ gr.subjectCount = d.subjectCount ∧
      gr.predicateCount = d.predicateCount ∧ gr.objectCount = d.objectCount := by
  obtain ⟨xs, e1, h1⟩ := (C06_iteration (R := R) rep).2.2.2 d A h
  obtain ⟨rs, e2, h2, h3, -⟩ := (C13_resources (R := R) rep).2.2.2 d A h
  obtain ⟨-, -, -, k1, k2, k3⟩ := C17_positions_sound (R := R) rep
  obtain ⟨ss, e3, h4⟩ := k1 d A h
  obtain ⟨ps, e4, h5⟩ := k2 d A h
  obtain ⟨os, e5, h6⟩ := k3 d A h
  have e1 : d.iter = .ok xs := e1
  refine ⟨_, by simp only [IndexedBTreeGraph.impl, e1, e2, e3, e4, e5, bind, Except.bind, pure,
    Except.pure]; rfl, ?_⟩
  have hq : ∀ t : Triple R, A t → t.intoQuad none ∈ xs.map (·.intoQuad (G := R) none) := fun t ht =>
    List.mem_map.2 ⟨t, (h1.exact t).2 ht, rfl⟩
  refine ⟨?_, by simp [GraphImpl.quads, GraphImpl.quadsCount], ⟨e2, h2, fun r hr => ?_⟩,
    ⟨e3, fun r hr => ?_⟩, ⟨e4, fun r hr => ?_⟩, ⟨e5, fun r hr => ?_⟩, rfl, rfl, rfl, rfl⟩
  · rintro ⟨s, p, o, g⟩
    rw [mem_quads, and_comm]
    simp only [h1.exact]
  · obtain ⟨t, ht, hr⟩ := h3 r hr
    exact ⟨_, hq t ht, by simpa [tripleHas, Triple.intoQuad, eq_comm] using hr⟩
  · obtain ⟨t, ht, hr⟩ := h4 r hr
    exact ⟨_, hq t ht, (Option.some.inj hr).symm⟩
  · obtain ⟨t, ht, hr⟩ := h5 r hr
    exact ⟨_, hq t ht, (Option.some.inj hr).symm⟩
  · obtain ⟨t, ht, hr⟩ := h6 r hr
    exact ⟨_, hq t ht, (Option.some.inj hr).symm⟩

example : ((IndexedBTreeGraph.container true Nat).run IndexedBTreeGraph.new
    [.insert ⟨1, 2, 3⟩, .insert ⟨4, 2, 1⟩]).bind
    (fun d => do
      let gr ← d.impl 8
      pure ([gr.resources, gr.subjects, gr.predicates, gr.objects],
        [gr.resourceCount, gr.subjectCount, gr.predicateCount, gr.objectCount]))
    = .ok ([[1, 2, 3, 4], [1, 4], [2], [1, 3]], [4, 2, 1, 2]) := by decide

example : ((IndexedBTreeGraph.container true Nat).run IndexedBTreeGraph.new
    [.insert ⟨1, 2, 3⟩, .insert ⟨1, 2, 1⟩, .insert ⟨4, 2, 1⟩]).bind
    (fun d => do
      let gr ← d.impl 8
      let m ← gr.quadMatching.start (.anySubject (.anyPredicate (.givenObject 1 .anyGraph)))
      let m' ← gr.quadMatching.start (.anySubject (.anyPredicate (.givenObject 1 .sameAsSubject)))
      pure (gr.quads, ← collectAll gr.quadMatching.next 9 m, ← collectAll gr.quadMatching.next 9 m'))
    = .ok ([⟨1, 2, 1, none⟩, ⟨1, 2, 3, none⟩, ⟨4, 2, 1, none⟩],
        [⟨1, 2, 1, none⟩, ⟨4, 2, 1, none⟩], []) := by decide

end RdfTypes.Property
