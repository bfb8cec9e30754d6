import Verif.Proof.Concrete
import Verif.Property.Sets
import Verif.Proof.ResourceClaims

/-!
# C13–C19 and C24: resources, positions and named graphs

The code violates C14, C15, C18, C19 and C24 as stated; each is refuted by a
concrete history (`_false`), for both values of `rep`, and proved for the
histories the defect does not reach (`_partial`).
-/

set_option linter.unusedSectionVars false

namespace RdfTypes.Property

open Container Spec

variable {R : Type} [Ord R] [Std.TransOrd R] [Std.LawfulEqOrd R]

/-! ## Restricted histories -/

/-- Histories of each container that satisfy a restriction throughout; for the
indexed containers also before a conversion. `takes` allows `remove_graph` and
`extract_pattern_matching`. -/
abbrev DatasetHistoryOf (rep : Bool) (P : (Quad R → Prop) → Op (Quad R) → Prop) :=
  Reach (BTreeDataset.container rep R) P

abbrev GraphHistoryOf (rep : Bool) (P : (Triple R → Prop) → Op (Triple R) → Prop) :=
  Reach (BTreeGraph.container rep R) P

abbrev IndexedDatasetHistoryOf (rep : Bool) (P : (Quad R → Prop) → Op (Quad R) → Prop)
    (takes : Prop) := DatasetReach rep P P takes

abbrev IndexedGraphHistoryOf (rep : Bool) (P : (Triple R → Prop) → Op (Triple R) → Prop) :=
  GraphReach rep P P

section examples

/-- A history with a removal that repeats a resource only once it is known. -/
def knownOps : List (Op (Quad Nat)) :=
  [.insert ⟨1, 2, 3, some 4⟩, .insert ⟨1, 2, 1, none⟩, .insert ⟨5, 2, 5, none⟩,
    .remove ⟨1, 2, 3, some 4⟩]

def knownTripleOps : List (Op (Triple Nat)) :=
  [.insert ⟨1, 2, 3⟩, .insert ⟨1, 2, 1⟩, .insert ⟨5, 2, 6⟩, .remove ⟨1, 2, 3⟩]

theorem sample_known : Allowed knownRepeats nothing (knownOps.eraseIdx 2) := by
  simp only [knownOps, List.eraseIdx, Allowed, knownRepeats, apply, nothing, quadRepeats, quadHas]
  refine ⟨?_, ?_, trivial, trivial⟩
  · intro r hr
    simp only [Option.some.injEq] at hr
    omega
  · intro r hr
    refine ⟨⟨1, 2, 3, some 4⟩, ?_, ?_⟩
    · simp
    · simp at hr ⊢
      omega

theorem sample_known_triples : Allowed knownTripleRepeats nothing knownTripleOps := by
  simp only [knownTripleOps, Allowed, knownTripleRepeats, apply, nothing, tripleRepeats, tripleHas]
  refine ⟨?_, ?_, ?_, trivial, trivial⟩
  · intro r hr
    omega
  · intro r hr
    refine ⟨⟨1, 2, 3⟩, ?_, ?_⟩
    · simp
    · simp at hr ⊢
      omega
  · intro r hr
    omega

end examples

/-! ## C13 -/

/-- C13. In the four containers, after any history, `resources` yields in strictly
ascending order resources that occur, and `contains_resource` agrees with it. -/
theorem C13_resources (rep : Bool) :
    ListsResources (DatasetHistory (R := R) rep) quadHas BTreeDataset.resourceList
      BTreeDataset.containsResource ∧
    ListsResources (GraphHistory (R := R) rep) tripleHas BTreeGraph.resourceList
      BTreeGraph.containsResource ∧
    ListsResources (IndexedDatasetHistory (R := R) rep) quadHas IndexedBTreeDataset.resourceList
      IndexedBTreeDataset.containsResource ∧
    ListsResources (IndexedGraphHistory (R := R) rep) tripleHas IndexedBTreeGraph.resourceList
      IndexedBTreeGraph.containsResource := by
  refine ⟨?_, ?_, ?_, ?_⟩
  · intro d A h
    obtain ⟨rs, hl⟩ := BTreeDataset.listing ((BTreeDataset.laws rep).reach_stands h)
    exact hl.claim
  · intro d A h
    obtain ⟨rs, hl⟩ := BTreeGraph.listing ((BTreeGraph.laws rep).reach_stands h)
    exact hl.claim
  · intro d A h
    obtain ⟨rs, hl, -⟩ := IndexedBTreeDataset.listing (IndexedBTreeDataset.reach_stands h)
    exact hl.claim
  · intro d A h
    obtain ⟨rs, hl, -⟩ := IndexedBTreeGraph.listing (IndexedBTreeGraph.reach_stands h)
    exact hl.claim

example : ((BTreeDataset.container true Nat).run BTreeDataset.new sampleOps).bind
    (fun d => do pure (← d.resourceList, ← d.containsResource 7, ← d.containsResource 8))
      = .ok ([1, 2, 3, 5, 7], true, false) := by decide

/-! ## C14 -/

/-- Inserting a statement that uses a new resource twice, then another one that
uses it, then removing the first. -/
def forgetOps : List (Op (Quad Nat)) :=
  [.insert ⟨1, 1, 2, none⟩, .insert ⟨1, 3, 4, none⟩, .remove ⟨1, 1, 2, none⟩]

def forgetTripleOps : List (Op (Triple Nat)) :=
  [.insert ⟨1, 1, 2⟩, .insert ⟨1, 3, 4⟩, .remove ⟨1, 1, 2⟩]

/-- C14 is false of the four containers: after `forgetOps`, resource 1 is not
reported although it occurs in the contained statement (1, 3, 4). -/
theorem C14_false (rep : Bool) :
    ¬ ListsAllResources (DatasetHistory (R := Nat) rep) quadHas BTreeDataset.resourceList
      BTreeDataset.containsResource ∧
    ¬ ListsAllResources (GraphHistory (R := Nat) rep) tripleHas BTreeGraph.resourceList
      BTreeGraph.containsResource ∧
    ¬ ListsAllResources (IndexedDatasetHistory (R := Nat) rep) quadHas
      IndexedBTreeDataset.resourceList IndexedBTreeDataset.containsResource ∧
    ¬ ListsAllResources (IndexedGraphHistory (R := Nat) rep) tripleHas
      IndexedBTreeGraph.resourceList IndexedBTreeGraph.containsResource := by
  have ha : Allowed anyCall nothing forgetOps := by simp [Allowed, forgetOps, anyCall]
  have ht : Allowed anyCall nothing forgetTripleOps := by simp [Allowed, forgetTripleOps, anyCall]
  refine ⟨?_, ?_, ?_, ?_⟩
  · intro h
    obtain ⟨d, e, hd⟩ := BTreeDataset.run_reach rep ha
    have h1 := (h d _ hd ⟨1, 3, 4, none⟩ 1 (by simp [after, apply, forgetOps]) (Or.inl rfl)).2
    have h2 : ((BTreeDataset.container rep Nat).run BTreeDataset.new forgetOps).bind
        (·.containsResource 1) = .ok false := by cases rep <;> decide
    rw [e] at h2
    simp [Except.bind, h1] at h2
  · intro h
    obtain ⟨d, e, hd⟩ := BTreeGraph.run_reach rep ht
    have h1 := (h d _ hd ⟨1, 3, 4⟩ 1 (by simp [after, apply, forgetTripleOps]) (Or.inl rfl)).2
    have h2 : ((BTreeGraph.container rep Nat).run BTreeGraph.new forgetTripleOps).bind
        (·.containsResource 1) = .ok false := by cases rep <;> decide
    rw [e] at h2
    simp [Except.bind, h1] at h2
  · intro h
    obtain ⟨d, e, hd⟩ := IndexedBTreeDataset.run_reach rep anyCall True ha
    have h1 := (h d _ hd ⟨1, 3, 4, none⟩ 1 (by simp [after, apply, forgetOps]) (Or.inl rfl)).2
    have h2 : ((IndexedBTreeDataset.container rep Nat).run IndexedBTreeDataset.new forgetOps).bind
        (·.containsResource 1) = .ok false := by cases rep <;> decide
    rw [e] at h2
    simp [Except.bind, h1] at h2
  · intro h
    obtain ⟨d, e, hd⟩ := IndexedBTreeGraph.run_reach rep anyCall ht
    have h1 := (h d _ hd ⟨1, 3, 4⟩ 1 (by simp [after, apply, forgetTripleOps]) (Or.inl rfl)).2
    have h2 : ((IndexedBTreeGraph.container rep Nat).run IndexedBTreeGraph.new forgetTripleOps).bind
        (·.containsResource 1) = .ok false := by cases rep <;> decide
    rw [e] at h2
    simp [Except.bind, h1] at h2

/-- C14 for histories in which a resource is used at two positions of an inserted
statement only when it already occurs in the container. Missing: other
histories, where the claim is false (`C14_false`). -/
theorem C14_known_repeats_partial (rep : Bool) (takes : Prop) :
    ListsAllResources (DatasetHistoryOf (R := R) rep knownRepeats) quadHas
      BTreeDataset.resourceList BTreeDataset.containsResource ∧
    ListsAllResources (GraphHistoryOf (R := R) rep knownTripleRepeats) tripleHas
      BTreeGraph.resourceList BTreeGraph.containsResource ∧
    ListsAllResources (IndexedDatasetHistoryOf (R := R) rep knownRepeats takes) quadHas
      IndexedBTreeDataset.resourceList IndexedBTreeDataset.containsResource ∧
    ListsAllResources (IndexedGraphHistoryOf (R := R) rep knownTripleRepeats) tripleHas
      IndexedBTreeGraph.resourceList IndexedBTreeGraph.containsResource := by
  refine ⟨?_, ?_, ?_, ?_⟩
  · intro d A h y r hy hr
    obtain ⟨rs, hl⟩ := BTreeDataset.listing ((BTreeDataset.laws rep).reach_stands h)
    exact hl.all (BTreeDataset.reach_clean (fun _ _ h => h) h).covers hy hr
  · intro d A h y r hy hr
    obtain ⟨rs, hl⟩ := BTreeGraph.listing ((BTreeGraph.laws rep).reach_stands h)
    exact hl.all (BTreeGraph.reach_clean (fun _ _ h => h) h).covers hy hr
  · intro d A h y r hy hr
    obtain ⟨rs, hl, -⟩ := IndexedBTreeDataset.listing (IndexedBTreeDataset.reach_stands h)
    exact hl.all (IndexedBTreeDataset.reach_clean (fun _ _ h => h) (fun _ _ h => h) h).covers hy hr
  · intro d A h y r hy hr
    obtain ⟨rs, hl, -⟩ := IndexedBTreeGraph.listing (IndexedBTreeGraph.reach_stands h)
    exact hl.all (IndexedBTreeGraph.reach_clean (fun _ _ h => h) (fun _ _ h => h) h).covers hy hr

example : ∃ d, (BTreeDataset.container true Nat).run BTreeDataset.new (knownOps.eraseIdx 2) = .ok d ∧
    DatasetHistoryOf true knownRepeats d (after nothing (knownOps.eraseIdx 2)) :=
  BTreeDataset.run_reach true sample_known

example : ∃ d, (IndexedBTreeGraph.container true Nat).run IndexedBTreeGraph.new knownTripleOps
      = .ok d ∧ IndexedGraphHistoryOf true knownTripleRepeats d (after nothing knownTripleOps) :=
  IndexedBTreeGraph.run_reach true _ sample_known_triples

/-- C14 for histories of insertions (and conversion), with any repetitions. -/
theorem C14_insert_only_partial (rep : Bool) :
    ListsAllResources (DatasetHistoryOf (R := R) rep insertOnly) quadHas
      BTreeDataset.resourceList BTreeDataset.containsResource ∧
    ListsAllResources (GraphHistoryOf (R := R) rep insertOnly) tripleHas
      BTreeGraph.resourceList BTreeGraph.containsResource ∧
    ListsAllResources (IndexedDatasetHistoryOf (R := R) rep insertOnly False) quadHas
      IndexedBTreeDataset.resourceList IndexedBTreeDataset.containsResource ∧
    ListsAllResources (IndexedGraphHistoryOf (R := R) rep insertOnly) tripleHas
      IndexedBTreeGraph.resourceList IndexedBTreeGraph.containsResource := by
  refine ⟨?_, ?_, ?_, ?_⟩
  · intro d A h y r hy hr
    obtain ⟨rs, hl⟩ := BTreeDataset.listing ((BTreeDataset.laws rep).reach_stands h)
    exact hl.all (BTreeDataset.reach_covers (fun _ _ h => h) h) hy hr
  · intro d A h y r hy hr
    obtain ⟨rs, hl⟩ := BTreeGraph.listing ((BTreeGraph.laws rep).reach_stands h)
    exact hl.all (BTreeGraph.reach_covers (fun _ _ h => h) h) hy hr
  · intro d A h y r hy hr
    obtain ⟨rs, hl, -⟩ := IndexedBTreeDataset.listing (IndexedBTreeDataset.reach_stands h)
    exact hl.all (IndexedBTreeDataset.reach_covers (fun _ _ h => h) (fun _ _ h => h) h) hy hr
  · intro d A h y r hy hr
    obtain ⟨rs, hl, -⟩ := IndexedBTreeGraph.listing (IndexedBTreeGraph.reach_stands h)
    exact hl.all (IndexedBTreeGraph.reach_covers (fun _ _ h => h) (fun _ _ h => h) h) hy hr

example : ∃ d, (BTreeDataset.container true Nat).run BTreeDataset.new (forgetOps.take 2) = .ok d ∧
    DatasetHistoryOf true insertOnly d (after nothing (forgetOps.take 2)) :=
  BTreeDataset.run_reach true (by simp [Allowed, forgetOps, insertOnly])

/-! ## C15 -/

/-- C15 is false of both indexed containers: after one insertion of a statement
that repeats a new resource, the resource is counted twice. -/
theorem C15_false (rep : Bool) :
    ¬ CountsListed (IndexedDatasetHistory (R := Nat) rep) IndexedBTreeDataset.resourceCount
      IndexedBTreeDataset.resourceList ∧
    ¬ CountsListed (IndexedGraphHistory (R := Nat) rep) IndexedBTreeGraph.resourceCount
      IndexedBTreeGraph.resourceList := by
  refine ⟨?_, ?_⟩
  · intro h
    obtain ⟨d, e, hd⟩ := IndexedBTreeDataset.run_reach rep anyCall True (P := anyCall)
      (l := forgetOps.take 1) (by simp [Allowed, forgetOps, anyCall])
    obtain ⟨rs, h1, h2⟩ := h d _ hd
    have h3 : ((IndexedBTreeDataset.container rep Nat).run IndexedBTreeDataset.new
        (forgetOps.take 1)).bind (fun d => do
          let rs ← d.resourceList
          pure (d.resourceCount == rs.length)) = .ok false := by
      cases rep <;> decide
    rw [e] at h3
    simp [Except.bind, h1, h2, bind, pure, Except.pure] at h3
  · intro h
    obtain ⟨d, e, hd⟩ := IndexedBTreeGraph.run_reach rep anyCall (P := anyCall)
      (l := forgetTripleOps.take 1) (by simp [Allowed, forgetTripleOps, anyCall])
    obtain ⟨rs, h1, h2⟩ := h d _ hd
    have h3 : ((IndexedBTreeGraph.container rep Nat).run IndexedBTreeGraph.new
        (forgetTripleOps.take 1)).bind (fun d => do
          let rs ← d.resourceList
          pure (d.resourceCount == rs.length)) = .ok false := by
      cases rep <;> decide
    rw [e] at h3
    simp [Except.bind, h1, h2, bind, pure, Except.pure] at h3

/-- C15 for histories in which a resource is used at two positions of an inserted
statement only when it already occurs in the container. Missing: other
histories, where the claim is false (`C15_false`). -/
theorem C15_known_repeats_partial (rep : Bool) (takes : Prop) :
    CountsListed (IndexedDatasetHistoryOf (R := R) rep knownRepeats takes)
      IndexedBTreeDataset.resourceCount IndexedBTreeDataset.resourceList ∧
    CountsListed (IndexedGraphHistoryOf (R := R) rep knownTripleRepeats)
      IndexedBTreeGraph.resourceCount IndexedBTreeGraph.resourceList := by
  refine ⟨?_, ?_⟩
  · intro d A h
    obtain ⟨rs, hl, hc⟩ := IndexedBTreeDataset.listing (IndexedBTreeDataset.reach_stands h)
    exact ⟨rs, hl.ok, hc (IndexedBTreeDataset.reach_clean (fun _ _ h => h) (fun _ _ h => h) h)⟩
  · intro d A h
    obtain ⟨rs, hl, hc⟩ := IndexedBTreeGraph.listing (IndexedBTreeGraph.reach_stands h)
    exact ⟨rs, hl.ok, hc (IndexedBTreeGraph.reach_clean (fun _ _ h => h) (fun _ _ h => h) h)⟩

example : ((IndexedBTreeGraph.container true Nat).run IndexedBTreeGraph.new knownTripleOps).bind
    (fun d => do pure (d.resourceCount, ← d.resourceList)) = .ok (4, [1, 2, 5, 6]) := by decide

/-! ## C16 -/

/-- C16. Conversion does not panic and preserves membership, iteration, size,
resources and membership of resources; the result is a state of the indexed
container with the same set, so that every theorem about indexed histories
applies to it. -/
theorem C16_conversion (rep : Bool) :
    (∀ (g : BTreeDataset R) A, DatasetHistory rep g A →
      ∃ d, IndexedBTreeDataset.fromNonIndexed g = .ok d ∧ IndexedDatasetHistory rep d A ∧
        (∀ x, d.contains x = g.contains x) ∧ d.iter = g.iter ∧ d.len = g.len ∧
        d.resourceList = g.resourceList ∧ ∀ r, d.containsResource r = g.containsResource r) ∧
    (∀ (g : BTreeGraph R) A, GraphHistory rep g A →
      ∃ d, IndexedBTreeGraph.fromNonIndexed g = .ok d ∧ IndexedGraphHistory rep d A ∧
        (∀ x, d.contains x = g.contains x) ∧ d.iter = g.iter ∧ d.len = g.len ∧
        d.resourceList = g.resourceList ∧ ∀ r, d.containsResource r = g.containsResource r) := by
  refine ⟨?_, ?_⟩
  · intro g A h
    have hg := (BTreeDataset.laws rep).reach_stands h
    obtain ⟨d, e, w, -, a, -, -, hr, -⟩ := IndexedBTreeDataset.fromNonIndexed_spec hg.1
    have hd : IndexedDatasetHistory rep d A := .convert h e
    have hs := IndexedBTreeDataset.reach_stands hd
    refine ⟨d, e, hd, ?_, ?_, ?_, hr, ?_⟩
    · intro x
      obtain ⟨b, hb, hbi⟩ := IndexedBTreeDataset.contains_spec w x
      obtain ⟨b', hb', hbi'⟩ := BTreeDataset.contains_spec hg.1 x
      rw [hb, hb']
      rw [a] at hbi
      cases b <;> cases b' <;> simp_all
    · obtain ⟨xs, h1, h2, -⟩ := IndexedBTreeDataset.iter_spec hs.1
      obtain ⟨ys, h1', h2', -⟩ := BTreeDataset.iter_spec hg.1
      rw [h1, h1']
      exact congrArg Except.ok (h2.unique h2' a)
    · have := IndexedBTreeDataset.fromNonIndexed_quads e
      simp only [IndexedBTreeDataset.len, BTreeDataset.len, this]
    · intro r
      obtain ⟨rs, hl, -⟩ := IndexedBTreeDataset.listing hs
      obtain ⟨rs', hl'⟩ := BTreeDataset.listing hg
      rw [← hr] at hl'
      exact hl.contains_eq hl' r
  · intro g A h
    have hg := (BTreeGraph.laws rep).reach_stands h
    obtain ⟨d, e, w, -, a, -, -, hr, -⟩ := IndexedBTreeGraph.fromNonIndexed_spec hg.1
    have hd : IndexedGraphHistory rep d A := .convert h e
    have hs := IndexedBTreeGraph.reach_stands hd
    refine ⟨d, e, hd, ?_, ?_, ?_, hr, ?_⟩
    · intro x
      obtain ⟨b, hb, hbi⟩ := IndexedBTreeGraph.contains_spec w x
      obtain ⟨b', hb', hbi'⟩ := BTreeGraph.contains_spec hg.1 x
      rw [hb, hb']
      rw [a] at hbi
      cases b <;> cases b' <;> simp_all
    · obtain ⟨xs, h1, h2, -⟩ := IndexedBTreeGraph.iter_spec hs.1
      obtain ⟨ys, h1', h2', -⟩ := BTreeGraph.iter_spec hg.1
      rw [h1, h1']
      exact congrArg Except.ok (h2.unique h2' a)
    · have := IndexedBTreeGraph.fromNonIndexed_triples e
      simp only [IndexedBTreeGraph.len, BTreeGraph.len, this]
    · intro r
      obtain ⟨rs, hl, -⟩ := IndexedBTreeGraph.listing hs
      obtain ⟨rs', hl'⟩ := BTreeGraph.listing hg
      rw [← hr] at hl'
      exact hl.contains_eq hl' r

example : ((BTreeDataset.container true Nat).run BTreeDataset.new sampleOps).bind
    (fun g => do
      let d ← IndexedBTreeDataset.fromNonIndexed g
      pure (← d.iter, d.len, ← d.resourceList, ← d.subjectList, ← d.namedGraphList))
    = .ok ([⟨1, 1, 2, some 5⟩, ⟨7, 2, 3, some 1⟩], 2, [1, 2, 3, 5, 7], [1, 7], [1, 5]) := by decide

/-! ## C17 -/

/-- C17. In both indexed containers, after any history, `subjects`, `predicates` and
`objects` yield only terms that occur at that position. -/
theorem C17_positions_sound (rep : Bool) :
    ListsOnly (IndexedDatasetHistory (R := R) rep) (fun q => some q.s)
      IndexedBTreeDataset.subjectList ∧
    ListsOnly (IndexedDatasetHistory (R := R) rep) (fun q => some q.p)
      IndexedBTreeDataset.predicateList ∧
    ListsOnly (IndexedDatasetHistory (R := R) rep) (fun q => some q.o)
      IndexedBTreeDataset.objectList ∧
    ListsOnly (IndexedGraphHistory (R := R) rep) (fun t => some t.s)
      IndexedBTreeGraph.subjectList ∧
    ListsOnly (IndexedGraphHistory (R := R) rep) (fun t => some t.p)
      IndexedBTreeGraph.predicateList ∧
    ListsOnly (IndexedGraphHistory (R := R) rep) (fun t => some t.o)
      IndexedBTreeGraph.objectList := by
  refine ⟨?_, ?_, ?_, ?_, ?_, ?_⟩
  · intro d A h
    have hs := IndexedBTreeDataset.reach_stands h
    obtain ⟨rs, h1, -, h3, -⟩ := IndexedBTreeDataset.pos_listing hs (p := .subj) hs.1.subj
    exact ⟨rs, h1, h3⟩
  · intro d A h
    have hs := IndexedBTreeDataset.reach_stands h
    obtain ⟨rs, h1, -, h3, -⟩ := IndexedBTreeDataset.pos_listing hs (p := .pred) hs.1.pred
    exact ⟨rs, h1, h3⟩
  · intro d A h
    have hs := IndexedBTreeDataset.reach_stands h
    obtain ⟨rs, h1, -, h3, -⟩ := IndexedBTreeDataset.pos_listing hs (p := .obj) hs.1.obj
    exact ⟨rs, h1, h3⟩
  · intro d A h
    have hs := IndexedBTreeGraph.reach_stands h
    obtain ⟨rs, h1, -, h3, -⟩ := IndexedBTreeGraph.pos_listing hs (p := .subj) hs.1.subj
    exact ⟨rs, h1, h3⟩
  · intro d A h
    have hs := IndexedBTreeGraph.reach_stands h
    obtain ⟨rs, h1, -, h3, -⟩ := IndexedBTreeGraph.pos_listing hs (p := .pred) hs.1.pred
    exact ⟨rs, h1, h3⟩
  · intro d A h
    have hs := IndexedBTreeGraph.reach_stands h
    obtain ⟨rs, h1, -, h3, -⟩ := IndexedBTreeGraph.pos_listing hs (p := .obj) hs.1.obj
    exact ⟨rs, h1, h3⟩

example : ((IndexedBTreeDataset.container true Nat).run IndexedBTreeDataset.new sampleOps).bind
    (fun d => do pure (← d.subjectList, ← d.predicateList, ← d.objectList))
    = .ok ([7], [1], [2]) := by decide

/-! ## C18 -/

/-- Removing a quad whose subject, predicate and object occur in other quads. -/
def dropOps : List (Op (Quad Nat)) :=
  [.insert ⟨1, 2, 3, none⟩, .insert ⟨1, 2, 4, none⟩, .insert ⟨5, 6, 3, none⟩,
    .remove ⟨1, 2, 3, none⟩]

def dropTripleOps : List (Op (Triple Nat)) :=
  [.insert ⟨1, 2, 3⟩, .insert ⟨1, 2, 4⟩, .insert ⟨5, 6, 3⟩, .remove ⟨1, 2, 3⟩]

/-- C18 is false of both indexed containers at each of the three positions. After
`dropOps`, subject 1, predicate 2 and object 3 are not listed although they occur
in the statements left. -/
theorem C18_false (rep : Bool) :
    ¬ ListsAll (IndexedDatasetHistory (R := Nat) rep) (fun q => some q.s)
      IndexedBTreeDataset.subjectList ∧
    ¬ ListsAll (IndexedDatasetHistory (R := Nat) rep) (fun q => some q.p)
      IndexedBTreeDataset.predicateList ∧
    ¬ ListsAll (IndexedDatasetHistory (R := Nat) rep) (fun q => some q.o)
      IndexedBTreeDataset.objectList ∧
    ¬ ListsAll (IndexedGraphHistory (R := Nat) rep) (fun t => some t.s)
      IndexedBTreeGraph.subjectList ∧
    ¬ ListsAll (IndexedGraphHistory (R := Nat) rep) (fun t => some t.p)
      IndexedBTreeGraph.predicateList ∧
    ¬ ListsAll (IndexedGraphHistory (R := Nat) rep) (fun t => some t.o)
      IndexedBTreeGraph.objectList := by
  obtain ⟨d, e, hd⟩ := IndexedBTreeDataset.run_reach rep anyCall (P := anyCall) True (l := dropOps)
    (by simp [Allowed, dropOps, anyCall])
  obtain ⟨g, eg, hg⟩ := IndexedBTreeGraph.run_reach rep anyCall (P := anyCall) (l := dropTripleOps)
    (by simp [Allowed, dropTripleOps, anyCall])
  have hl : ((IndexedBTreeDataset.container rep Nat).run IndexedBTreeDataset.new dropOps).bind
      (fun d => do pure (← d.subjectList, ← d.predicateList, ← d.objectList))
      = .ok ([5], [6], [4]) := by cases rep <;> decide
  have hlg : ((IndexedBTreeGraph.container rep Nat).run IndexedBTreeGraph.new dropTripleOps).bind
      (fun d => do pure (← d.subjectList, ← d.predicateList, ← d.objectList))
      = .ok ([5], [6], [4]) := by cases rep <;> decide
  rw [e] at hl
  rw [eg] at hlg
  have hA : after nothing dropOps ⟨1, 2, 4, none⟩ ∧ after nothing dropOps ⟨5, 6, 3, none⟩ := by
    simp [after, apply, dropOps]
  have hAg : after nothing dropTripleOps ⟨1, 2, 4⟩ ∧ after nothing dropTripleOps ⟨5, 6, 3⟩ := by
    simp [after, apply, dropTripleOps]
  simp only [Except.bind, bind, pure, Except.pure] at hl hlg
  refine ⟨?_, ?_, ?_, ?_, ?_, ?_⟩
  · intro h
    obtain ⟨rs, h1, h2⟩ := h d _ hd _ _ hA.1 rfl
    simp only [h1] at hl
    (repeat' split at hl) <;> simp_all
  · intro h
    obtain ⟨rs, h1, h2⟩ := h d _ hd _ _ hA.1 rfl
    simp only [h1] at hl
    (repeat' split at hl) <;> simp_all
  · intro h
    obtain ⟨rs, h1, h2⟩ := h d _ hd _ _ hA.2 rfl
    simp only [h1] at hl
    (repeat' split at hl) <;> simp_all
  · intro h
    obtain ⟨rs, h1, h2⟩ := h g _ hg _ _ hAg.1 rfl
    simp only [h1] at hlg
    (repeat' split at hlg) <;> simp_all
  · intro h
    obtain ⟨rs, h1, h2⟩ := h g _ hg _ _ hAg.1 rfl
    simp only [h1] at hlg
    (repeat' split at hlg) <;> simp_all
  · intro h
    obtain ⟨rs, h1, h2⟩ := h g _ hg _ _ hAg.2 rfl
    simp only [h1] at hlg
    (repeat' split at hlg) <;> simp_all

/-- Even without removals a term can be listed twice, when an inserted statement
repeats a new resource. -/
def twiceOps : List (Op (Quad Nat)) := [.insert ⟨1, 1, 1, none⟩, .insert ⟨1, 3, 1, none⟩]

theorem C18_twice_false (rep : Bool) :
    ¬ (ListsEachOnce (IndexedDatasetHistoryOf (R := Nat) rep insertOnly False) (fun q => some q.s)
        IndexedBTreeDataset.subjectList IndexedBTreeDataset.subjectCount ∧
      ListsEachOnce (IndexedDatasetHistoryOf (R := Nat) rep insertOnly False) (fun q => some q.o)
        IndexedBTreeDataset.objectList IndexedBTreeDataset.objectCount) := by
  obtain ⟨d, e, hd⟩ := IndexedBTreeDataset.run_reach rep insertOnly (P := insertOnly) False
    (l := twiceOps) (by simp [Allowed, twiceOps, insertOnly])
  rintro ⟨h1, h2⟩
  obtain ⟨rs, e1, n1, -⟩ := h1 d _ hd
  obtain ⟨rs', e2, n2, -⟩ := h2 d _ hd
  have hl : ((IndexedBTreeDataset.container rep Nat).run IndexedBTreeDataset.new twiceOps).bind
      (fun d => do
        let s ← d.subjectList
        let o ← d.objectList
        pure (decide (s.Nodup ∧ o.Nodup))) = .ok false := by cases rep <;> decide
  rw [e] at hl
  simp [Except.bind, bind, pure, Except.pure, e1, e2, n1, n2] at hl

/-- C18 without the count, when on the indexed container a statement is removed only
if no other statement has the same term at that position (before a conversion
anything may happen). Missing: other removals, `remove_graph` and
`extract_pattern_matching`, where the claim is false (`C18_false`). -/
theorem C18_last_with_partial (rep : Bool) :
    ListsAll (DatasetReach (R := R) rep anyCall (lastWith (·.s)) False) (fun q => some q.s)
      IndexedBTreeDataset.subjectList ∧
    ListsAll (DatasetReach (R := R) rep anyCall (lastWith (·.p)) False) (fun q => some q.p)
      IndexedBTreeDataset.predicateList ∧
    ListsAll (DatasetReach (R := R) rep anyCall (lastWith (·.o)) False) (fun q => some q.o)
      IndexedBTreeDataset.objectList ∧
    ListsAll (GraphReach (R := R) rep anyCall (lastWith (·.s))) (fun t => some t.s)
      IndexedBTreeGraph.subjectList ∧
    ListsAll (GraphReach (R := R) rep anyCall (lastWith (·.p))) (fun t => some t.p)
      IndexedBTreeGraph.predicateList ∧
    ListsAll (GraphReach (R := R) rep anyCall (lastWith (·.o))) (fun t => some t.o)
      IndexedBTreeGraph.objectList := by
  have H : ∀ {S T T' : Type} {f : S → T} {g : S → T'} (_ : ∀ y x, g y = g x → f y = f x)
      (A : S → Prop) (op : Op S), lastWith f A op → lastWith g A op := by
    intro S T T' f g hfg A op h
    cases op with
    | remove x => exact fun hx y hy he => h hx y hy (hfg y x he)
    | insert x => trivial
    | extend l => trivial
  refine ⟨?_, ?_, ?_, ?_, ?_, ?_⟩
  · intro d A h y r hy hr
    have hs := IndexedBTreeDataset.reach_stands h
    obtain ⟨rs, h1, -, -, h4, -⟩ := IndexedBTreeDataset.pos_listing hs (p := .subj) hs.1.subj
    exact ⟨rs, h1, h4 (IndexedBTreeDataset.reach_posFull (by simp)
      (H (by simp [quadShape])) h) y r hy hr⟩
  · intro d A h y r hy hr
    have hs := IndexedBTreeDataset.reach_stands h
    obtain ⟨rs, h1, -, -, h4, -⟩ := IndexedBTreeDataset.pos_listing hs (p := .pred) hs.1.pred
    exact ⟨rs, h1, h4 (IndexedBTreeDataset.reach_posFull (by simp)
      (H (by simp [quadShape])) h) y r hy hr⟩
  · intro d A h y r hy hr
    have hs := IndexedBTreeDataset.reach_stands h
    obtain ⟨rs, h1, -, -, h4, -⟩ := IndexedBTreeDataset.pos_listing hs (p := .obj) hs.1.obj
    exact ⟨rs, h1, h4 (IndexedBTreeDataset.reach_posFull (by simp)
      (H (by simp [quadShape])) h) y r hy hr⟩
  · intro d A h y r hy hr
    have hs := IndexedBTreeGraph.reach_stands h
    obtain ⟨rs, h1, -, -, h4, -⟩ := IndexedBTreeGraph.pos_listing hs (p := .subj) hs.1.subj
    exact ⟨rs, h1, h4 (IndexedBTreeGraph.reach_posFull (by simp)
      (H (by simp [tripleShape])) h) y r hy hr⟩
  · intro d A h y r hy hr
    have hs := IndexedBTreeGraph.reach_stands h
    obtain ⟨rs, h1, -, -, h4, -⟩ := IndexedBTreeGraph.pos_listing hs (p := .pred) hs.1.pred
    exact ⟨rs, h1, h4 (IndexedBTreeGraph.reach_posFull (by simp)
      (H (by simp [tripleShape])) h) y r hy hr⟩
  · intro d A h y r hy hr
    have hs := IndexedBTreeGraph.reach_stands h
    obtain ⟨rs, h1, -, -, h4, -⟩ := IndexedBTreeGraph.pos_listing hs (p := .obj) hs.1.obj
    exact ⟨rs, h1, h4 (IndexedBTreeGraph.reach_posFull (by simp)
      (H (by simp [tripleShape])) h) y r hy hr⟩

example : ∃ rs, Case.indexedDataset.subjectList = .ok rs ∧ 5 ∈ rs :=
  (C18_last_with_partial true).1 _ _
    (Case.indexedDataset_reached (Case.last_quads (·.s) (by decide) (by decide)))
    ⟨5, 2, 3, some 9⟩ 5 (by decide) rfl

example : ∃ rs, Case.indexedGraph.objectList = .ok rs ∧ 4 ∈ rs :=
  (C18_last_with_partial true).2.2.2.2.2 _ _
    (Case.indexedGraph_reached (Case.last_triples (·.o) (by decide) (by decide)))
    ⟨1, 2, 4⟩ 4 (by decide) rfl

/-- The histories of `C18_each_once_partial` at position `f`. -/
abbrev lastAndKnown {T : Type} (f : Quad R → T) := both (lastWith f) knownRepeats

abbrev lastAndKnownTriple {T : Type} (f : Triple R → T) := both (lastWith f) knownTripleRepeats

/-- The whole of C18, when moreover a resource is used at two positions of an
inserted statement only when it already occurs. -/
theorem C18_each_once_partial (rep : Bool) :
    ListsEachOnce (DatasetReach (R := R) rep knownRepeats (lastAndKnown (·.s)) False)
      (fun q => some q.s) IndexedBTreeDataset.subjectList IndexedBTreeDataset.subjectCount ∧
    ListsEachOnce (DatasetReach (R := R) rep knownRepeats (lastAndKnown (·.p)) False)
      (fun q => some q.p) IndexedBTreeDataset.predicateList IndexedBTreeDataset.predicateCount ∧
    ListsEachOnce (DatasetReach (R := R) rep knownRepeats (lastAndKnown (·.o)) False)
      (fun q => some q.o) IndexedBTreeDataset.objectList IndexedBTreeDataset.objectCount ∧
    ListsEachOnce (GraphReach (R := R) rep knownTripleRepeats (lastAndKnownTriple (·.s)))
      (fun t => some t.s) IndexedBTreeGraph.subjectList IndexedBTreeGraph.subjectCount ∧
    ListsEachOnce (GraphReach (R := R) rep knownTripleRepeats (lastAndKnownTriple (·.p)))
      (fun t => some t.p) IndexedBTreeGraph.predicateList IndexedBTreeGraph.predicateCount ∧
    ListsEachOnce (GraphReach (R := R) rep knownTripleRepeats (lastAndKnownTriple (·.o)))
      (fun t => some t.o) IndexedBTreeGraph.objectList IndexedBTreeGraph.objectCount := by
  have any : ∀ {S : Type} (A : S → Prop) (op : Op S), anyCall A op := fun _ _ => trivial
  obtain ⟨a1, a2, a3, a4, a5, a6⟩ := C18_last_with_partial (R := R) rep
  refine ⟨?_, ?_, ?_, ?_, ?_, ?_⟩
  · intro d A h
    have hs := IndexedBTreeDataset.reach_stands h
    have hc := IndexedBTreeDataset.reach_clean (fun _ _ h => h) (fun _ _ h => h.2) h
    obtain ⟨rs, h1, h2, h3, -, h5⟩ := IndexedBTreeDataset.pos_listing hs (p := .subj) hs.1.subj
    refine ⟨rs, h1, h5 hc, fun r => ⟨h3 r, ?_⟩, h2⟩
    rintro ⟨y, hy, hr⟩
    obtain ⟨rs', e', hm⟩ := a1 d A (h.mono (fun _ _ _ => any _ _) (fun _ _ h => h.1) id) y r hy hr
    cases Except.ok.inj (e'.symm.trans h1)
    exact hm
  · intro d A h
    have hs := IndexedBTreeDataset.reach_stands h
    have hc := IndexedBTreeDataset.reach_clean (fun _ _ h => h) (fun _ _ h => h.2) h
    obtain ⟨rs, h1, h2, h3, -, h5⟩ := IndexedBTreeDataset.pos_listing hs (p := .pred) hs.1.pred
    refine ⟨rs, h1, h5 hc, fun r => ⟨h3 r, ?_⟩, h2⟩
    rintro ⟨y, hy, hr⟩
    obtain ⟨rs', e', hm⟩ := a2 d A (h.mono (fun _ _ _ => any _ _) (fun _ _ h => h.1) id) y r hy hr
    cases Except.ok.inj (e'.symm.trans h1)
    exact hm
  · intro d A h
    have hs := IndexedBTreeDataset.reach_stands h
    have hc := IndexedBTreeDataset.reach_clean (fun _ _ h => h) (fun _ _ h => h.2) h
    obtain ⟨rs, h1, h2, h3, -, h5⟩ := IndexedBTreeDataset.pos_listing hs (p := .obj) hs.1.obj
    refine ⟨rs, h1, h5 hc, fun r => ⟨h3 r, ?_⟩, h2⟩
    rintro ⟨y, hy, hr⟩
    obtain ⟨rs', e', hm⟩ := a3 d A (h.mono (fun _ _ _ => any _ _) (fun _ _ h => h.1) id) y r hy hr
    cases Except.ok.inj (e'.symm.trans h1)
    exact hm
  · intro d A h
    have hs := IndexedBTreeGraph.reach_stands h
    have hc := IndexedBTreeGraph.reach_clean (fun _ _ h => h) (fun _ _ h => h.2) h
    obtain ⟨rs, h1, h2, h3, -, h5⟩ := IndexedBTreeGraph.pos_listing hs (p := .subj) hs.1.subj
    refine ⟨rs, h1, h5 hc, fun r => ⟨h3 r, ?_⟩, h2⟩
    rintro ⟨y, hy, hr⟩
    obtain ⟨rs', e', hm⟩ := a4 d A (h.mono (fun _ _ _ => any _ _) (fun _ _ h => h.1)) y r hy hr
    cases Except.ok.inj (e'.symm.trans h1)
    exact hm
  · intro d A h
    have hs := IndexedBTreeGraph.reach_stands h
    have hc := IndexedBTreeGraph.reach_clean (fun _ _ h => h) (fun _ _ h => h.2) h
    obtain ⟨rs, h1, h2, h3, -, h5⟩ := IndexedBTreeGraph.pos_listing hs (p := .pred) hs.1.pred
    refine ⟨rs, h1, h5 hc, fun r => ⟨h3 r, ?_⟩, h2⟩
    rintro ⟨y, hy, hr⟩
    obtain ⟨rs', e', hm⟩ := a5 d A (h.mono (fun _ _ _ => any _ _) (fun _ _ h => h.1)) y r hy hr
    cases Except.ok.inj (e'.symm.trans h1)
    exact hm
  · intro d A h
    have hs := IndexedBTreeGraph.reach_stands h
    have hc := IndexedBTreeGraph.reach_clean (fun _ _ h => h) (fun _ _ h => h.2) h
    obtain ⟨rs, h1, h2, h3, -, h5⟩ := IndexedBTreeGraph.pos_listing hs (p := .obj) hs.1.obj
    refine ⟨rs, h1, h5 hc, fun r => ⟨h3 r, ?_⟩, h2⟩
    rintro ⟨y, hy, hr⟩
    obtain ⟨rs', e', hm⟩ := a6 d A (h.mono (fun _ _ _ => any _ _) (fun _ _ h => h.1)) y r hy hr
    cases Except.ok.inj (e'.symm.trans h1)
    exact hm

/-- A history with a removal allowed at the object position. -/
def lastOps : List (Op (Quad Nat)) :=
  [.insert ⟨1, 2, 3, some 4⟩, .insert ⟨1, 2, 5, none⟩, .remove ⟨1, 2, 3, some 4⟩]

example : ∃ d, (IndexedBTreeDataset.container true Nat).run IndexedBTreeDataset.new lastOps = .ok d ∧
    DatasetReach true knownRepeats (lastAndKnown (·.o)) False d (after nothing lastOps) := by
  refine IndexedBTreeDataset.run_reach true _ _ ?_
  simp only [Allowed, lastOps, both, lastWith, knownRepeats, apply, nothing, quadRepeats, quadHas]
  refine ⟨⟨trivial, ?_⟩, ⟨trivial, ?_⟩, ⟨?_, trivial⟩, trivial⟩
  · intro r hr
    simp only [Option.some.injEq] at hr
    omega
  · intro r hr
    simp at hr
    omega
  · rintro - y (hy | rfl) <;> simp_all

/-! ## C19 -/

/-- After the only quad of graph 4 is removed while 4 occurs as a subject. -/
def staleOps : List (Op (Quad Nat)) :=
  [.insert ⟨1, 2, 3, some 4⟩, .insert ⟨4, 5, 6, none⟩, .remove ⟨1, 2, 3, some 4⟩]

/-- C19 is false: after `staleOps`, `named_graphs` yields 4, which is the graph of no
quad; after removing the other quad too, `named_graphs` panics. -/
theorem C19_false (rep : Bool) :
    (∃ d A, IndexedDatasetHistory (R := Nat) rep d A ∧ d.namedGraphList = .ok [4] ∧
      ¬ ∃ y, A y ∧ y.g = some 4) ∧
    (∃ d A, IndexedDatasetHistory (R := Nat) rep d A ∧ (∀ y, ¬ A y) ∧
      d.namedGraphList = .error .invalidKey) := by
  refine ⟨?_, ?_⟩
  · obtain ⟨d, e, hd⟩ := IndexedBTreeDataset.run_reach rep anyCall (P := anyCall) True
      (l := staleOps) (by simp [Allowed, staleOps, anyCall])
    have hl : ((IndexedBTreeDataset.container rep Nat).run IndexedBTreeDataset.new staleOps).bind
      (·.namedGraphList) = .ok [4] := by cases rep <;> decide
    rw [e] at hl
    refine ⟨d, _, hd, hl, ?_⟩
    rintro ⟨y, hy, hg⟩
    simp only [after, staleOps, apply, nothing] at hy
    obtain ⟨(h | rfl) | rfl, hne⟩ := hy <;> simp_all
  · obtain ⟨d, e, hd⟩ := IndexedBTreeDataset.run_reach rep anyCall (P := anyCall) True
      (l := staleOps ++ [.remove ⟨4, 5, 6, none⟩]) (by simp [Allowed, staleOps, anyCall])
    have hl : ((IndexedBTreeDataset.container rep Nat).run IndexedBTreeDataset.new
      (staleOps ++ [.remove ⟨4, 5, 6, none⟩])).bind
      (·.namedGraphList) = .error .invalidKey := by cases rep <;> decide
    rw [e] at hl
    refine ⟨d, _, hd, ?_, hl⟩
    intro y hy
    simp only [after, staleOps, apply, nothing, List.cons_append, List.nil_append] at hy
    obtain ⟨⟨(h | rfl) | rfl, hne⟩, hne'⟩ := hy <;> simp_all

/-- C19 for histories in which graph names occur only as graph names, with any
removals, `remove_graph` and extraction. Missing: histories where a graph name
also occurs elsewhere, for which the claim is false (`C19_false`). -/
theorem C19_names_apart_partial (rep : Bool) :
    ListsOnly (IndexedDatasetHistoryOf (R := R) rep graphNamesApart True) (·.g)
      IndexedBTreeDataset.namedGraphList ∧
    ListsAll (IndexedDatasetHistoryOf (R := R) rep graphNamesApart True) (·.g)
      IndexedBTreeDataset.namedGraphList := by
  refine ⟨?_, ?_⟩
  · intro d A h
    have hs := IndexedBTreeDataset.reach_stands h
    obtain ⟨rs, h1, -, h3, -⟩ := IndexedBTreeDataset.pos_listing hs (p := .graph)
      (IndexedBTreeDataset.reach_named (fun _ _ h => h) (fun _ _ h => h) h)
    exact ⟨rs, h1, h3⟩
  · intro d A h y r hy hr
    have hs := IndexedBTreeDataset.reach_stands h
    obtain ⟨rs, h1, -, -, h4, -⟩ := IndexedBTreeDataset.pos_listing hs (p := .graph)
      (IndexedBTreeDataset.reach_named (fun _ _ h => h) (fun _ _ h => h) h)
    exact ⟨rs, h1, h4 hs.1.named y r hy hr⟩

example : ∃ rs, Case.indexedDataset.namedGraphList = .ok rs ∧
    ∀ r ∈ rs, ∃ y ∈ Case.quads, y.g = some r :=
  (C19_names_apart_partial true).1 _ _ (Case.indexedDataset_reached Case.apart_quads)

def apartOps : List (Op (Quad Nat)) :=
  [.insert ⟨1, 2, 3, some 4⟩, .insert ⟨1, 5, 6, some 7⟩, .remove ⟨1, 2, 3, some 4⟩]

theorem sample_apart : Allowed graphNamesApart nothing apartOps := by
  simp only [Allowed, apartOps, graphNamesApart, apply, nothing, false_or]
  refine ⟨?_, ?_, trivial, trivial⟩
  · rintro y z r rfl rfl h
    cases h
    decide
  · rintro y z r (rfl | rfl) (rfl | rfl) h <;> cases h <;> decide

example : ∃ d, (IndexedBTreeDataset.container true Nat).run IndexedBTreeDataset.new apartOps = .ok d ∧
    IndexedDatasetHistoryOf true graphNamesApart True d (after nothing apartOps) :=
  IndexedBTreeDataset.run_reach true _ _ sample_apart

/-- C19 for histories that only insert after the conversion, if any. -/
theorem C19_insert_only_partial (rep : Bool) :
    ListsOnly (DatasetReach (R := R) rep anyCall insertOnly False) (·.g)
      IndexedBTreeDataset.namedGraphList ∧
    ListsAll (DatasetReach (R := R) rep anyCall insertOnly False) (·.g)
      IndexedBTreeDataset.namedGraphList := by
  refine ⟨?_, ?_⟩
  · intro d A h
    have hs := IndexedBTreeDataset.reach_stands h
    obtain ⟨rs, h1, -, h3, -⟩ := IndexedBTreeDataset.pos_listing hs (p := .graph)
      (IndexedBTreeDataset.reach_full (fun _ _ h => h) h).named
    exact ⟨rs, h1, h3⟩
  · intro d A h y r hy hr
    have hs := IndexedBTreeDataset.reach_stands h
    obtain ⟨rs, h1, -, -, h4, -⟩ := IndexedBTreeDataset.pos_listing hs (p := .graph)
      (IndexedBTreeDataset.reach_full (fun _ _ h => h) h).named
    exact ⟨rs, h1, h4 hs.1.named y r hy hr⟩

example : ∃ d, ∃ rs, (IndexedBTreeDataset.container true Nat).run IndexedBTreeDataset.new
      (Case.quadCalls.take 3) = .ok d ∧ d.namedGraphList = .ok rs ∧ 9 ∈ rs := by
  obtain ⟨d, e, hd⟩ := IndexedBTreeDataset.run_reach true anyCall False
    (P := insertOnly) (l := Case.quadCalls.take 3) ⟨trivial, trivial, trivial, trivial⟩
  obtain ⟨rs, h, hm⟩ := (C19_insert_only_partial true).2 _ _ hd ⟨1, 2, 4, some 9⟩ 9 (.inr rfl) rfl
  exact ⟨d, rs, e, h, hm⟩

/-- After any history, `named_graphs` misses no graph whenever it does not panic. -/
theorem C19_complete_partial (rep : Bool) {d : IndexedBTreeDataset R} {A : Quad R → Prop}
    (h : IndexedDatasetHistory rep d A) {rs : List R} (e : d.namedGraphList = .ok rs)
    {y : Quad R} {r : R} (hy : A y) (hr : y.g = some r) : r ∈ rs := by
  have hs := IndexedBTreeDataset.reach_stands h
  exact hs.1.inv.pos_complete quadShape_laws (p := .graph) hs.1.named e ((hs.2 y).2 hy) hr

example : ((IndexedBTreeDataset.container true Nat).run IndexedBTreeDataset.new sampleOps).bind
    (·.namedGraphList) = .ok [1, 5] := by decide

/-! ## C24 -/

/-- C24 is false: on the empty dataset `remove_graph(None)` returns a graph, and after
`staleOps` `remove_graph(Some(4))` returns a graph though no quad is in it. -/
theorem C24_false (rep : Bool) :
    ¬ RemovesGraph rep (IndexedDatasetHistory (R := Nat) rep) (· = none) ∧
    ¬ RemovesGraph rep (IndexedDatasetHistory (R := Nat) rep) (· = some 4) := by
  refine ⟨?_, ?_⟩
  · intro h
    obtain ⟨d', out, e, ho, -⟩ := h IndexedBTreeDataset.new nothing .new none rfl
    have : (IndexedBTreeDataset.new.removeGraph rep (none : Option Nat)).map (·.2.isSome)
      = .ok true := by cases rep <;> decide
    rw [e] at this
    simp only [Except.map, Except.ok.injEq] at this
    obtain ⟨y, hy, -⟩ := ho.1 this
    exact hy
  · obtain ⟨d, e, hd⟩ := IndexedBTreeDataset.run_reach rep anyCall (P := anyCall) True
      (l := staleOps) (by simp [Allowed, staleOps, anyCall])
    intro h
    obtain ⟨d', out, e', ho, -⟩ := h d _ hd (some 4) rfl
    have : ((IndexedBTreeDataset.container rep Nat).run IndexedBTreeDataset.new staleOps).bind
      (fun d => (d.removeGraph rep (some 4)).map (·.2.isSome)) = .ok true := by
      cases rep <;> decide
    rw [e] at this
    simp only [Except.bind, e', Except.map, Except.ok.injEq] at this
    obtain ⟨y, hy, hg⟩ := ho.1 this
    simp only [after, staleOps, apply, nothing] at hy
    obtain ⟨(h | rfl) | rfl, hne⟩ := hy <;> simp_all

/-- After any history `remove_graph` does not panic, returns only triples of that
graph, and removes exactly the quads it returns. Missing from C24: that all the
quads of the graph are returned, and that `None` is returned for an empty graph,
which the code does not ensure. -/
theorem C24_any_history_partial (rep : Bool) :
    TakesGraph rep (IndexedDatasetHistory (R := R) rep) := by
  intro d A h g
  have hs := IndexedBTreeDataset.reach_stands h
  obtain ⟨d', out, e, gr⟩ := IndexedBTreeDataset.removeGraph_spec rep hs.1 g
  refine ⟨d', out, e, ?_, ?_⟩
  · intro w hw t
    obtain ⟨b, hb, hbi⟩ := BTreeGraph.contains_spec (gr.outWF w hw) t
    exact ⟨b, hb, fun ht => (hs.2 _).1 (gr.sound w t hw (hbi.1 ht))⟩
  · intro y
    have hs' := IndexedBTreeDataset.reach_stands (h.removeGraph trivial e)
    obtain ⟨b, hb, hbi⟩ := IndexedBTreeDataset.contains_spec gr.wf y
    exact ⟨b, hb, hbi.trans (hs'.2 y)⟩

example : ∃ d' out, Case.indexedDataset.removeGraph true (some 9) = .ok (d', out) ∧
    (∀ gr, out = some gr → ∀ t, ∃ b, gr.contains t = .ok b ∧
      (b = true → t.intoQuad (some 9) ∈ Case.quads)) ∧
    ∀ y, ∃ b, d'.contains y = .ok b ∧ (b = true ↔ y ∈ Case.quads ∧ ¬ returned (some 9) out y) :=
  C24_any_history_partial true _ _ (Case.indexedDataset_reached Case.any_quads) (some 9)

/-- The rest of C24 for the default graph, after any history: all and only its quads
are taken out. -/
theorem C24_default_graph_partial (rep : Bool) :
    RemovesDefaultGraph rep (IndexedDatasetHistory (R := R) rep) := by
  intro d A h
  have hs := IndexedBTreeDataset.reach_stands h
  obtain ⟨d', out, e, gr⟩ := IndexedBTreeDataset.removeGraph_spec rep hs.1 none
  obtain ⟨h1, h2, -⟩ := IndexedBTreeDataset.removeGraph_exact hs none (.inl rfl) gr
  cases out with
  | none => exact (gr.some_default rfl rfl).elim
  | some w => exact ⟨d', w, e, h1 w rfl, h2⟩

example : ((IndexedBTreeDataset.container true Nat).run IndexedBTreeDataset.new dropOps).bind
    (fun d => do
      let (d', out) ← d.removeGraph true none
      pure (← d'.iter, ← out.elim (pure []) (·.iter)))
    = .ok ([], [⟨1, 2, 4⟩, ⟨5, 6, 3⟩]) := by decide

/-- The whole of C24 for named graphs, for histories in which graph names occur only
as graph names and repeated resources are known. -/
theorem C24_named_graph_partial (rep : Bool) :
    RemovesGraph (R := R) rep
      (IndexedDatasetHistoryOf rep (both knownRepeats graphNamesApart) True) (· ≠ none) := by
  intro d A h g hg
  have hs := IndexedBTreeDataset.reach_stands h
  have hc := IndexedBTreeDataset.reach_clean (fun _ _ h => h.1) (fun _ _ h => h.1) h
  obtain ⟨d', out, e, gr⟩ := IndexedBTreeDataset.removeGraph_spec rep hs.1 g
  obtain ⟨h1, h2, h3⟩ := IndexedBTreeDataset.removeGraph_exact hs g (.inr hc) gr
  refine ⟨d', out, e, ⟨fun ho => ?_, h3⟩, h1, h2⟩
  obtain ⟨y, hy, hyg⟩ := gr.some_named
    (IndexedBTreeDataset.reach_named (fun _ _ h => h.2) (fun _ _ h => h.2) h)
    (by cases out <;> simp_all) hg
  exact ⟨y, (hs.2 y).1 hy, hyg⟩

example : ∃ d' out, Case.indexedDataset.removeGraph true (some 9) = .ok (d', out) ∧
    (out.isSome = true ↔ ∃ y, y ∈ Case.quads ∧ y.g = some 9) ∧
    (∀ gr, out = some gr → ∀ t, ∃ b, gr.contains t = .ok b ∧
      (b = true ↔ t.intoQuad (some 9) ∈ Case.quads)) ∧
    ∀ y, ∃ b, d'.contains y = .ok b ∧ (b = true ↔ y ∈ Case.quads ∧ y.g ≠ some 9) :=
  C24_named_graph_partial true _ _
    (Case.indexedDataset_reached (Case.allowed_both Case.known_quads Case.apart_quads)) (some 9)
    (by decide)

/-- The same for histories that only insert after the conversion, if any, wherever
graph names occur. -/
theorem C24_named_graph_insert_only_partial (rep : Bool) :
    RemovesGraph (R := R) rep
      (DatasetReach rep knownRepeats (both knownRepeats insertOnly) False) (· ≠ none) := by
  intro d A h g hg
  have hs := IndexedBTreeDataset.reach_stands h
  have hc := IndexedBTreeDataset.reach_clean (fun _ _ h => h) (fun _ _ h => h.1) h
  obtain ⟨d', out, e, gr⟩ := IndexedBTreeDataset.removeGraph_spec rep hs.1 g
  obtain ⟨h1, h2, h3⟩ := IndexedBTreeDataset.removeGraph_exact hs g (.inr hc) gr
  refine ⟨d', out, e, ⟨fun ho => ?_, h3⟩, h1, h2⟩
  obtain ⟨y, hy, hyg⟩ := gr.some_named (IndexedBTreeDataset.reach_full (fun _ _ h => h.2) h).named
    (by cases out <;> simp_all) hg
  exact ⟨y, (hs.2 y).1 hy, hyg⟩

example : ∃ d, (IndexedBTreeDataset.container true Nat).run IndexedBTreeDataset.new apartOps = .ok d ∧
    IndexedDatasetHistoryOf true (both knownRepeats graphNamesApart) True d
      (after nothing apartOps) := by
  refine IndexedBTreeDataset.run_reach true _ _ ?_
  obtain ⟨h1, h2, h3, -⟩ := sample_apart
  refine ⟨⟨?_, h1⟩, ⟨?_, h2⟩, ⟨trivial, h3⟩, trivial⟩ <;>
  · intro r hr
    simp [quadRepeats] at hr
    omega

example : ((IndexedBTreeDataset.container true Nat).run IndexedBTreeDataset.new apartOps).bind
    (fun d => do
      let (d', out) ← d.removeGraph true (some 7)
      let (_, out') ← d.removeGraph true (some 4)
      pure (← d'.iter, ← out.elim (pure []) (·.iter), out'.isSome))
    = .ok ([], [⟨1, 5, 6⟩], false) := by decide

end RdfTypes.Property
