import Verif.Property.Resources
import Verif.Proof.Listings

/-!
# C63 and C64: what the lists of terms contain

The lists of subjects, predicates, objects and graph names do not follow the
statements (`C18_false`, `C19_false`). Here is what they contain instead, after any
history in which a resource is repeated within an inserted statement only when it
already occurs.
-/

namespace RdfTypes.Property

open Container Spec

variable {R : Type} [Ord R] [Std.TransOrd R] [Std.LawfulEqOrd R]

/-- Every history of that kind has a past, so the theorems below apply to it. -/
theorem past_of_history (rep : Bool) {d : IndexedBTreeDataset R} {A : Quad R → Prop} :
    DatasetReach rep knownRepeats knownRepeats True d A ↔ ∃ l, DatasetPast rep d (A :: l) := by
  refine ⟨IndexedBTreeDataset.reach_past, ?_⟩
  rintro ⟨l, h⟩
  obtain ⟨A', t, hl, hr⟩ := IndexedBTreeDataset.past_head h
  cases hl
  exact hr

/-- `subjects`, `predicates` and `objects` list, once each, exactly the terms such that
the latest call that added or took out a statement with the term at that position
added it, and the counts count them. -/
theorem C63_last_added (rep : Bool) :
    ListsByPast (DatasetPast (R := R) rep) (lastAdded (·.s)) IndexedBTreeDataset.subjectList
      IndexedBTreeDataset.subjectCount ∧
    ListsByPast (DatasetPast (R := R) rep) (lastAdded (·.p)) IndexedBTreeDataset.predicateList
      IndexedBTreeDataset.predicateCount ∧
    ListsByPast (DatasetPast (R := R) rep) (lastAdded (·.o)) IndexedBTreeDataset.objectList
      IndexedBTreeDataset.objectCount ∧
    ListsByPast (GraphPast (R := R) rep) (lastAdded (·.s)) IndexedBTreeGraph.subjectList
      IndexedBTreeGraph.subjectCount ∧
    ListsByPast (GraphPast (R := R) rep) (lastAdded (·.p)) IndexedBTreeGraph.predicateList
      IndexedBTreeGraph.predicateCount ∧
    ListsByPast (GraphPast (R := R) rep) (lastAdded (·.o)) IndexedBTreeGraph.objectList
      IndexedBTreeGraph.objectCount := by
  refine ⟨?_, ?_, ?_, ?_, ?_, ?_⟩ <;> intro d l h
  · exact IndexedBTreeDataset.past_listing (p := .subj) (by simp) (by simp [quadShape]) h
  · exact IndexedBTreeDataset.past_listing (p := .pred) (by simp) (by simp [quadShape]) h
  · exact IndexedBTreeDataset.past_listing (p := .obj) (by simp) (by simp [quadShape]) h
  · exact IndexedBTreeGraph.past_listing (p := .subj) (by simp) (by simp [tripleShape]) h
  · exact IndexedBTreeGraph.past_listing (p := .pred) (by simp) (by simp [tripleShape]) h
  · exact IndexedBTreeGraph.past_listing (p := .obj) (by simp) (by simp [tripleShape]) h

/-- `named_graphs` lists, once each, exactly the terms that have been the name of a
graph with a quad and have occurred somewhere ever since, as long as such a term
stops occurring only by taking out quads of its graph. -/
theorem C64_once_named (rep : Bool) {d : IndexedBTreeDataset R} {l : List (Quad R → Prop)}
    (h : DatasetPast rep d l) (hl : LeavesAsName l) :
    ∃ rs, d.namedGraphList = .ok rs ∧ rs.Nodup ∧ (∀ r, r ∈ rs ↔ onceNamed l r) ∧
      d.namedGraphCount = rs.length :=
  IndexedBTreeDataset.past_names_listing h hl

/-- As soon as such a term stops occurring otherwise, `named_graphs` panics. -/
theorem C64_panics (rep : Bool) {d : IndexedBTreeDataset R} {A : Quad R → Prop}
    {l : List (Quad R → Prop)} (h : DatasetPast rep d (A :: l)) (hl : LeavesAsName l)
    (ho : LeftOtherwise (A :: l)) : d.namedGraphList = .error .invalidKey :=
  IndexedBTreeDataset.past_stale h hl ho

/-- In the histories of `C64_once_named`, `remove_graph` returns a graph exactly for
the listed names, and takes out exactly the quads of that graph. -/
theorem C64_remove_graph (rep : Bool) {d : IndexedBTreeDataset R} {l : List (Quad R → Prop)}
    (h : DatasetPast rep d l) (hl : LeavesAsName l) : TakesOnceNamed rep d l := by
  intro A hA g
  have hn := IndexedBTreeDataset.past_names h hl
  cases l with
  | nil => cases hA
  | cons A' l =>
    cases hA
    obtain ⟨hs, hc⟩ := IndexedBTreeDataset.past_stands h
    obtain ⟨d', out, e, gr⟩ := IndexedBTreeDataset.removeGraph_spec rep hs.1 (some g)
    obtain ⟨h1, h2, -⟩ := IndexedBTreeDataset.removeGraph_exact hs (some g) (.inr hc) gr
    exact ⟨d', out, e, (IndexedBTreeDataset.removeGraph_isSome hs.1 hc e).trans (hn.held g), h1, h2⟩

/-- What remains of C19 after any history: `named_graphs` can only panic on a vacant slot,
and otherwise lists resources that occur in the dataset, all the graph names among them, and
the count counts them. Missing from C19: that only graph names are listed, each once, and
that there is no panic, which the code does not ensure (`C19_false`, `C19_reused_false`). -/
theorem C19_bounds_partial (rep : Bool) {d : IndexedBTreeDataset R} {A : Quad R → Prop}
    (h : IndexedDatasetHistory rep d A) :
    d.namedGraphList = .error .invalidKey ∨
    ∃ rs, d.namedGraphList = .ok rs ∧ d.namedGraphCount = rs.length ∧
      (∀ r ∈ rs, ∃ y, A y ∧ quadHas y r) ∧ ∀ y r, A y → y.g = some r → r ∈ rs := by
  have hs := IndexedBTreeDataset.reach_stands h
  by_cases hd : ∀ i ∈ d.namedGraphs, ∃ r, (indexOps R).val d.resources i = some r
  · obtain ⟨rs, h1, h2, h3, -⟩ := readResources_spec hd
    refine .inr ⟨rs, h1, h2.symm, ?_, fun y r hy hr => C19_complete_partial rep h h1 hy hr⟩
    intro r hr
    obtain ⟨i, -, hv⟩ := (h3 r).1 hr
    have hv' := hv
    unfold ResOps.val at hv'
    rw [Option.map_eq_some_iff] at hv'
    obtain ⟨x, hx, -⟩ := hv'
    obtain ⟨p, k, hu⟩ := hs.1.inv.table.used i x hx
    obtain ⟨y, r', hy, hr', hc⟩ := hs.1.inv.comp_value quadShape_laws hu
    rw [hv] at hr'
    cases hr'
    refine ⟨y, (hs.2 y).1 ⟨k, hy⟩, ?_⟩
    cases p <;> simp_all [quadShape, quadHas]
  · simp only [Classical.not_forall, not_exists] at hd
    obtain ⟨i, hi, hv⟩ := hd
    exact .inl (readResources_stale hi (Option.eq_none_iff_forall_ne_some.2 hv))

example : Case.indexedDataset.namedGraphList = .error .invalidKey ∨
    ∃ rs, Case.indexedDataset.namedGraphList = .ok rs ∧
      Case.indexedDataset.namedGraphCount = rs.length ∧
      (∀ r ∈ rs, ∃ y, y ∈ Case.quads ∧ quadHas y r) ∧
      ∀ y r, y ∈ Case.quads → y.g = some r → r ∈ rs :=
  C19_bounds_partial true (Case.indexedDataset_reached Case.any_quads)

/-! ## Cases -/

/-- After the last record of graph name 4 is gone, its slot is reused for 9. -/
def reusedOps : List (Op (Quad Nat)) :=
  staleOps ++ [.remove ⟨4, 5, 6, none⟩, .insert ⟨7, 8, 9, none⟩]

/-- Another way in which C19 and C24 are false: after `reusedOps`, `named_graphs` lists 9, and
`remove_graph(Some(9))` returns a graph, though no quad ever had 9 as graph name. -/
theorem C19_reused_false (rep : Bool) :
    (∀ y, .insert y ∈ reusedOps → y.g ≠ some 9) ∧
    ∃ d d' gr, (IndexedBTreeDataset.container rep Nat).run IndexedBTreeDataset.new reusedOps = .ok d ∧
      IndexedDatasetHistory rep d (after nothing reusedOps) ∧
      d.namedGraphList = .ok [9] ∧ d.removeGraph rep (some 9) = .ok (d', some gr) ∧
      gr.iter = .ok [] ∧ d'.iter = .ok [⟨7, 8, 9, none⟩] := by
  refine ⟨?_, ?_⟩
  · intro y hy
    simp only [reusedOps, staleOps, List.cons_append, List.nil_append, List.mem_cons,
      Op.insert.injEq, reduceCtorEq, List.not_mem_nil, or_false, false_or] at hy
    rcases hy with rfl | rfl | rfl <;> simp
  · obtain ⟨d, e, hd⟩ := IndexedBTreeDataset.run_reach rep anyCall (P := anyCall) True
      (l := reusedOps) (by simp [Allowed, reusedOps, staleOps, anyCall])
    have hl : ((IndexedBTreeDataset.container rep Nat).run IndexedBTreeDataset.new reusedOps).bind
      (fun d => do
        let (d', out) ← d.removeGraph rep (some 9)
        pure (← d.namedGraphList, ← d'.iter, ← out.elim (.error .outOfFuel) (·.iter)))
      = .ok ([9], [⟨7, 8, 9, none⟩], []) := by cases rep <;> decide
    rw [e] at hl
    obtain ⟨d', out, e', -⟩ := IndexedBTreeDataset.removeGraph_spec rep
      (IndexedBTreeDataset.reach_stands hd).1 (some 9)
    obtain ⟨n, hn⟩ : ∃ n, n = d.namedGraphList := ⟨_, rfl⟩
    obtain ⟨i, hi⟩ : ∃ i, i = d'.iter := ⟨_, rfl⟩
    simp only [Except.bind, e', bind, pure, Except.pure, ← hn, ← hi] at hl
    cases n with
    | error _ => cases hl
    | ok n =>
      cases i with
      | error _ => cases hl
      | ok i =>
        cases out with
        | none => cases hl
        | some gr =>
          obtain ⟨j, hj⟩ : ∃ j, j = gr.iter := ⟨_, rfl⟩
          simp only [Option.elim, ← hj] at hl
          cases j with
          | error _ => cases hl
          | ok j =>
            cases hl
            exact ⟨d, d', gr, e, hd, hn.symm, e', hj.symm, hi.symm⟩

/-- The contents during a list of calls. -/
def contents {S : Type} : List (S → Prop) → List (Op S) → List (S → Prop)
  | l, [] => l
  | l, op :: ops => contents (apply (l.headD nothing) op :: l) ops

theorem run_past (rep : Bool) {ops : List (Op (Quad R))} :
    ∀ {d : IndexedBTreeDataset R} {A : Quad R → Prop} {l : List (Quad R → Prop)},
    DatasetPast rep d (A :: l) → Allowed knownRepeats A ops →
    ∃ d', (IndexedBTreeDataset.container rep R).run d ops = .ok d' ∧
      DatasetPast rep d' (contents (A :: l) ops) := by
  induction ops with
  | nil => exact fun h _ => ⟨_, rfl, h⟩
  | cons op ops ih =>
    intro d A l h ha
    have hs := (IndexedBTreeDataset.past_stands h).1
    cases op with
    | insert x =>
      obtain ⟨d1, b, e, -⟩ := IndexedBTreeDataset.insert_spec rep hs.1 x
      obtain ⟨d2, e2, h2⟩ := ih (.step h (.insert ha.1 e)) ha.2
      refine ⟨d2, ?_, h2⟩
      simp only [run, step, IndexedBTreeDataset.container, bind, Except.bind, pure, Except.pure] at e2 ⊢
      rw [e]
      exact e2
    | remove x =>
      obtain ⟨d1, b, e, -⟩ := IndexedBTreeDataset.remove_spec hs.1 x
      obtain ⟨d2, e2, h2⟩ := ih (.step h (.remove e)) ha.2
      refine ⟨d2, ?_, h2⟩
      simp only [run, step, IndexedBTreeDataset.container, bind, Except.bind, pure, Except.pure] at e2 ⊢
      rw [e]
      exact e2
    | extend x => exact ha.elim

theorem known_of_distinct {A : Quad Nat → Prop} {x : Quad Nat} (h : ∀ r, ¬ quadRepeats x r) :
    knownRepeats A (.insert x) := fun r hr => (h r hr).elim

theorem dropOps_allowed : Allowed knownRepeats nothing dropOps := by
  refine ⟨?_, ?_, ?_, trivial, trivial⟩ <;>
    exact known_of_distinct (by simp [quadRepeats]; omega)

theorem staleOps_allowed : Allowed knownRepeats nothing (staleOps ++ [.remove ⟨4, 5, 6, none⟩]) := by
  refine ⟨?_, ?_, trivial, trivial, trivial⟩ <;>
    exact known_of_distinct (by simp [quadRepeats]; omega)

/-- After `dropOps` subject 1 was last taken out and subject 5 last added. -/
example : ∃ d, (IndexedBTreeDataset.container true Nat).run IndexedBTreeDataset.new dropOps = .ok d ∧
    DatasetPast true d (contents [nothing] dropOps) ∧
    ¬ lastAdded (·.s) (contents [nothing] dropOps) 1 ∧
    lastAdded (·.s) (contents [nothing] dropOps) 5 ∧ d.subjectList = .ok [5] := by
  obtain ⟨d, e, h⟩ := run_past true (.new (R := Nat)) dropOps_allowed
  have hl : ((IndexedBTreeDataset.container true Nat).run IndexedBTreeDataset.new dropOps).bind
      (·.subjectList) = .ok [5] := by decide
  rw [e] at hl
  obtain ⟨rs, e1, -, hm, -⟩ := (C63_last_added true).1 d _ h
  have : d.subjectList = .ok [5] := hl
  rw [this] at e1
  cases e1
  exact ⟨d, e, h, fun h1 => by simpa using (hm 1).2 h1, (hm 5).1 (by simp), hl⟩

/-- After `staleOps` term 4 has been a graph name and still occurs as a subject; when
that quad goes too, `named_graphs` panics. -/
example : ∃ d d', (IndexedBTreeDataset.container true Nat).run IndexedBTreeDataset.new staleOps = .ok d ∧
    DatasetPast true d (contents [nothing] staleOps) ∧
    LeavesAsName (contents [nothing] staleOps) ∧ onceNamed (contents [nothing] staleOps) 4 ∧
    DatasetPast true d' (contents [nothing] (staleOps ++ [.remove ⟨4, 5, 6, none⟩])) ∧
    LeftOtherwise (contents [nothing] (staleOps ++ [.remove ⟨4, 5, 6, none⟩])) := by
  obtain ⟨d, e, h⟩ := run_past true (.new (R := Nat)) (ops := staleOps)
    ⟨staleOps_allowed.1, staleOps_allowed.2.1, trivial, trivial⟩
  obtain ⟨d', e', h'⟩ := run_past true (.new (R := Nat)) staleOps_allowed
  have named : onceNamed (contents [nothing] staleOps) 4 := by
    simp only [contents, staleOps, apply, nothing, onceNamed, occursIn, List.headD_cons]
    refine Or.inr ⟨Or.inl ⟨⟨1, 2, 3, some 4⟩, by simp, rfl⟩, ⟨4, 5, 6, none⟩, by simp, by simp [quadHas]⟩
  refine ⟨d, d', e, h, ?_, named, h', ?_⟩
  · simp only [contents, staleOps, apply, nothing, LeavesAsName, List.headD_cons]
    refine ⟨⟨⟨trivial, ?_⟩, ?_⟩, ?_⟩
    · intro r hr _ y hy
      exact hy.elim
    · intro r hr _ y hy hn
      exact absurd (Or.inl hy) hn
    · intro r hr hno y hy hn hyr
      have : y = ⟨1, 2, 3, some 4⟩ := Classical.byContradiction fun hne => hn ⟨hy, hne⟩
      subst this
      simp only [onceNamed, occursIn] at hr
      rcases hr with ⟨z, hz, hg⟩ | ⟨hr, -⟩
      · rcases hz with (hz | rfl) | rfl
        · exact hz.elim
        · exact hg
        · cases hg
      · rcases hr with ⟨z, hz, hg⟩ | ⟨⟨z, hz, -⟩, -⟩
        · rcases hz with hz | rfl
          · exact hz.elim
          · exact hg
        · exact hz.elim
  · refine ⟨4, named, ?_, ?_⟩
    · rintro ⟨y, hy, -⟩
      simp only [apply, nothing, List.headD_cons] at hy
      obtain ⟨⟨(hy | hy) | hy, h1⟩, h2⟩ := hy
      · exact hy
      · exact h1 hy
      · exact h2 hy
    · intro y hy hn hg
      simp only [apply, nothing, List.headD_cons] at hy hn
      obtain ⟨(hy | hy) | hy, h1⟩ := hy
      · exact hy
      · exact h1 hy
      · subst hy
        cases hg

end RdfTypes.Property
