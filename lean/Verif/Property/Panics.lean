import Verif.Proof.Ends
import Verif.Property.Listings
import Verif.Property.Contents
import Verif.Property.PatternMatching

/-!
# C84, C85: calls that return, and iterators that have ended

What the other theorems say about panics one method at a time, put together.
-/

set_option linter.unusedSectionVars false

namespace RdfTypes.Property

open Spec Container

variable {R : Type} [Ord R] [Std.TransOrd R] [Std.LawfulEqOrd R]

private theorem common {S D : Type} [Ord S] {c : Container S D} {Reach : D → (S → Prop) → Prop}
    (h1 : IsSet c Reach) (h2 : Iterates c Reach) (h3 : Consumes c Reach) {d : D} {A : S → Prop}
    (h : Reach d A) : CommonReturn c d := by
  refine commonReturn (fun x => ?_) (fun x => ?_) (fun l => ?_) (fun x => ?_) ?_ ?_
  · obtain ⟨d', b, e⟩ := (h1 d A h x).2.1
    exact ⟨_, e⟩
  · obtain ⟨d', b, e⟩ := (h1 d A h x).2.2.1
    exact ⟨_, e⟩
  · cases l with
    | nil => exact ⟨d, rfl⟩
    | cons x l =>
      obtain ⟨d', e⟩ := (h1 d A h x).2.2.2 (x :: l)
      exact ⟨_, e⟩
  · obtain ⟨b, e, -⟩ := (h1 d A h x).1
    exact ⟨_, e⟩
  · obtain ⟨xs, e, -⟩ := h2 d A h
    exact ⟨_, e⟩
  · obtain ⟨xs, -, e⟩ := h3 d A h
    exact ⟨_, e⟩

/-- C84, the methods of all four containers: after any history they return. -/
theorem C84_common (rep : Bool) :
    AllFour (R := R) rep (fun c Reach => ∀ d A, Reach d A → CommonReturn c d) := by
  obtain ⟨i1, i2, i3, i4⟩ := C06_iteration (R := R) rep
  obtain ⟨o1, o2, o3, o4⟩ := C12_into_iter (R := R) rep
  exact ⟨fun d A => common ((BTreeDataset.laws rep).isSet
      fun d A => (BTreeDataset.laws rep).reach_stands) i1 o1,
    fun d A => common ((BTreeGraph.laws rep).isSet
      fun d A => (BTreeGraph.laws rep).reach_stands) i2 o2,
    fun d A => common (C03_indexed_dataset rep).1 i3 o3,
    fun d A => common (C04_indexed_graph rep).2 i4 o4⟩

/-- C84, making containers: collecting statements, reading a document and conversion return. -/
theorem C84_making (rep : Bool) :
    AllFour (R := R) rep (fun c _ => MakingReturns c) ∧
    (∀ (d : BTreeDataset R) A, DatasetHistory rep d A →
      Returns (IndexedBTreeDataset.fromNonIndexed d)) ∧
    (∀ (d : BTreeGraph R) A, GraphHistory rep d A →
      Returns (IndexedBTreeGraph.fromNonIndexed d)) := by
  refine ⟨⟨?_, ?_, ?_, ?_⟩, fun d A h => ?_, fun d A h => ?_⟩
  · refine makingReturns (Reach := fun d => ∃ A, DatasetHistory rep d A) ⟨_, .new⟩ ?_
    rintro d x ⟨A, h⟩
    obtain ⟨⟨d', b⟩, e⟩ := ((C84_common rep).1 d A h).insert x
    exact ⟨d', b, e, _, .insert h trivial e⟩
  · refine makingReturns (Reach := fun d => ∃ A, GraphHistory rep d A) ⟨_, .new⟩ ?_
    rintro d x ⟨A, h⟩
    obtain ⟨⟨d', b⟩, e⟩ := ((C84_common rep).2.1 d A h).insert x
    exact ⟨d', b, e, _, .insert h trivial e⟩
  · refine makingReturns (Reach := fun d => ∃ A, IndexedDatasetHistory rep d A) ⟨_, .new⟩ ?_
    rintro d x ⟨A, h⟩
    obtain ⟨⟨d', b⟩, e⟩ := ((C84_common rep).2.2.1 d A h).insert x
    exact ⟨d', b, e, _, .insert h trivial e⟩
  · refine makingReturns (Reach := fun d => ∃ A, IndexedGraphHistory rep d A) ⟨_, .new⟩ ?_
    rintro d x ⟨A, h⟩
    obtain ⟨⟨d', b⟩, e⟩ := ((C84_common rep).2.2.2 d A h).insert x
    exact ⟨d', b, e, _, .insert h trivial e⟩
  · obtain ⟨d', e, -⟩ := (C16_conversion rep).1 d A h
    exact ⟨d', e⟩
  · obtain ⟨d', e, -⟩ := (C16_conversion rep).2 d A h
    exact ⟨d', e⟩

/-- C84, the resources of the plain containers. -/
theorem C84_resources (rep : Bool) :
    (∀ (d : BTreeDataset R) A, DatasetHistory rep d A →
      Returns d.resourceList ∧ ∀ r, Returns (d.containsResource r)) ∧
    (∀ (d : BTreeGraph R) A, GraphHistory rep d A →
      Returns d.resourceList ∧ ∀ r, Returns (d.containsResource r)) := by
  refine ⟨fun d A h => ?_, fun d A h => ?_⟩
  · obtain ⟨rs, e, -, -, hc⟩ := (C13_resources rep).1 d A h
    exact ⟨⟨rs, e⟩, fun r => ⟨_, (hc r).choose_spec.1⟩⟩
  · obtain ⟨rs, e, -, -, hc⟩ := (C13_resources rep).2.1 d A h
    exact ⟨⟨rs, e⟩, fun r => ⟨_, (hc r).choose_spec.1⟩⟩

/-- C84, the further methods of an indexed dataset: after any history they return, except that
`named_graphs` may read a vacant slot (as it does in `C19_false`). -/
theorem C84_indexed_dataset (rep : Bool) {d : IndexedBTreeDataset R} {A : Quad R → Prop}
    (h : IndexedDatasetHistory rep d A) {cap fuel : Nat} (hcap : datasetSlots d ≤ cap)
    (hfuel : cap < fuel) : DatasetReturns rep cap fuel d := by
  have hs := IndexedBTreeDataset.reach_stands h
  have hb := IndexedBTreeDataset.bounded hs hcap
  obtain ⟨rs, e, -, -, hc⟩ := (C13_resources rep).2.2.1 d A h
  obtain ⟨hs1, hp1, ho1, -⟩ := C17_positions_sound (R := R) rep
  obtain ⟨ps, hp, -⟩ := hp1 d A h
  refine ⟨⟨rs, e⟩, fun r => ⟨_, (hc r).choose_spec.1⟩, ?_, ⟨ps, hp⟩, ?_, ?_, fun g => ?_,
    fun pat => ?_, fun pat => ?_, fun pat n => ?_, fun g s => ?_, hb.search hfuel⟩
  · obtain ⟨l, e, -⟩ := hs1 d A h
    exact ⟨l, e⟩
  · obtain ⟨l, e, -⟩ := ho1 d A h
    exact ⟨l, e⟩
  · rcases C19_bounds_partial rep h with h | ⟨l, e, -⟩
    · exact .inr h
    · exact .inl ⟨l, e⟩
  · obtain ⟨d', out, e⟩ := (C03_indexed_dataset rep).2.1 d A g h
    exact ⟨_, e⟩
  · obtain ⟨xs, e, -⟩ := (C20_sound rep).1 d A h cap hcap pat
    exact ⟨xs, e⟩
  · obtain ⟨xs, e, -⟩ := C22_sound_partial rep d A h cap hcap pat
    exact ⟨xs, e⟩
  · obtain ⟨d', out, ended, e⟩ := (C03_indexed_dataset rep).2.2 d A pat cap n h hcap
    exact ⟨_, e⟩
  · exact Returns.bind ⟨ps, hp⟩ fun _ _ => hb.predicates hfuel _ _ _

/-- C84, the further methods of an indexed graph, and those that it has as a dataset. -/
theorem C84_indexed_graph (rep : Bool) {d : IndexedBTreeGraph R} {A : Triple R → Prop}
    (h : IndexedGraphHistory rep d A) {cap fuel : Nat} (hcap : graphSlots d ≤ cap)
    (hfuel : cap < fuel) : GraphReturns cap fuel d := by
  have hs := IndexedBTreeGraph.reach_stands h
  have hb := IndexedBTreeGraph.bounded hs hcap
  obtain ⟨xs, e0, -⟩ := (C06_iteration (R := R) rep).2.2.2 d A h
  have e0 : d.iter = .ok xs := e0
  obtain ⟨rs, e, -, -, hc⟩ := (C13_resources rep).2.2.2 d A h
  obtain ⟨-, -, -, hs1, hp1, ho1⟩ := C17_positions_sound (R := R) rep
  obtain ⟨ss, e1, -⟩ := hs1 d A h
  obtain ⟨ps, e2, -⟩ := hp1 d A h
  obtain ⟨os, e3, -⟩ := ho1 d A h
  refine ⟨⟨rs, e⟩, fun r => ⟨_, (hc r).choose_spec.1⟩, ⟨ss, e1⟩, ⟨ps, e2⟩, ⟨os, e3⟩,
    fun pat => ?_, fun s => ?_, hb.graphSearch hfuel, ?_⟩
  · obtain ⟨xs, e, -⟩ := (C20_sound rep).2 d A h cap hcap pat
    exact ⟨xs, e⟩
  · exact Returns.bind ⟨ps, e2⟩ fun _ _ => hb.predicates hfuel _ _ _
  · refine ⟨_, by simp only [IndexedBTreeGraph.impl, e0, e, e1, e2, e3, bind, Except.bind, pure,
      Except.pure]; rfl, ?_⟩
    exact Bounded.search (Bounded.asDataset (cap := cap) hb) hfuel

/-- C84, comparing any two of the four containers up to isomorphism, with any interpretation. -/
theorem C84_isomorphism {I L : Type} [DecidableEq R] [DecidableEq I] [DecidableEq L]
    (i : ReverseInterpretation R I L) {rep : Bool} {ds ds' : List (Quad R)} {c c' : AnyContainer R}
    (h : HoldsQuads rep ds c) (h' : HoldsQuads rep ds' c') :
    Returns (findBijectionIn i c c') ∧ Returns (areIsomorphicIn i c c') := by
  obtain ⟨o, e, -, e', -⟩ := C82_contents i h h' h h'
  exact ⟨⟨o, e⟩, ⟨_, e'⟩⟩

/-! ## C85 -/

/-- C85, indexed datasets: whatever the number of calls, `pattern_matching`,
`multi_pattern_matching` and `extract_pattern_matching` give the items that running them to the
end gives, and then nothing any more. Extraction leaves the dataset as it is from then on. -/
theorem C85_dataset (rep : Bool) {d : IndexedBTreeDataset R} {A : Quad R → Prop}
    (h : IndexedDatasetHistory rep d A) {cap : Nat} (hcap : datasetSlots d ≤ cap) :
    (∀ pat, ∃ m xs, d.matcher pat = .ok m ∧ d.patternMatching cap pat = .ok xs ∧
      ∀ n, ∃ m', nextCalls (d.matchNext cap) n m = .ok (thenNothing xs n, m')) ∧
    (∀ pat, ∃ m xs, d.multiMatcher pat = .ok m ∧ d.multiPatternMatching cap pat = .ok xs ∧
      ∀ n, ∃ m', nextCalls (d.matchNext cap) n m = .ok (thenNothing xs n, m')) ∧
    (∀ pat, ∃ m xs d', d.matcher pat = .ok m ∧
      d.extractPatternMatching cap pat (cap + 1) = .ok (d', xs, true) ∧
      ∀ n, ∃ m' d'', nextCalls (fun s => s.2.extractNext cap s.1) n (m, d) =
        .ok (thenNothing xs n, m', d'') ∧ (xs.length < n → d'' = d')) := by
  refine ⟨fun pat => ?_, fun pat => ?_, fun pat => ?_⟩
  · obtain ⟨xs, e, -⟩ := (C20_sound rep).1 d A h cap hcap pat
    obtain ⟨m, em, ec⟩ := ok_of_bind e
    obtain ⟨s, hy⟩ := yieldsTo_of_yields (yields_of_collectAll ec).1
    refine ⟨m, xs, em, e, fun n => ?_⟩
    obtain ⟨t, ht, -⟩ := (IndexedBTreeDataset.matchNext_fused cap d).calls hy n
    exact ⟨t, ht⟩
  · obtain ⟨xs, e, -⟩ := C22_sound_partial rep d A h cap hcap pat
    obtain ⟨m, em, ec⟩ := ok_of_bind e
    obtain ⟨s, hy⟩ := yieldsTo_of_yields (yields_of_collectAll ec).1
    refine ⟨m, xs, em, e, fun n => ?_⟩
    obtain ⟨t, ht, -⟩ := (IndexedBTreeDataset.matchNext_fused cap d).calls hy n
    exact ⟨t, ht⟩
  · obtain ⟨d', xs, ended, e, -, -, -, -, -, he⟩ :=
      C23_extracts_partial rep d A h cap hcap pat (cap + 1)
    obtain rfl := he (by omega)
    obtain ⟨m, em, ec⟩ := ok_of_bind e
    obtain ⟨m', hy⟩ := yieldsTo_of_extractLoop ec
    refine ⟨m, xs, d', em, e, fun n => ?_⟩
    obtain ⟨⟨m₁, d₁⟩, ht, hl⟩ := (extractStep_fused cap).calls hy n
    refine ⟨m₁, d₁, ht, fun hn => ?_⟩
    have := hl hn
    rw [Prod.mk.injEq] at this
    exact this.2

/-- C85, indexed graphs, also seen as datasets. -/
theorem C85_graph (rep : Bool) {d : IndexedBTreeGraph R} {A : Triple R → Prop}
    (h : IndexedGraphHistory rep d A) {cap : Nat} (hcap : graphSlots d ≤ cap) :
    (∀ pat, ∃ m xs, d.matcher pat = .ok m ∧ d.patternMatching cap pat = .ok xs ∧
      ∀ n, ∃ m', nextCalls (d.matchNext cap) n m = .ok (thenNothing xs n, m')) ∧
    ∃ gr, d.impl cap = .ok gr ∧ ∀ pat, ∃ m xs, gr.quadMatching.start pat = .ok m ∧
      ∀ n, ∃ m', nextCalls gr.quadMatching.next n m = .ok (thenNothing xs n, m') := by
  refine ⟨fun pat => ?_, ?_⟩
  · obtain ⟨xs, e, -⟩ := (C20_sound rep).2 d A h cap hcap pat
    obtain ⟨m, em, ec⟩ := ok_of_bind e
    obtain ⟨s, hy⟩ := yieldsTo_of_yields (yields_of_collectAll ec).1
    refine ⟨m, xs, em, e, fun n => ?_⟩
    obtain ⟨t, ht, -⟩ := (IndexedBTreeGraph.matchNext_fused cap d).calls hy n
    exact ⟨t, ht⟩
  · obtain ⟨gr, e, hr⟩ := (C84_indexed_graph rep h hcap (Nat.lt_succ_self cap)).asDataset
    refine ⟨gr, e, fun pat => ?_⟩
    have hm : gr.matching = d.matching cap := by
      unfold IndexedBTreeGraph.impl at e
      obtain ⟨_, -, e⟩ := ok_of_bind e
      obtain ⟨_, -, e⟩ := ok_of_bind e
      obtain ⟨_, -, e⟩ := ok_of_bind e
      obtain ⟨_, -, e⟩ := ok_of_bind e
      obtain ⟨_, -, e⟩ := ok_of_bind e
      simp only [pure, Except.pure, Except.ok.injEq] at e
      subst e
      rfl
    have hb := Bounded.asDataset (gr := gr) (cap := cap)
      (hm ▸ IndexedBTreeGraph.bounded (IndexedBTreeGraph.reach_stands h) hcap)
    obtain ⟨m, xs, e', hy, -⟩ := hb.yields pat
    obtain ⟨s, hy⟩ := yieldsTo_of_yields hy
    refine ⟨m, xs, e', fun n => ?_⟩
    obtain ⟨t, ht, -⟩ := hb.fused.calls hy n
    exact ⟨t, ht⟩

/-- C85, the iterators made from another one, which need not be over a container: the objects of
the items, and the view of the fallible traits. -/
theorem C85_derived {M X R : Type} {next : M → Res (Option X × M)} {m : M} {xs : List X}
    (h : ∀ n, ∃ m', nextCalls next n m = .ok (thenNothing xs n, m')) :
    (∀ (f : X → R) n, ∃ s, nextCalls (objectsNext next f) n (none, m) =
      .ok (thenNothing (xs.map f) n, s)) ∧
    (∀ (f : X → R) x n, ∃ s, nextCalls (objectsNext next f) n (some x, m) =
      .ok (thenNothing (x :: xs.map f) n, s)) ∧
    ∀ n, ∃ m', nextCalls (infallibleNext next) n m = .ok (thenNothing (xs.map .ok) n, m') := by
  refine ⟨fun f n => ?_, fun f x n => ?_, fun n => ?_⟩
  · obtain ⟨m', e⟩ := h n
    exact ⟨_, by rw [calls_objects f e, thenNothing_map]⟩
  · cases n with
    | zero => exact ⟨_, rfl⟩
    | succ n =>
      obtain ⟨m', e⟩ := h n
      refine ⟨(none, m'), ?_⟩
      simp only [nextCalls, objectsNext, pure, Except.pure, calls_objects f e, thenNothing_map,
        thenNothing_cons]
  · obtain ⟨m', e⟩ := h n
    exact ⟨_, by rw [calls_infallible e, thenNothing_map]⟩

/-! ## Cases -/

/-- The states considered include one obtained by conversion and then changed. -/
example : ∃ (d : IndexedBTreeDataset Nat) (A : Quad Nat → Prop), IndexedDatasetHistory true d A ∧
    d.contains ⟨1, 1, 2, some 5⟩ = .ok true ∧
    DatasetReturns true (datasetSlots d) (datasetSlots d + 1) d := by
  obtain ⟨d, A, h, h1, -⟩ := sample_indexed_dataset
  exact ⟨d, A, h, h1, C84_indexed_dataset true h (Nat.le_refl _) (Nat.lt_succ_self _)⟩

example : ∃ (d : IndexedBTreeGraph Nat) (A : Triple Nat → Prop), IndexedGraphHistory true d A ∧
    d.contains ⟨1, 1, 2⟩ = .ok true ∧ GraphReturns (graphSlots d) (graphSlots d + 1) d := by
  obtain ⟨d, A, h, h1, -⟩ := sample_indexed_graph
  exact ⟨d, A, h, h1, C84_indexed_graph true h (Nat.le_refl _) (Nat.lt_succ_self _)⟩

/-- The exception. -/
example : ((IndexedBTreeDataset.container true Nat).run IndexedBTreeDataset.new
    (staleOps ++ [.remove ⟨4, 5, 6, none⟩])).bind (·.namedGraphList) = .error .invalidKey := by
  decide

/-- Two items, and then three calls after the end; of extraction too. -/
example : ((IndexedBTreeDataset.container true Nat).run IndexedBTreeDataset.new refillOps).bind
    (fun d => do
      let m ← d.matcher (.anySubject (.givenPredicate 5 (.anyObject .anyGraph)))
      let (l, _) ← nextCalls (d.matchNext 8) 5 m
      let (k, _, d') ← nextCalls (fun s => s.2.extractNext 8 s.1) 5 (m, d)
      pure [l, k, (← d'.iter).map some]) =
    .ok [[some ⟨4, 5, 4, none⟩, some ⟨4, 5, 6, some 7⟩, none, none, none],
      [some ⟨4, 5, 4, none⟩, some ⟨4, 5, 6, some 7⟩, none, none, none], []] := by decide

/-- An iterator that is not over a container. -/
example : ∀ n, ∃ s, nextCalls (objectsNext (fun m : Nat => if m = 0 then .ok (none, 0) else
    .ok (some m, m - 1)) (· * 10)) n (some 30, 2) = .ok (thenNothing [30, 20, 10] n, s) := by
  refine (C85_derived (xs := [2, 1]) fun n => ?_).2.1 (· * 10) 30
  have key : ∀ n, nextCalls (fun m : Nat => if m = 0 then .ok (none, 0) else .ok (some m, m - 1)) n 0 =
      .ok (List.replicate n none, 0) := by
    intro n
    induction n with
    | zero => rfl
    | succ n ih => simp only [nextCalls, if_true, ih, List.replicate_succ]
  match n with
  | 0 => exact ⟨2, rfl⟩
  | 1 => exact ⟨1, rfl⟩
  | n + 2 =>
    refine ⟨0, ?_⟩
    simp [nextCalls, key, thenNothing_cons]
    simp [thenNothing]

/-- The containers of the cases, with a reused slot. -/
example : CommonReturn (BTreeDataset.container true Nat) Case.dataset ∧
    CommonReturn (IndexedBTreeGraph.container true Nat) Case.indexedGraph ∧
    Returns Case.dataset.resourceList ∧ Returns Case.graph.resourceList ∧
    Returns (IndexedBTreeDataset.fromNonIndexed Case.dataset) ∧
    Returns (IndexedBTreeGraph.fromNonIndexed Case.graph) :=
  ⟨(C84_common true).1 _ _ (Case.dataset_reached Case.any_quads),
    (C84_common true).2.2.2 _ _ (Case.indexedGraph_reached Case.any_triples),
    ((C84_resources true).1 _ _ (Case.dataset_reached Case.any_quads)).1,
    ((C84_resources true).2 _ _ (Case.graph_reached Case.any_triples)).1,
    (C84_making true).2.1 _ _ (Case.dataset_reached Case.any_quads),
    (C84_making true).2.2 _ _ (Case.graph_reached Case.any_triples)⟩

/-- A hundred calls to the iterator over the quads with object 3. -/
example : ∃ m xs, Case.indexedDataset.matcher (.anySubject (.anyPredicate (.givenObject 3 .anyGraph))) = .ok m ∧
    ∃ m', nextCalls (Case.indexedDataset.matchNext 3) 100 m = .ok (thenNothing xs 100, m') := by
  obtain ⟨m, xs, e, -, h⟩ := (C85_dataset true (Case.indexedDataset_reached Case.any_quads)
    (cap := 3) (by decide +kernel)).1 (.anySubject (.anyPredicate (.givenObject 3 .anyGraph)))
  exact ⟨m, xs, e, h 100⟩

example : ∃ m xs, Case.indexedGraph.matcher (.anySubject (.anyPredicate (.givenObject 3))) = .ok m ∧
    ∃ m', nextCalls (Case.indexedGraph.matchNext 3) 100 m = .ok (thenNothing xs 100, m') := by
  obtain ⟨m, xs, e, -, h⟩ := (C85_graph true (Case.indexedGraph_reached Case.any_triples)
    (cap := 3) (by decide +kernel)).1 (.anySubject (.anyPredicate (.givenObject 3)))
  exact ⟨m, xs, e, h 100⟩

end RdfTypes.Property
