import Verif.Model.Fallible
import Verif.Property.PatternMatching
import Verif.Property.Interpretation

/-!
# Property C57

Infallible containers seen through the fallible traits.
-/

set_option linter.unusedSectionVars false
set_option linter.unusedSimpArgs false

namespace RdfTypes.Property

open Spec

variable {R : Type} [Ord R] [Std.TransOrd R] [Std.LawfulEqOrd R]

/-- C57, iterators: the fallible view of an iterator yields its items, in order and
without error, ends when it ends and panics when it panics. -/
theorem C57_iterators {M X : Type} (next : M → Res (Option X × M)) (m : M) :
    (∀ xs, Yields next m xs → Yields (infallibleNext next) m (xs.map .ok)) ∧
    (∀ ys, Yields (infallibleNext next) m ys → ∃ xs, Yields next m xs ∧ ys = xs.map .ok) ∧
    (∀ e, infallibleNext next m = .error e ↔ next m = .error e) := by
  refine ⟨?_, ?_, ?_⟩
  · intro xs h
    induction h with
    | ends e => exact .ends (by rw [infallibleNext, e]; rfl)
    | item e _ ih => exact .item (by rw [infallibleNext, e]; rfl) ih
  · intro ys h
    induction h with
    | @ends m m' e =>
      refine ⟨[], .ends (m' := m') ?_, rfl⟩
      unfold infallibleNext at e
      cases hn : next m with
      | error _ => simp [hn, bind, Except.bind] at e
      | ok p =>
        obtain ⟨o, m''⟩ := p
        cases o <;> simp_all [bind, Except.bind, pure, Except.pure]
    | @item m m' y ys e _ ih =>
      obtain ⟨xs, hx, rfl⟩ := ih
      unfold infallibleNext at e
      cases hn : next m with
      | error _ => simp [hn, bind, Except.bind] at e
      | ok p =>
        obtain ⟨o, m''⟩ := p
        cases o with
        | none => simp [hn, bind, Except.bind, pure, Except.pure] at e
        | some x =>
          simp only [hn, bind, Except.bind, pure, Except.pure, Except.ok.injEq, Prod.mk.injEq,
            Option.map_some, Option.some.injEq] at e
          obtain ⟨rfl, rfl⟩ := e
          exact ⟨x :: xs, .item hn hx, rfl⟩
  · intro e
    unfold infallibleNext
    cases next m <;> simp [bind, Except.bind, pure, Except.pure]

/-- An iterator that counts down, for an example. -/
private def countDown : Nat → Res (Option Nat × Nat)
  | 0 => .ok (none, 0)
  | n + 1 => .ok (some n, n)

example : Yields (infallibleNext countDown) 2 [.ok 1, .ok 0] :=
  (C57_iterators countDown 2).1 [1, 0] (.item rfl (.item rfl (.ends rfl)))

/-- C57, traversal, insertion and matching of the four containers: the traversals list the
contents without error, an insertion succeeds as the infallible one does. -/
theorem C57_containers {S D : Type} (c : Container S D) (d : D) :
    (∀ xs, c.iter d = .ok xs ↔ tryItems (c.iter d) = .ok (xs.map .ok)) ∧
    (∀ x d' b, c.insert d x = .ok (d', b) → c.tryInsert d x = .ok (d', .ok ())) ∧
    (∀ x d' u, c.tryInsert d x = .ok (d', u) → c.step d (.insert x) = .ok d' ∧ u = .ok ()) ∧
    (∀ x e, c.tryInsert d x = .error e ↔ c.insert d x = .error e) := by
  have inj : ∀ xs ys : List S, xs.map (Except.ok (ε := Empty)) = ys.map .ok → xs = ys := by
    intro xs ys h
    exact (List.map_inj_right (fun _ _ h => by injection h)).1 h
  refine ⟨?_, ?_, ?_, ?_⟩
  · intro xs
    unfold tryItems
    cases c.iter d with
    | error e => simp [bind, Except.bind]
    | ok l =>
      simp only [bind, Except.bind, pure, Except.pure, Except.ok.injEq]
      exact ⟨fun h => by rw [h], inj _ _⟩
  · intro x d' b h
    rw [Container.tryInsert, h]
    rfl
  · intro x d' u h
    unfold Container.tryInsert at h
    unfold Container.step
    cases hi : c.insert d x with
    | error e => simp [hi, bind, Except.bind] at h
    | ok p =>
      simp only [hi, bind, Except.bind, pure, Except.pure, Except.ok.injEq, Prod.mk.injEq] at h ⊢
      exact ⟨h.1, h.2.symm⟩
  · intro x e
    unfold Container.tryInsert
    cases c.insert d x <;> simp [bind, Except.bind, pure, Except.pure]

example : ((IndexedBTreeGraph.container true Nat).tryInsert IndexedBTreeGraph.new ⟨1, 2, 3⟩).bind
    (fun p => tryItems ((IndexedBTreeGraph.container true Nat).iter p.1)) =
      .ok [.ok ⟨1, 2, 3⟩] := by rfl

/-- C57, membership: `try_contains_triple` on the view of an infallible implementation
answers, without error, as the search for the same pattern does. -/
theorem C57_membership {P X M : Type} (mt : Matching P X M) (pat : P) :
    (∀ b, TryMatching.any mt.infallible pat = .ok (.ok b) ↔ mt.any pat = .ok b) ∧
    (∀ e, TryMatching.any mt.infallible pat = .error e ↔ mt.any pat = .error e) := by
  unfold TryMatching.any Matching.any Matching.infallible infallibleNext
  simp only [bind, Except.bind, pure, Except.pure]
  cases mt.start pat with
  | error e => simp
  | ok m =>
    simp only
    cases hn : mt.next m with
    | error e => simp [hn]
    | ok p =>
      obtain ⟨o, m'⟩ := p
      cases o <;> simp [hn]

/-- A search over a list of numbers. -/
example : TryMatching.any (Matching.infallible
      (⟨fun n : Nat => .ok [n, n], fun l => .ok (l.head?, l.tail)⟩ : Matching Nat Nat (List Nat))) 5 =
    .ok (.ok true) :=
  ((C57_membership _ 5).1 true).2 rfl

/-- Of any fallible implementation: an error or a first item decides the answer. -/
theorem C57_errors {E P X M : Type} (mt : TryMatching E P X M) (pat : P) (m : M)
    (h : mt.start pat = .ok m) :
    (∀ xs : List X, Yields mt.next m (xs.map .ok) →
      TryMatching.any mt pat = .ok (.ok (!xs.isEmpty))) ∧
    (∀ e ys, Yields mt.next m (.error e :: ys) → TryMatching.any mt pat = .ok (.error e)) := by
  constructor
  · intro xs hy
    cases xs with
    | nil =>
      cases hy with
      | ends e => simp [TryMatching.any, h, e, bind, Except.bind, pure, Except.pure]
    | cons x xs =>
      cases hy with
      | item e _ => simp [TryMatching.any, h, e, bind, Except.bind, pure, Except.pure]
  · intro e ys hy
    cases hy with
    | item e _ => simp [TryMatching.any, h, e, bind, Except.bind, pure, Except.pure]

/-- A matching whose second item is an error. -/
example : TryMatching.any (E := Nat) (P := Unit) (X := Nat) (M := Bool)
    ⟨fun _ => .ok false, fun m => .ok (some (if m then .error 7 else .ok 1), true)⟩ () =
      .ok (.ok true) := rfl

/-- `try_contains_triple` on an indexed dataset. -/
abbrev tryContainsInDataset (cap : Nat) (d : IndexedBTreeDataset R) (t : Triple R) : Res Bool := do
  match ← TryMatching.datasetContainsTriple (d.matching cap).infallible t with
  | .ok b => pure b
  | .error e => nomatch e

/-- `try_contains_triple` on an indexed graph. -/
abbrev tryContainsInGraph (cap : Nat) (d : IndexedBTreeGraph R) (t : Triple R) : Res Bool := do
  match ← TryMatching.graphContainsTriple (d.matching cap).infallible t with
  | .ok b => pure b
  | .error e => nomatch e

theorem tryContains_dataset {cap : Nat} {d : IndexedBTreeDataset R} {t : Triple R} {b : Bool}
    (h : (d.matching cap).any (.fromTriple t) = .ok b) : tryContainsInDataset cap d t = .ok b := by
  unfold tryContainsInDataset TryMatching.datasetContainsTriple
  rw [((C57_membership (d.matching cap) (.fromTriple t)).1 b).2 h]
  rfl

theorem tryContains_graph {cap : Nat} {d : IndexedBTreeGraph R} {t : Triple R} {b : Bool}
    (h : (d.matching cap).any (.fromTriple t) = .ok b) : tryContainsInGraph cap d t = .ok b := by
  unfold tryContainsInGraph TryMatching.graphContainsTriple
  rw [((C57_membership (d.matching cap) (.fromTriple t)).1 b).2 h]
  rfl

/-- C57, membership in the indexed containers: after any history `try_contains_triple` does
not panic and answers true only if the triple is in some graph of the dataset, or in the
graph. Missing: the converse, which is false (`C57_false`), so that it can disagree with
`contains_triple`. -/
theorem C57_true_only_partial (rep : Bool) :
    AnswersTrueOnly (IndexedDatasetHistory (R := R) rep) datasetSlots
      (fun y t => y.s = t.s ∧ y.p = t.p ∧ y.o = t.o) tryContainsInDataset ∧
    AnswersTrueOnly (IndexedGraphHistory (R := R) rep) graphSlots (fun y t => y = t)
      tryContainsInGraph := by
  constructor
  · intro d A h cap hcap t
    obtain ⟨b, e, h1, -⟩ := dataset_any (IndexedBTreeDataset.reach_stands h) hcap (.fromTriple t)
      (C30_from_statements.2.2.1 t)
    exact ⟨b, tryContains_dataset e, h1⟩
  · intro d A h cap hcap t
    obtain ⟨b, e, h1, -⟩ := graph_any (IndexedBTreeGraph.reach_stands h) hcap (.fromTriple t)
      (C30_from_statements.1 t)
    exact ⟨b, tryContains_graph e, h1⟩

example : ∃ b, tryContainsInDataset 3 Case.indexedDataset ⟨5, 2, 3⟩ = .ok b ∧
    (b = true → ∃ y, y ∈ Case.quads ∧ y.s = 5 ∧ y.p = 2 ∧ y.o = 3) :=
  (C57_true_only_partial true).1 _ _ (Case.indexedDataset_reached Case.any_quads) 3
    (by decide +kernel) ⟨5, 2, 3⟩

/-- The answer is exact, and agrees with `contains_triple`, when no statement was inserted
with a repeated resource that was new. -/
theorem C57_exact_partial (rep : Bool) (takes : Prop) :
    AnswersExactly (IndexedDatasetHistoryOf (R := R) rep knownRepeats takes) datasetSlots
      (fun y t => y.s = t.s ∧ y.p = t.p ∧ y.o = t.o) tryContainsInDataset ∧
    AnswersExactly (IndexedGraphHistoryOf (R := R) rep knownTripleRepeats) graphSlots
      (fun y t => y = t) tryContainsInGraph ∧
    (∀ d A, IndexedGraphHistoryOf (R := R) rep knownTripleRepeats d A →
      ∀ cap, graphSlots d ≤ cap → ∀ t, tryContainsInGraph cap d t = d.contains t) := by
  have hg : AnswersExactly (IndexedGraphHistoryOf (R := R) rep knownTripleRepeats) graphSlots
      (fun y t => y = t) tryContainsInGraph := by
    intro d A h cap hcap t
    obtain ⟨b, e, -, h1⟩ := graph_any (IndexedBTreeGraph.reach_stands h) hcap (.fromTriple t)
      (C30_from_statements.1 t)
    exact ⟨b, tryContains_graph e, h1 ⟨graph_exact h, Or.inl trivial⟩⟩
  refine ⟨?_, hg, ?_⟩
  · intro d A h cap hcap t
    obtain ⟨b, e, -, h1⟩ := dataset_any (IndexedBTreeDataset.reach_stands h) hcap (.fromTriple t)
      (C30_from_statements.2.2.1 t)
    exact ⟨b, tryContains_dataset e, h1 ⟨dataset_exact h, Or.inl trivial⟩⟩
  · intro d A h cap hcap t
    obtain ⟨b, e, hb⟩ := hg d A h cap hcap t
    have hs := IndexedBTreeGraph.reach_stands h
    obtain ⟨b', e', hb'⟩ := IndexedBTreeGraph.contains_spec hs.1 t
    rw [e, e']
    have : b = true ↔ b' = true := by
      rw [hb, hb', hs.2]
      simp
    rw [Bool.eq_iff_iff.2 this]

example : tryContainsInGraph 3 Case.indexedGraph ⟨5, 2, 3⟩ = Case.indexedGraph.contains ⟨5, 2, 3⟩ :=
  (C57_exact_partial true True).2.2 _ _ (Case.indexedGraph_reached Case.known_triples) 3
    (by decide +kernel) ⟨5, 2, 3⟩

/-- C57 is false of the indexed containers: after some history `try_contains_triple` answers
that a triple is not there although it is, and `contains_triple` says so. -/
theorem C57_false (rep : Bool) :
    Denies (IndexedDatasetHistory (R := Nat) rep) datasetSlots
      (fun y t => y.s = t.s ∧ y.p = t.p ∧ y.o = t.o) tryContainsInDataset ∧
    (∃ d A t, IndexedGraphHistory (R := Nat) rep d A ∧ A t ∧ d.contains t = .ok true ∧
      ∀ cap, graphSlots d ≤ cap → tryContainsInGraph cap d t = .ok false) := by
  obtain ⟨d', hd', hr'⟩ := dataset_run rep (l := forgetOps) (by simp [Allowed, forgetOps, anyCall])
  obtain ⟨-, -, -, -, -, ⟨d, A, t, y, hd, hA, rfl, hf⟩, -⟩ := C25_false rep
  refine ⟨⟨d', _, ⟨1, 3, 4⟩, ⟨1, 3, 4, none⟩, hd', by simp [after, apply, forgetOps],
    ⟨rfl, rfl, rfl⟩, ?_⟩, d, A, y, hd, hA, ?_, ?_⟩
  · intro cap _
    refine hr' (tryContainsInDataset cap · _) _ ?_
    cases cap <;> cases rep <;> with_unfolding_all rfl
  · have hs := IndexedBTreeGraph.reach_stands hd
    obtain ⟨b, e, hb⟩ := IndexedBTreeGraph.contains_spec hs.1 y
    rw [e, hb.2 ((hs.2 y).2 hA)]
  · intro cap hcap
    exact tryContains_graph (hf cap hcap)

/-- C57, interpretations: `try_new_resource` creates what `new_resource` does. -/
theorem C57_new_resource {σ R : Type} (new : σ → Res (R × σ)) (s : σ) :
    (∀ r s', tryNewResource new s = .ok (.ok r, s') ↔ new s = .ok (r, s')) ∧
    (∀ e, tryNewResource new s = .error e ↔ new s = .error e) := by
  unfold tryNewResource
  cases new s with
  | error e => simp [bind, Except.bind]
  | ok p =>
    obtain ⟨r, s'⟩ := p
    simp [bind, Except.bind, pure, Except.pure]

example : ((tryNewResource (LocalGeneratorInterpretation.newResource
      (Blank.nextLocalTerm (I := Text) (L := Text))) ⟨Blank.new⟩).map (·.1)) =
    .ok (.ok (.anonymous ⟨"_:0".toList⟩)) := by rfl

/-- The triple is in a named graph of the dataset. -/
example : ((IndexedBTreeDataset.container true Nat).fromIter [⟨1, 2, 3, some 4⟩]).bind
    (tryContainsInDataset 8 · ⟨1, 2, 3⟩) = .ok true := by rfl

end RdfTypes.Property
