import Verif.Property.Found
import Verif.Property.Marks
import Verif.Property.Fallible
import Verif.Spec.Objects

/-!
# C73: what the iterators over objects and the fallible membership queries tell after any
history

C26 and C57 hold where the defects of C14 and C18 do not reach. These theorems say what
happens after every history, from the records of C70, the places of C65 and the lists of
C72.
-/

set_option linter.unusedSectionVars false

namespace RdfTypes.Property

open Container Spec

variable {R : Type} [Ord R] [Std.TransOrd R] [Std.LawfulEqOrd R] [DecidableEq R]

theorem picks_congr {S : Type} {W W' : S → Prop} {l : List (Option S)} {xs : List S}
    (h : Picks W l xs) (hw : ∀ x, some x ∈ l → (W x ↔ W' x)) : Picks W' l xs := by
  induction h with
  | nil => exact .nil
  | empty _ ih => exact .empty (ih fun x hx => hw x (by simp [hx]))
  | other hn _ ih =>
    exact .other (fun h => hn ((hw _ (by simp)).2 h)) (ih fun x hx => hw x (by simp [hx]))
  | wanted hn _ ih =>
    exact .wanted ((hw _ (by simp)).1 hn) (ih fun x hx => hw x (by simp [hx]))

/-- A search of a dataset that gives the subject. -/
theorem dataset_reached {rep : Bool} {d : IndexedBTreeDataset R} {h : Shelf (Quad R)}
    {l : List (Event (Quad R))} (hs : DatasetPlaces rep d h) (hl : DatasetEvents rep d l) {cap : Nat}
    (hcap : datasetSlots d ≤ cap) (s p : R) (g : Option R) :
    ∃ xs, (∃ m, (d.matching cap).start
        (.givenSubject s (.givenPredicate p (.anyObject (.givenGraph g)))) = .ok m ∧
        Yields (d.matching cap).next m xs) ∧ xs.length ≤ cap ∧
      Picks (fun y => y = quadOf (g, s, p) y.o ∧ InReach rep quadAt l [.subj, .pred, .graph] y)
        h.places xs := by
  let pat : CanonicalQuadPattern R := .givenSubject s (.givenPredicate p (.anyObject (.givenGraph g)))
  obtain ⟨xs, n, e, hp, hg⟩ := (C71_searches rep).1 d h l hs hl cap hcap pat
  obtain ⟨xs', e', hf⟩ := IndexedBTreeDataset.found
    (IndexedBTreeDataset.reach_stands (IndexedBTreeDataset.shelf_kept hs).1) hcap pat
  cases Except.ok.inj (e.symm.trans e')
  rw [hg.subject (by simp [pat, givesSubject]), List.take_length] at hp
  refine ⟨xs, hf.yields, hf.length, picks_congr hp fun y _ => ?_⟩
  have hq : foundQuad rep l pat y ↔ (y, Pos.subj) ∈ (recordsOf rep quadAt s l).current ∧
      (y, Pos.pred) ∈ (recordsOf rep quadAt p l).current ∧
      match g with
      | none => y.g = none
      | some g => (y, Pos.graph) ∈ (recordsOf rep quadAt g l).current := by
    cases g <;> simp [pat, foundQuad, Ask.quad, Ask.givenGivenAny, Ask.graph, askRecords, quadAt]
  rw [hq]
  constructor
  · rintro ⟨a1, a2, a3⟩
    have e1 := (dataset_current hs hl a1).2
    have e2 := (dataset_current hs hl a2).2
    have e3 : y.g = g := by
      cases g with
      | none => exact a3
      | some g => exact (dataset_current hs hl a3).2
    obtain ⟨s', p', o', g'⟩ := y
    simp only [quadAt, Option.some.injEq] at e1 e2 e3
    subst e1 e2 e3
    refine ⟨rfl, ?_⟩
    intro q hq r hr
    simp only [List.mem_cons, List.not_mem_nil, or_false] at hq
    rcases hq with rfl | rfl | rfl
    · simp only [quadAt, Option.some.injEq] at hr
      subst hr
      exact a1
    · simp only [quadAt, Option.some.injEq] at hr
      subst hr
      exact a2
    · simp only [quadAt] at hr
      subst hr
      exact a3
  · rintro ⟨hy, hr⟩
    obtain ⟨s', p', o', g'⟩ := y
    simp only [quadOf, Quad.mk.injEq] at hy
    obtain ⟨rfl, rfl, -, rfl⟩ := hy
    refine ⟨hr .subj (by simp) _ rfl, hr .pred (by simp) _ rfl, ?_⟩
    cases g' with
    | none => rfl
    | some g' => exact hr .graph (by simp) _ rfl

/-- A search of a graph that gives the subject. -/
theorem graph_reached {rep : Bool} {d : IndexedBTreeGraph R} {h : Shelf (Triple R)}
    {l : List (Event (Triple R))} (hs : GraphPlaces rep d h) (hl : GraphEvents rep d l) {cap : Nat}
    (hcap : graphSlots d ≤ cap) (s p : R) :
    ∃ xs, (∃ m, (d.matching cap).start (.givenSubject s (.givenPredicate p .anyObject)) = .ok m ∧
        Yields (d.matching cap).next m xs) ∧ xs.length ≤ cap ∧
      Picks (fun y => y = tripleOf (s, p) y.o ∧ InReach rep tripleAt l [.subj, .pred, .graph] y)
        h.places xs := by
  let pat : CanonicalTriplePattern R := .givenSubject s (.givenPredicate p .anyObject)
  obtain ⟨xs, n, e, hp, hg⟩ := (C71_searches rep).2.2 d h l hs hl cap hcap pat
  obtain ⟨xs', e', hf⟩ := IndexedBTreeGraph.found
    (IndexedBTreeGraph.reach_stands (IndexedBTreeGraph.shelf_kept hs).1) hcap pat
  cases Except.ok.inj (e.symm.trans e')
  rw [hg.subject (by simp [pat, tripleGivesSubject]), List.take_length] at hp
  refine ⟨xs, hf.yields, hf.length, picks_congr hp fun y _ => ?_⟩
  have hq : foundTriple rep l pat y ↔ (y, Pos.subj) ∈ (recordsOf rep tripleAt s l).current ∧
      (y, Pos.pred) ∈ (recordsOf rep tripleAt p l).current := by
    simp [pat, foundTriple, Ask.triple, askRecords]
  rw [hq]
  constructor
  · rintro ⟨a1, a2⟩
    have e1 := (graph_current hs hl a1).2
    have e2 := (graph_current hs hl a2).2
    obtain ⟨s', p', o'⟩ := y
    simp only [tripleAt, Option.some.injEq] at e1 e2
    subst e1 e2
    refine ⟨rfl, ?_⟩
    intro q hq r hr
    simp only [List.mem_cons, List.not_mem_nil, or_false] at hq
    rcases hq with rfl | rfl | rfl
    · simp only [tripleAt, Option.some.injEq] at hr
      subst hr
      exact a1
    · simp only [tripleAt, Option.some.injEq] at hr
      subst hr
      exact a2
    · simp [tripleAt] at hr
  · rintro ⟨hy, hr⟩
    obtain ⟨s', p', o'⟩ := y
    simp only [tripleOf, Triple.mk.injEq] at hy
    obtain ⟨rfl, rfl, -⟩ := hy
    exact ⟨hr .subj (by simp) _ rfl, hr .pred (by simp) _ rfl⟩

/-- C73. After any history `quad_objects` and `triple_objects` yield exactly the objects
of the statements within reach, in the order of their places. -/
theorem C73_objects (rep : Bool) :
    YieldsReached (R := R) (DatasetPlaces rep) (DatasetEvents rep) rep quadAt datasetSlots (·.o)
      quadOf quadObjects ∧
    YieldsReached (R := R) (GraphPlaces rep) (GraphEvents rep) rep tripleAt graphSlots (·.o)
      tripleOf tripleObjects := by
  constructor
  · rintro d h l hs hl cap hcap fuel hfuel ⟨g, s, p⟩
    obtain ⟨xs, ⟨m, e, hy⟩, hlen, hp⟩ := dataset_reached hs hl hcap s p g
    refine ⟨xs, ?_, hp⟩
    have e' : (d.matching cap).start (.fromOptionQuad ⟨some s, some p, none, some g⟩) = .ok m := e
    simp only [quadObjects, QuadMatching.quadObjects, e', bind, Except.bind]
    exact (hy.objects (·.o)).collect (fuel := fuel)
      (by simp only [List.length_map]; exact Nat.lt_of_le_of_lt hlen hfuel)
  · rintro d h l hs hl cap hcap fuel hfuel ⟨s, p⟩
    obtain ⟨xs, ⟨m, e, hy⟩, hlen, hp⟩ := graph_reached hs hl hcap s p
    refine ⟨xs, ?_, hp⟩
    have e' : (d.matching cap).start (.fromOptionTriple ⟨some s, some p, none⟩) = .ok m := e
    simp only [tripleObjects, TripleMatching.tripleObjects, e', bind, Except.bind]
    exact (hy.objects (·.o)).collect (fuel := fuel)
      (by simp only [List.length_map]; exact Nat.lt_of_le_of_lt hlen hfuel)

/-- The pairs made of the listed predicates that have objects. -/
theorem pairs_reached {S : Type} {object : S → R} {build : R → R → S} {reach : S → Prop}
    {places : List (Option S)} {ps : List R} {items : R → List S} {n : R → Nat}
    (hp : ∀ p, Picks (fun y => y = build p (object y) ∧ reach y) places (items p))
    (ho : ∀ p o, object (build p o) = o) (hc : ∀ p, ps.count p = n p) :
    let out := (ps.filter (fun p => !(items p).isEmpty)).map (fun p => (p, (items p).map object))
    (out.map (·.1)).Sublist ps ∧
    (∀ p os, (p, os) ∈ out → os ≠ [] ∧ ∃ xs, os = xs.map object ∧
      Picks (fun y => y = build p (object y) ∧ reach y) places xs) ∧
    ∀ p o, some (build p o) ∈ places → reach (build p o) → (out.map (·.1)).count p = n p := by
  intro out
  have e : out.map (·.1) = ps.filter (fun p => !(items p).isEmpty) := by
    simp [out, Function.comp_def]
  refine ⟨?_, ?_, ?_⟩
  · rw [e]
    exact List.filter_sublist
  · intro p os hm
    simp only [out, List.mem_map, List.mem_filter, Prod.mk.injEq] at hm
    obtain ⟨p', ⟨-, hne⟩, rfl, rfl⟩ := hm
    refine ⟨?_, _, rfl, hp p'⟩
    cases hx : items p' <;> simp_all
  · intro p o h1 h2
    have hm : build p o ∈ items p := ((hp p).mem _).2 ⟨h1, by rw [ho], h2⟩
    rw [e, ← hc]
    refine List.count_filter ?_
    cases hx : items p <;> simp_all

/-- C73. After any history `quad_predicates_objects` and `triple_predicates_objects` go
through the listed predicates, and pair those that have objects within reach with them. -/
theorem C73_predicates (rep : Bool) :
    PairsReached (R := R) (DatasetPlaces rep) (Since (DatasetStart rep) (DatasetCall rep)) rep quadAt
      datasetSlots (·.predicateList) (·.o) quadWith quadPredicatesObjects ∧
    PairsReached (R := R) (GraphPlaces rep) (Since (GraphStart rep) (GraphCall rep)) rep tripleAt
      graphSlots (·.predicateList) (·.o) tripleWith triplePredicatesObjects := by
  constructor
  · rintro d h l₀ l hs hl cap hcap fuel hfuel ⟨g, s⟩
    have hl' := IndexedBTreeDataset.since_events hl
    obtain ⟨ps, ep, -, hc⟩ := (C72_dataset_lists rep hl).2.1
    obtain ⟨items, hi⟩ := Classical.axiomOfChoice fun p => dataset_reached hs hl' hcap s p g
    obtain ⟨h1, h2, h3⟩ := pairs_reached (build := quadWith (g, s)) (ps := ps)
      (fun p => (hi p).2.2) (fun _ _ => rfl) hc
    refine ⟨_, ps, ?_, ep, h1, h2, h3⟩
    simp only [quadPredicatesObjects, IndexedBTreeDataset.quadPredicatesObjects, ep, bind, Except.bind]
    exact predicatesObjects_eq (items := items)
      fun p _ => ⟨(hi p).1, Nat.lt_of_le_of_lt (hi p).2.1 hfuel⟩
  · rintro d h l₀ l hs hl cap hcap fuel hfuel s
    have hl' := IndexedBTreeGraph.since_events hl
    obtain ⟨ps, ep, -, hc⟩ := (C72_graph_lists rep hl).2.1
    obtain ⟨items, hi⟩ := Classical.axiomOfChoice fun p => graph_reached hs hl' hcap s p
    obtain ⟨h1, h2, h3⟩ := pairs_reached (build := tripleWith s) (ps := ps)
      (fun p => (hi p).2.2) (fun _ _ => rfl) hc
    refine ⟨_, ps, ?_, ep, h1, h2, h3⟩
    simp only [triplePredicatesObjects, IndexedBTreeGraph.triplePredicatesObjects, ep, bind,
      Except.bind]
    exact predicatesObjects_eq (items := items)
      fun p _ => ⟨(hi p).1, Nat.lt_of_le_of_lt (hi p).2.1 hfuel⟩

/-- C73. After any history `try_contains_triple` answers true exactly when a statement
with the triple has its three terms in their current records. -/
theorem C73_try_contains (rep : Bool) :
    AnswersReached (R := R) (DatasetPlaces rep) (DatasetEvents rep) rep quadAt datasetSlots
      [.subj, .pred, .obj] (fun t y => y.s = t.s ∧ y.p = t.p ∧ y.o = t.o) tryContainsInDataset ∧
    AnswersReached (R := R) (GraphPlaces rep) (GraphEvents rep) rep tripleAt graphSlots
      [.subj, .pred, .obj] (fun t y => y = t) tryContainsInGraph := by
  constructor
  · intro d h l hs hl cap hcap t
    obtain ⟨b, e, h1, -⟩ := dataset_any_found hs hl hcap (.fromTriple t)
    refine ⟨b, tryContains_dataset e, (h1 (by simp [CanonicalQuadPattern.fromTriple, givesSubject])).trans
      (exists_congr fun y => and_congr_right fun _ => ?_)⟩
    have hf : foundQuad rep l (.fromTriple t) y ↔
        (y, Pos.subj) ∈ (recordsOf rep quadAt t.s l).current ∧
        (y, Pos.pred) ∈ (recordsOf rep quadAt t.p l).current ∧
        (y, Pos.obj) ∈ (recordsOf rep quadAt t.o l).current := by
      simp [foundQuad, CanonicalQuadPattern.fromTriple, Ask.quad, Ask.givenGivenGiven, askRecords]
    rw [hf]
    constructor
    · rintro ⟨a1, a2, a3⟩
      have e1 := (dataset_current hs hl a1).2
      have e2 := (dataset_current hs hl a2).2
      have e3 := (dataset_current hs hl a3).2
      refine ⟨⟨Option.some.inj e1, Option.some.inj e2, Option.some.inj e3⟩, ?_⟩
      intro q hq r hr
      simp only [List.mem_cons, List.not_mem_nil, or_false] at hq
      rcases hq with rfl | rfl | rfl
      · cases Option.some.inj (e1.symm.trans hr); exact a1
      · cases Option.some.inj (e2.symm.trans hr); exact a2
      · cases Option.some.inj (e3.symm.trans hr); exact a3
    · rintro ⟨⟨h1, h2, h3⟩, hr⟩
      exact ⟨hr .subj (by simp) _ (by simp [quadAt, h1]), hr .pred (by simp) _ (by simp [quadAt, h2]),
        hr .obj (by simp) _ (by simp [quadAt, h3])⟩
  · intro d h l hs hl cap hcap t
    obtain ⟨b, e, hb⟩ := (C71_statements rep).2 d h l hs hl cap hcap t
    refine ⟨b, tryContains_graph e, hb.trans ⟨fun hr => ⟨t, ?_, rfl, fun p _ => hr p⟩, ?_⟩⟩
    · exact (graph_current hs hl (hr .subj t.s rfl)).1
    · rintro ⟨y, -, rfl, hr⟩ p r hp
      exact hr p (by cases p <;> simp [tripleAt] at hp ⊢) r hp

/-! ## Cases -/

/-- Resource 1 gets a record as predicate and one as object, and the second quad goes to
the record that the index lists. -/
def pairedOps (rep : Bool) : List (Op (Quad Nat)) :=
  [.insert (if rep then ⟨2, 1, 1, none⟩ else ⟨1, 1, 2, none⟩), .insert ⟨5, 1, 6, none⟩]

/-- Then the predicate 1 of subject 5 is yielded twice, with the same object. For the
other quad, its predicate is not in the current record. -/
example (rep : Bool) : ∃ d : IndexedBTreeDataset Nat,
    Since (DatasetStart rep) (DatasetCall rep) d [] (eventsOf (pairedOps rep) []) ∧
    (∀ cap fuel, datasetSlots d ≤ cap → cap < fuel → ∃ out,
      quadPredicatesObjects cap fuel d (none, 5) = .ok out ∧ (out.map (·.1)).count 1 = 2) ∧
    quadPredicatesObjects 8 9 d (none, 5) = .ok [(1, [6]), (1, [6])] ∧
    quadObjects 8 9 d (none, if rep then 2 else 1, 1) = .ok [] := by
  obtain ⟨d, e, h⟩ := run_since rep (.start (.new (R := Nat))) (ops := pairedOps rep)
    (by cases rep <;> rfl)
  have hl : ∀ {X : Type} (look : IndexedBTreeDataset Nat → Res X) (v : Res X),
      ((IndexedBTreeDataset.container rep Nat).run IndexedBTreeDataset.new (pairedOps rep)).bind look
        = v → look d = v := by
    intro X look v h
    rw [e] at h
    exact h
  refine ⟨d, h, fun cap fuel hcap hfuel => ?_,
    hl (quadPredicatesObjects 8 9 · (none, 5)) _ (by cases rep <;> decide),
    hl (quadObjects 8 9 · (none, if rep then 2 else 1, 1)) _ (by cases rep <;> decide)⟩
  have ha : Allowed anyCall nothing (pairedOps rep) := by
    cases rep <;> simp [Allowed, pairedOps, anyCall]
  obtain ⟨d₁, e₁, hA⟩ := IndexedBTreeDataset.run_reach rep anyCall True ha
  cases Except.ok.inj (e₁.symm.trans e)
  obtain ⟨shelf, m, hs, -, hh⟩ := (C71_every_history rep).1 _ _ hA
  obtain ⟨out, ps, eo, -, -, -, hc⟩ := (C73_predicates rep).1 _ shelf [] _ hs h cap hcap fuel hfuel
    (none, 5)
  refine ⟨out, eo, (hc 1 6 ?_ ?_).trans ?_⟩
  · rw [← hh]
    simp [after, apply, pairedOps]
  · cases rep <;> (intro p hp r hr; simp [quadAt] at hp hr; rcases hp with rfl | rfl | rfl <;>
      simp at hr <;> subst hr <;> decide)
  · cases rep <;> decide

/-- After `sample_twice`, the triple of the only quad is denied: its subject and its
predicate are not in the same record. -/
example (rep : Bool) : ∃ d : IndexedBTreeDataset Nat, d.contains ⟨1, 1, 2, none⟩ = .ok true ∧
    ∀ cap, datasetSlots d ≤ cap → tryContainsInDataset cap d ⟨1, 1, 2⟩ = .ok false := by
  obtain ⟨d, hs, hl⟩ := sample_twice rep
  have hk := IndexedBTreeDataset.reach_stands (IndexedBTreeDataset.shelf_kept hs).1
  obtain ⟨c, ec, hc⟩ := IndexedBTreeDataset.contains_spec hk.1 ⟨1, 1, 2, none⟩
  refine ⟨d, by rw [ec, hc.2 ((hk.2 _).2 (by simp [Shelf.has]))], fun cap hcap => ?_⟩
  obtain ⟨b, e, hb⟩ := (C73_try_contains rep).1 d _ _ hs hl cap hcap ⟨1, 1, 2⟩
  rw [e, show b = false from ?_]
  rw [Bool.eq_false_iff, Ne, hb]
  rintro ⟨y, hy, -, hr⟩
  simp only [Shelf.has, List.mem_singleton, Option.some.injEq] at hy
  subst hy
  have a1 := hr .subj (by simp) 1 rfl
  have a2 := hr .pred (by simp) 1 rfl
  revert a1 a2
  cases rep <;> decide

end RdfTypes.Property
