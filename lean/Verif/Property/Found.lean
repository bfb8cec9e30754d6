import Verif.Property.Search
import Verif.Property.Records
import Verif.Proof.Found

/-!
# C71: what the searches of the indexed containers find after any history

C65 and C67 are about histories in which a resource repeated within an inserted
statement already occurs. These theorems are about every history. Then a resource may
have several records (C70), and a search looks at records: a given term stands for its
current record, and a repeated variable for occurrences in the same record.
-/

set_option linter.unusedSectionVars false

namespace RdfTypes.Property

open Container Spec

variable {R : Type} [Ord R] [Std.TransOrd R] [Std.LawfulEqOrd R] [DecidableEq R]

/-- Places after any history. -/
abbrev DatasetPlaces (rep : Bool) : IndexedBTreeDataset R → Shelf (Quad R) → Prop :=
  DatasetShelf rep (fun _ _ => True)

abbrev GraphPlaces (rep : Bool) : IndexedBTreeGraph R → Shelf (Triple R) → Prop :=
  GraphShelf rep (fun _ _ => True)

/-- The quads a pattern finds after the events `l`. -/
abbrev foundQuad (rep : Bool) (l : List (Event (Quad R))) (pat : CanonicalQuadPattern R)
    (x : Quad R) : Prop :=
  (askRecords quadAt (fun r => recordsOf rep quadAt r l) x).quad pat

abbrev foundListed (rep : Bool) (l : List (Event (Quad R))) (pat : CanonicalQuadPattern (List R))
    (x : Quad R) : Prop :=
  (askListed quadAt (fun r => recordsOf rep quadAt r l) x).quad pat

abbrev foundTriple (rep : Bool) (l : List (Event (Triple R))) (pat : CanonicalTriplePattern R)
    (x : Triple R) : Prop :=
  (askRecords tripleAt (fun r => recordsOf rep tripleAt r l) x).triple pat

/-- Every history has places and events, so the theorems below apply to it. -/
theorem C71_every_history (rep : Bool) :
    (∀ (d : IndexedBTreeDataset R) A, IndexedDatasetHistory rep d A →
      ∃ h l, DatasetPlaces rep d h ∧ DatasetEvents rep d l ∧ A = h.has) ∧
    (∀ (d : IndexedBTreeGraph R) A, IndexedGraphHistory rep d A →
      ∃ h l, GraphPlaces rep d h ∧ GraphEvents rep d l ∧ A = h.has) := by
  constructor
  · intro d A hr
    obtain ⟨l, hl⟩ := (C70_every_history rep).2.2.1 d A hr
    obtain ⟨h, hh, e⟩ := (C65_every_history rep (fun _ _ => True) (fun _ _ => True)).1 d A hr
    exact ⟨h, l, hh, hl, e⟩
  · intro d A hr
    obtain ⟨l, hl⟩ := (C70_every_history rep).2.2.2 d A hr
    obtain ⟨h, hh, e⟩ := (C65_every_history (R := R) rep (fun _ _ => True) (fun _ _ => True)).2 d A hr
    exact ⟨h, l, hh, hl, e⟩

/-- Asking about terms is matching: `Ask.quad` reads patterns as `matchesQuad` does. -/
theorem C71_terms :
    (∀ (pat : CanonicalQuadPattern R) x, (askTerms (quadAt x)).quad pat ↔ matchesQuad pat x) ∧
    (∀ (pat : CanonicalTriplePattern R) x,
      (askTerms (tripleAt x)).triple pat ↔ matchesTriple pat x) := by
  constructor
  · intro pat x
    have hg : ∀ t, (askTerms (quadAt x)).graph t ↔ x.g = t := by
      intro t
      cases t <;> rfl
    open Proof in cases_quad pat <;>
    simp only [Ask.quad, matchesQuad, Ask.anyAnyAny, Ask.givenAnyAny, Ask.anyGivenAny,
      Ask.anyAnyGiven, Ask.anyGivenGiven, Ask.givenAnyGiven, Ask.givenGivenAny, Ask.givenGivenGiven,
      QuadMatch.anyAnyAny, QuadMatch.givenAnyAny, QuadMatch.anyGivenAny,
      QuadMatch.anyAnyGiven, QuadMatch.anyGivenGiven, QuadMatch.givenAnyGiven, QuadMatch.givenGivenAny,
      QuadMatch.givenGivenGiven, hg] <;>
    simp [askTerms, quadAt]
  · intro pat x
    open Proof in cases_triple pat <;>
    simp [Ask.triple, askTerms, tripleAt, matchesTriple]

/-- C71. After any history `pattern_matching` of the indexed containers and
`multi_pattern_matching` end without panic and yield exactly the statements of the first
places that the records tell, in the order of the places. -/
theorem C71_searches (rep : Bool) :
    SearchesRecords (DatasetPlaces (R := R) rep) (DatasetEvents rep) datasetSlots matchQuads
      (foundQuad rep) givesSubject givesPart repeatsPart ∧
    SearchesRecords (DatasetPlaces (R := R) rep) (DatasetEvents rep) datasetSlots matchListed
      (foundListed rep) givesSubject givesPart repeatsPart ∧
    SearchesRecords (GraphPlaces (R := R) rep) (GraphEvents rep) graphSlots matchTriples
      (foundTriple rep) tripleGivesSubject tripleGivesPart tripleRepeatsPart := by
  refine ⟨?_, ?_, ?_⟩
  · intro d h l hs hl cap hcap pat
    obtain ⟨w, k⟩ := IndexedBTreeDataset.events_follow hl
    exact IndexedBTreeDataset.patternMatching_found w k (IndexedBTreeDataset.shelf_kept hs).2 hcap pat
  · intro d h l hs hl cap hcap pat
    obtain ⟨w, k⟩ := IndexedBTreeDataset.events_follow hl
    exact IndexedBTreeDataset.multiPatternMatching_found w k (IndexedBTreeDataset.shelf_kept hs).2
      hcap pat
  · intro d h l hs hl cap hcap pat
    obtain ⟨w, k⟩ := IndexedBTreeGraph.events_follow hl
    exact IndexedBTreeGraph.patternMatching_found w k (IndexedBTreeGraph.shelf_kept hs).2 hcap pat

/-! ## Membership -/

theorem current_subset {S : Type} (h : Records S) {x : S × Pos} (hx : x ∈ h.current) :
    x ∈ h.groups.flatten := by
  obtain ⟨b, gs⟩ := h
  cases b <;> cases gs <;> simp [Records.current] at hx
  simp [hx]

/-- An occurrence in a current record is one of a contained statement. -/
theorem dataset_current {rep : Bool} {d : IndexedBTreeDataset R} {h : Shelf (Quad R)}
    {l : List (Event (Quad R))} (hs : DatasetPlaces rep d h) (hl : DatasetEvents rep d l) {r : R}
    {y : Quad R} {p : Pos} (hy : (y, p) ∈ (recordsOf rep quadAt r l).current) :
    h.has y ∧ quadAt y p = some r := by
  obtain ⟨w, k⟩ := IndexedBTreeDataset.events_follow hl
  obtain ⟨hr, -⟩ := IndexedBTreeDataset.shelf_kept hs
  have := ((k.occurrences quadShape_laws w.inv r).2.2 y p).1 (current_subset _ hy)
  rw [quadShape_compV] at this
  exact ⟨((IndexedBTreeDataset.reach_stands hr).2 y).1 this.1, this.2⟩

theorem graph_current {rep : Bool} {d : IndexedBTreeGraph R} {h : Shelf (Triple R)}
    {l : List (Event (Triple R))} (hs : GraphPlaces rep d h) (hl : GraphEvents rep d l) {r : R}
    {y : Triple R} {p : Pos} (hy : (y, p) ∈ (recordsOf rep tripleAt r l).current) :
    h.has y ∧ tripleAt y p = some r := by
  obtain ⟨w, k⟩ := IndexedBTreeGraph.events_follow hl
  obtain ⟨hr, -⟩ := IndexedBTreeGraph.shelf_kept hs
  have := ((k.occurrences tripleShape_laws w.inv r).2.2 y p).1 (current_subset _ hy)
  rw [tripleShape_compV] at this
  exact ⟨((IndexedBTreeGraph.reach_stands hr).2 y).1 this.1, this.2⟩

/-- A search whose pattern gives the subject. -/
theorem found_nonempty {S : Type} {W : S → Prop} {h : Shelf S} {s g r : Prop} {n : Nat}
    {xs : List S} (hp : Picks W (h.places.take n) xs) (hg : GoesTo W h.places s g r n) (hs : s) :
    (!xs.isEmpty) = true ↔ ∃ y, h.has y ∧ W y := by
  rw [hg.subject hs, List.take_length] at hp
  unfold Shelf.has
  rw [← exists_congr fun y => hp.mem y]
  cases xs with
  | nil => simp
  | cons x xs => exact ⟨fun _ => ⟨x, by simp⟩, fun _ => by simp⟩

theorem dataset_any_found {rep : Bool} {d : IndexedBTreeDataset R} {h : Shelf (Quad R)}
    {l : List (Event (Quad R))} (hs : DatasetPlaces rep d h) (hl : DatasetEvents rep d l) {cap : Nat}
    (hcap : datasetSlots d ≤ cap) (pat : CanonicalQuadPattern R) :
    ∃ b, (d.matching cap).any pat = .ok b ∧
      (givesSubject pat → (b = true ↔ ∃ y, h.has y ∧ foundQuad rep l pat y)) ∧
      (¬ givesSubject pat → ¬ repeatsPart pat →
        (b = true ↔ h.places.head? ≠ some none ∧ ∃ y, h.has y ∧ foundQuad rep l pat y)) := by
  obtain ⟨xs, n, e, hp, hg⟩ := (C71_searches rep).1 d h l hs hl cap hcap pat
  obtain ⟨xs', e', hf⟩ := IndexedBTreeDataset.found
    (IndexedBTreeDataset.reach_stands (IndexedBTreeDataset.shelf_kept hs).1) hcap pat
  cases Except.ok.inj (e.symm.trans e')
  obtain ⟨m, em, hy⟩ := hf.yields
  exact ⟨_, Matching.any_eq em hy, found_nonempty hp hg, fun h1 h2 => first_full hp hg h1 h2⟩

theorem graph_any_found {rep : Bool} {d : IndexedBTreeGraph R} {h : Shelf (Triple R)}
    {l : List (Event (Triple R))} (hs : GraphPlaces rep d h) (hl : GraphEvents rep d l) {cap : Nat}
    (hcap : graphSlots d ≤ cap) (pat : CanonicalTriplePattern R) :
    ∃ b, (d.matching cap).any pat = .ok b ∧
      (tripleGivesSubject pat → (b = true ↔ ∃ y, h.has y ∧ foundTriple rep l pat y)) ∧
      (¬ tripleGivesSubject pat → ¬ tripleRepeatsPart pat →
        (b = true ↔ h.places.head? ≠ some none ∧ ∃ y, h.has y ∧ foundTriple rep l pat y)) := by
  obtain ⟨xs, n, e, hp, hg⟩ := (C71_searches rep).2.2 d h l hs hl cap hcap pat
  obtain ⟨xs', e', hf⟩ := IndexedBTreeGraph.found
    (IndexedBTreeGraph.reach_stands (IndexedBTreeGraph.shelf_kept hs).1) hcap pat
  cases Except.ok.inj (e.symm.trans e')
  obtain ⟨m, em, hy⟩ := hf.yields
  exact ⟨_, Matching.any_eq em hy, found_nonempty hp hg, fun h1 h2 => first_full hp hg h1 h2⟩

/-- After any history the methods that look for one term tell whether it is there in its
current record; all but those that look for a subject answer false if the first place is
empty. -/
theorem C71_membership (rep : Bool) :
    (AnswersByRecord (R := R) (DatasetPlaces rep) (DatasetEvents rep) rep quadAt datasetSlots false
      .subj containsSubject ∧
    AnswersByRecord (R := R) (DatasetPlaces rep) (DatasetEvents rep) rep quadAt datasetSlots true
      .pred containsPredicate ∧
    AnswersByRecord (R := R) (DatasetPlaces rep) (DatasetEvents rep) rep quadAt datasetSlots true
      .obj containsObject ∧
    AnswersByRecord (R := R) (DatasetPlaces rep) (DatasetEvents rep) rep quadAt datasetSlots true
      .graph containsNamedGraph) ∧
    AnswersByRecord (R := R) (GraphPlaces rep) (GraphEvents rep) rep tripleAt graphSlots false
      .subj containsTripleSubject ∧
    AnswersByRecord (R := R) (GraphPlaces rep) (GraphEvents rep) rep tripleAt graphSlots true
      .pred containsTriplePredicate ∧
    AnswersByRecord (R := R) (GraphPlaces rep) (GraphEvents rep) rep tripleAt graphSlots true
      .obj containsTripleObject := by
  have key : ∀ {d : IndexedBTreeDataset R} {h l}, DatasetPlaces rep d h → DatasetEvents rep d l →
      ∀ {cap}, datasetSlots d ≤ cap → ∀ pat r p, ¬ repeatsPart pat →
      (∀ y, foundQuad rep l pat y ↔ (y, p) ∈ (recordsOf rep quadAt r l).current) →
      ∀ first : Bool, (first = true ↔ ¬ givesSubject pat) →
      ∃ b, (d.matching cap).any pat = .ok b ∧ (b = true ↔
        (first = true → h.places.head? ≠ some none) ∧
          ∃ y, (y, p) ∈ (recordsOf rep quadAt r l).current) := by
    intro d h l hs hl cap hcap pat r p hr hf first hfirst
    obtain ⟨b, e, h1, h2⟩ := dataset_any_found hs hl hcap pat
    have hx : (∃ y, h.has y ∧ foundQuad rep l pat y) ↔
        ∃ y, (y, p) ∈ (recordsOf rep quadAt r l).current :=
      exists_congr fun y => (and_congr_right fun _ => hf y).trans
        (and_iff_right_of_imp fun hy => (dataset_current hs hl hy).1)
    refine ⟨b, e, ?_⟩
    cases first with
    | false => rw [h1 (by simpa using hfirst), hx]; simp
    | true => rw [h2 (by simpa using hfirst) hr, hx]; simp
  have key' : ∀ {d : IndexedBTreeGraph R} {h l}, GraphPlaces rep d h → GraphEvents rep d l →
      ∀ {cap}, graphSlots d ≤ cap → ∀ pat r p, ¬ tripleRepeatsPart pat →
      (∀ y, foundTriple rep l pat y ↔ (y, p) ∈ (recordsOf rep tripleAt r l).current) →
      ∀ first : Bool, (first = true ↔ ¬ tripleGivesSubject pat) →
      ∃ b, (d.matching cap).any pat = .ok b ∧ (b = true ↔
        (first = true → h.places.head? ≠ some none) ∧
          ∃ y, (y, p) ∈ (recordsOf rep tripleAt r l).current) := by
    intro d h l hs hl cap hcap pat r p hr hf first hfirst
    obtain ⟨b, e, h1, h2⟩ := graph_any_found hs hl hcap pat
    have hx : (∃ y, h.has y ∧ foundTriple rep l pat y) ↔
        ∃ y, (y, p) ∈ (recordsOf rep tripleAt r l).current :=
      exists_congr fun y => (and_congr_right fun _ => hf y).trans
        (and_iff_right_of_imp fun hy => (graph_current hs hl hy).1)
    refine ⟨b, e, ?_⟩
    cases first with
    | false => rw [h1 (by simpa using hfirst), hx]; simp
    | true => rw [h2 (by simpa using hfirst) hr, hx]; simp
  refine ⟨⟨?_, ?_, ?_, ?_⟩, ?_, ?_, ?_⟩ <;> intro d h l hs hl cap hcap r
  · exact key hs hl hcap (.givenSubject r (.anyPredicate (.anyObject .anyGraph))) r .subj
      (by simp [repeatsPart]) (fun y => by simp [foundQuad, Ask.quad, Ask.givenAnyAny, askRecords])
      false (by simp [givesSubject])
  · exact key hs hl hcap (.anySubject (.givenPredicate r (.anyObject .anyGraph))) r .pred
      (by simp [repeatsPart]) (fun y => by simp [foundQuad, Ask.quad, Ask.anyGivenAny, askRecords])
      true (by simp [givesSubject])
  · exact key hs hl hcap (.anySubject (.anyPredicate (.givenObject r .anyGraph))) r .obj
      (by simp [repeatsPart]) (fun y => by simp [foundQuad, Ask.quad, Ask.anyAnyGiven, askRecords])
      true (by simp [givesSubject])
  · exact key hs hl hcap (.anySubject (.anyPredicate (.anyObject (.givenGraph (some r))))) r .graph
      (by simp [repeatsPart])
      (fun y => by simp [foundQuad, Ask.quad, Ask.anyAnyAny, Ask.graph, askRecords])
      true (by simp [givesSubject])
  · exact key' hs hl hcap (.givenSubject r (.anyPredicate .anyObject)) r .subj
      (by simp [tripleRepeatsPart]) (fun y => by simp [foundTriple, Ask.triple, askRecords])
      false (by simp [tripleGivesSubject])
  · exact key' hs hl hcap (.anySubject (.givenPredicate r .anyObject)) r .pred
      (by simp [tripleRepeatsPart]) (fun y => by simp [foundTriple, Ask.triple, askRecords])
      true (by simp [tripleGivesSubject])
  · exact key' hs hl hcap (.anySubject (.anyPredicate (.givenObject r))) r .obj
      (by simp [tripleRepeatsPart]) (fun y => by simp [foundTriple, Ask.triple, askRecords])
      true (by simp [tripleGivesSubject])

/-- After any history `contains_quad` and `contains_triple` as the traits provide them
(both containers override them by `contains`) answer true exactly when each term of the
statement has that occurrence in its current record. -/
theorem C71_statements (rep : Bool) :
    AnswersByRecords (R := R) (DatasetPlaces rep) (DatasetEvents rep) rep quadAt datasetSlots
      containsQuad ∧
    AnswersByRecords (R := R) (GraphPlaces rep) (GraphEvents rep) rep tripleAt graphSlots
      containsTriple := by
  constructor <;> intro d h l hs hl cap hcap x
  · obtain ⟨b, e, h1, -⟩ := dataset_any_found hs hl hcap (.fromQuad x)
    refine ⟨b, e, (h1 (by simp [CanonicalQuadPattern.fromQuad, givesSubject])).trans ?_⟩
    have hf : ∀ y, foundQuad rep l (.fromQuad x) y ↔
        (y, Pos.subj) ∈ (recordsOf rep quadAt x.s l).current ∧
        (y, Pos.pred) ∈ (recordsOf rep quadAt x.p l).current ∧
        (y, Pos.obj) ∈ (recordsOf rep quadAt x.o l).current ∧
        match x.g with
        | none => y.g = none
        | some g => (y, Pos.graph) ∈ (recordsOf rep quadAt g l).current := by
      intro y
      obtain ⟨s, p, o, g⟩ := x
      cases g <;> simp [foundQuad, CanonicalQuadPattern.fromQuad, Ask.quad, Ask.givenGivenGiven,
        Ask.graph, askRecords, quadAt]
    constructor
    · rintro ⟨y, hy, hw⟩
      rw [hf] at hw
      obtain ⟨a1, a2, a3, a4⟩ := hw
      have e1 := (dataset_current hs hl a1).2
      have e2 := (dataset_current hs hl a2).2
      have e3 := (dataset_current hs hl a3).2
      obtain ⟨s, p, o, g⟩ := x
      obtain ⟨s', p', o', g'⟩ := y
      simp only [quadAt, Option.some.injEq] at e1 e2 e3
      subst e1 e2 e3
      cases g with
      | none =>
        simp only at a4
        subst a4
        intro p r hr
        cases p <;> simp [quadAt] at hr <;> subst hr <;> assumption
      | some g =>
        have e4 := (dataset_current hs hl a4).2
        simp only [quadAt] at e4
        subst e4
        intro p r hr
        cases p <;> simp [quadAt] at hr <;> subst hr <;> assumption
    · intro hx
      refine ⟨x, (dataset_current hs hl (hx .subj x.s rfl)).1, (hf x).2
        ⟨hx .subj _ rfl, hx .pred _ rfl, hx .obj _ rfl, ?_⟩⟩
      cases hg : x.g with
      | none => rfl
      | some g => exact hx .graph g hg
  · obtain ⟨b, e, h1, -⟩ := graph_any_found hs hl hcap (.fromTriple x)
    refine ⟨b, e, (h1 (by simp [CanonicalTriplePattern.fromTriple, tripleGivesSubject])).trans ?_⟩
    have hf : ∀ y, foundTriple rep l (.fromTriple x) y ↔
        (y, Pos.subj) ∈ (recordsOf rep tripleAt x.s l).current ∧
        (y, Pos.pred) ∈ (recordsOf rep tripleAt x.p l).current ∧
        (y, Pos.obj) ∈ (recordsOf rep tripleAt x.o l).current := by
      intro y
      simp [foundTriple, CanonicalTriplePattern.fromTriple, Ask.triple, askRecords]
    constructor
    · rintro ⟨y, hy, hw⟩
      rw [hf] at hw
      obtain ⟨a1, a2, a3⟩ := hw
      have e1 := (graph_current hs hl a1).2
      have e2 := (graph_current hs hl a2).2
      have e3 := (graph_current hs hl a3).2
      obtain ⟨s, p, o⟩ := x
      obtain ⟨s', p', o'⟩ := y
      simp only [tripleAt, Option.some.injEq] at e1 e2 e3
      subst e1 e2 e3
      intro p r hr
      cases p <;> simp [tripleAt] at hr <;> subst hr <;> assumption
    · intro hx
      exact ⟨x, (graph_current hs hl (hx .subj x.s rfl)).1, (hf x).2
        ⟨hx .subj _ rfl, hx .pred _ rfl, hx .obj _ rfl⟩⟩

/-! ## Cases -/

/-- One call, `insert` of a quad whose subject is its predicate, makes two records. -/
theorem sample_twice (rep : Bool) : ∃ d : IndexedBTreeDataset Nat,
    DatasetPlaces rep d ⟨[some ⟨1, 1, 2, none⟩], []⟩ ∧
    DatasetEvents rep d [.added ⟨1, 1, 2, none⟩] := by
  obtain ⟨d, b, e, -⟩ := IndexedBTreeDataset.insert_spec rep
    (IndexedBTreeDataset.wf_new (R := Nat)) ⟨1, 1, 2, none⟩
  exact ⟨d, .insert .new trivial e (.inr ⟨by simp [Shelf.has, Shelf.empty], rfl⟩), .insert .new e⟩

/-- Then the subject is found by its term, the predicate only if the first one of the two
records was replaced in the index. -/
example (rep : Bool) : ∃ d : IndexedBTreeDataset Nat, ∀ cap, datasetSlots d ≤ cap →
    containsSubject cap d 1 = .ok (!rep) ∧ containsPredicate cap d 1 = .ok rep ∧
    containsQuad cap d ⟨1, 1, 2, none⟩ = .ok false := by
  obtain ⟨d, hs, hl⟩ := sample_twice rep
  refine ⟨d, fun cap hcap => ?_⟩
  obtain ⟨b, e, hb⟩ := (C71_membership rep).1.1 d _ _ hs hl cap hcap 1
  obtain ⟨b', e', hb'⟩ := (C71_membership rep).1.2.1 d _ _ hs hl cap hcap 1
  obtain ⟨c, ec, hc⟩ := (C71_statements rep).1 d _ _ hs hl cap hcap ⟨1, 1, 2, none⟩
  have h1 : (recordsOf rep quadAt 1 [Event.added (⟨1, 1, 2, none⟩ : Quad Nat)]).current =
      [(⟨1, 1, 2, none⟩, if rep then Pos.pred else Pos.subj)] := by cases rep <;> decide
  rw [e, e', ec]
  rw [h1] at hb hb'
  refine ⟨congrArg _ ?_, congrArg _ ?_, congrArg _ ?_⟩
  · rw [Bool.eq_iff_iff, hb]; cases rep <;> simp
  · rw [Bool.eq_iff_iff, hb']; cases rep <;> simp
  · rw [Bool.eq_false_iff, Ne, hc]
    intro h
    have a1 := h .subj 1 rfl
    have a2 := h .pred 1 rfl
    rw [h1] at a1 a2
    cases rep <;> simp at a1 a2

/-- And a search for quads whose subject is their predicate yields nothing. -/
example (rep : Bool) : ∃ d : IndexedBTreeDataset Nat, ∀ cap, datasetSlots d ≤ cap →
    matchQuads cap d (.anySubject (.sameAsSubject (.anyObject .anyGraph))) = .ok [] := by
  obtain ⟨d, hs, hl⟩ := sample_twice rep
  refine ⟨d, fun cap hcap => ?_⟩
  obtain ⟨xs, n, e, hp, -⟩ := (C71_searches rep).1 d _ _ hs hl cap hcap
    (.anySubject (.sameAsSubject (.anyObject .anyGraph)))
  rw [e]
  congr 1
  refine List.eq_nil_iff_forall_not_mem.2 fun x hx => ?_
  obtain ⟨-, hw⟩ := (hp.mem x).1 hx
  simp only [foundQuad, Ask.quad, askRecords] at hw
  obtain ⟨⟨r, g, hg, h1, h2⟩, -⟩ := hw
  have : ∃ p, g = [(⟨1, 1, 2, none⟩, p)] := by
    simp only [recordsOf, Records.enter, Records.none] at hg
    by_cases hn : positionsOf (quadAt (⟨1, 1, 2, none⟩ : Quad Nat)) r = []
    · simp [hn] at hg
    · simp only [hn, List.any_nil, Bool.false_eq_true, or_self, if_false, List.append_nil, List.mem_map] at hg
      obtain ⟨p, -, rfl⟩ := hg
      exact ⟨p, rfl⟩
  obtain ⟨p, rfl⟩ := this
  simp only [List.mem_singleton, Prod.mk.injEq] at h1 h2
  exact nomatch h1.2.trans h2.2.symm

end RdfTypes.Property
