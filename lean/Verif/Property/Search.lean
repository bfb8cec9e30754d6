import Verif.Property.PatternMatching
import Verif.Proof.Extraction

/-!
# C65–C67: what the searches of the indexed containers yield, exactly

The searches are incomplete (C21–C23, C25). These theorems say what they yield instead,
after every history in which a resource repeated within an inserted statement
already occurs. What they yield depends on the places of the statements in the
container, which the history determines (`Shelf`).
-/

set_option linter.unusedSectionVars false

namespace RdfTypes.Property

open Container Spec

variable {R : Type} [Ord R] [Std.TransOrd R] [Std.LawfulEqOrd R]

section samples

/-- The second of three places is empty. -/
def gapOps : List (Op (Quad Nat)) :=
  [.insert ⟨1, 2, 3, none⟩, .insert ⟨4, 5, 6, none⟩, .insert ⟨7, 5, 8, some 9⟩,
    .remove ⟨4, 5, 6, none⟩]

theorem sample_put {rep : Bool} {P : (Quad R → Prop) → Op (Quad R) → Prop}
    {d : IndexedBTreeDataset R} {h : Shelf (Quad R)} (hs : DatasetShelf rep P d h) {x : Quad R}
    (hp : P h.has (.insert x)) (hn : ¬ h.has x) : ∃ d', DatasetShelf rep P d' (h.put x) := by
  obtain ⟨d', b, e, -⟩ := IndexedBTreeDataset.insert_spec rep
    (IndexedBTreeDataset.reach_stands (IndexedBTreeDataset.shelf_kept hs).1).1 x
  exact ⟨d', .insert hs hp e (.inr ⟨hn, rfl⟩)⟩

theorem sample_clear {rep : Bool} {P : (Quad R → Prop) → Op (Quad R) → Prop}
    {d : IndexedBTreeDataset R} {h : Shelf (Quad R)} (hs : DatasetShelf rep P d h) {x : Quad R}
    {k : Nat} (hp : P h.has (.remove x)) (hk : h.places[k]? = some (some x)) :
    ∃ d', DatasetShelf rep P d' (h.clear k) := by
  obtain ⟨d', b, e, -⟩ := IndexedBTreeDataset.remove_spec
    (IndexedBTreeDataset.reach_stands (IndexedBTreeDataset.shelf_kept hs).1).1 x
  exact ⟨d', .remove hs hp e (.inr ⟨k, hk, rfl⟩)⟩

theorem sample_gap (rep : Bool) : ∃ d, DatasetShelf rep knownRepeats d
    ⟨[some ⟨1, 2, 3, none⟩, none, some ⟨7, 5, 8, some 9⟩], [1]⟩ := by
  have hn : ∀ (A : Quad Nat → Prop) (s p o : Nat) (g : Option Nat), s ≠ p → s ≠ o → p ≠ o →
      g ≠ some s → g ≠ some p → g ≠ some o → knownRepeats A (.insert ⟨s, p, o, g⟩) := by
    intro A s p o g h1 h2 h3 h4 h5 h6 r hr
    simp only [quadRepeats] at hr
    grind
  obtain ⟨d1, h1⟩ := sample_put (rep := rep) .new (hn _ 1 2 3 none (by simp) (by simp) (by simp)
    (by simp) (by simp) (by simp)) (by simp [Shelf.has, Shelf.empty])
  obtain ⟨d2, h2⟩ := sample_put h1 (hn _ 4 5 6 none (by simp) (by simp) (by simp)
    (by simp) (by simp) (by simp)) (by simp [Shelf.has, Shelf.put, Shelf.empty])
  obtain ⟨d3, h3⟩ := sample_put h2 (hn _ 7 5 8 (some 9) (by simp) (by simp) (by simp)
    (by simp) (by simp) (by simp)) (by simp [Shelf.has, Shelf.put, Shelf.empty])
  obtain ⟨d4, h4⟩ := sample_clear (k := 1) h3 (x := ⟨4, 5, 6, none⟩) trivial rfl
  exact ⟨d4, h4⟩

end samples

/-! ## C65 -/

/-- C65. `pattern_matching` of the indexed containers and `multi_pattern_matching`
end without panic and yield exactly the matching statements of the first places, in
the order of the places; `GoesTo` says how many places. -/
theorem C65_places (rep : Bool) :
    SearchesPlaces (DatasetShelf (R := R) rep knownRepeats) datasetSlots matchQuads matchesQuad
      givesSubject givesPart repeatsPart ∧
    SearchesPlaces (DatasetShelf (R := R) rep knownRepeats) datasetSlots matchListed matchesListed
      givesSubject givesPart repeatsPart ∧
    SearchesPlaces (GraphShelf (R := R) rep knownTripleRepeats) graphSlots matchTriples
      matchesTriple tripleGivesSubject tripleGivesPart tripleRepeatsPart := by
  refine ⟨?_, ?_, ?_⟩
  · intro d h hs cap hcap pat
    obtain ⟨hr, hk⟩ := IndexedBTreeDataset.shelf_kept hs
    exact IndexedBTreeDataset.patternMatching_places (IndexedBTreeDataset.reach_stands hr).1
      (dataset_exact hr) hk hcap pat
  · intro d h hs cap hcap pat
    obtain ⟨hr, hk⟩ := IndexedBTreeDataset.shelf_kept hs
    have he : IndexedBTreeDataset.PartsIn (fun a r => r ∈ a) pat.subject pat.predicate pat.object pat.graph =
        matchesListed pat := funext fun q => propext (partsIn_listed pat q)
    have := IndexedBTreeDataset.multiPatternMatching_places (IndexedBTreeDataset.reach_stands hr).1
      (dataset_exact hr) hk hcap pat
    rwa [he] at this
  · intro d h hs cap hcap pat
    obtain ⟨hr, hk⟩ := IndexedBTreeGraph.shelf_kept hs
    exact IndexedBTreeGraph.patternMatching_places (IndexedBTreeGraph.reach_stands hr).1
      (graph_exact hr) hk hcap pat

/-- Every history, whatever its insertions, puts the statements in places. -/
theorem C65_every_history (rep : Bool) (P : (Quad R → Prop) → Op (Quad R) → Prop)
    (P' : (Triple R → Prop) → Op (Triple R) → Prop) :
    (∀ d A, IndexedDatasetHistoryOf rep P True d A → ∃ h, DatasetShelf rep P d h ∧ A = h.has) ∧
    (∀ d A, IndexedGraphHistoryOf rep P' d A → ∃ h, GraphShelf rep P' d h ∧ A = h.has) :=
  ⟨fun _ _ h => IndexedBTreeDataset.shelf_exists h, fun _ _ h => IndexedBTreeGraph.shelf_exists h⟩

/-- In `sample_gap`, a search for everything stops at the empty place. -/
example (rep : Bool) : ∃ d : IndexedBTreeDataset Nat, ∀ cap, datasetSlots d ≤ cap →
    matchQuads cap d (.anySubject (.anyPredicate (.anyObject .anyGraph)))
      = .ok [⟨1, 2, 3, none⟩] := by
  obtain ⟨d, hd⟩ := sample_gap rep
  refine ⟨d, fun cap hcap => ?_⟩
  obtain ⟨xs, n, e, hp, hg⟩ := (C65_places rep).1 d _ hd cap hcap
    (.anySubject (.anyPredicate (.anyObject .anyGraph)))
  rw [e]
  have hb : ∀ x : Quad Nat, matchesQuad (.anySubject (.anyPredicate (.anyObject .anyGraph))) x :=
    fun _ => trivial
  have h2 := hg.nothingGiven (by simp [givesPart])
  have h3 : n ≤ 1 := by
    refine Nat.le_of_not_lt fun h => ?_
    exact h2 1 h rfl
  have h4 : n ≠ 0 := by
    rintro rfl
    rcases hg.stop with h | ⟨h, -⟩ <;> simp at h
  have : n = 1 := by omega
  subst this
  cases hp with
  | other h _ => exact absurd (hb _) h
  | wanted _ h => cases h; rfl

example : ((IndexedBTreeDataset.container true Nat).run IndexedBTreeDataset.new gapOps).bind
    (fun d => do
      pure (← matchQuads 3 d (.anySubject (.anyPredicate (.anyObject .anyGraph))),
        ← matchQuads 3 d (.anySubject (.givenPredicate 5 (.anyObject .anyGraph))),
        ← matchQuads 3 d (.givenSubject 7 (.anyPredicate (.anyObject .anyGraph)))))
    = .ok ([⟨1, 2, 3, none⟩], [⟨7, 5, 8, some 9⟩], [⟨7, 5, 8, some 9⟩]) := by decide

/-! ## C66 -/

/-- C66. After any history, extraction takes out what the search would yield. -/
theorem C66_extracts_what_is_found (rep : Bool) :
    ExtractsWhatIsFound (IndexedDatasetHistory (R := R) rep) := by
  intro d A h cap hcap pat n
  have hs := IndexedBTreeDataset.reach_stands h
  obtain ⟨xs, e, -⟩ := IndexedBTreeDataset.found hs hcap pat
  obtain ⟨d', ended, h1, h2⟩ := IndexedBTreeDataset.extract_prefix hs.1 hcap pat n e
  exact ⟨xs, d', ended, e, h1, h2⟩

example : ((IndexedBTreeDataset.container true Nat).run IndexedBTreeDataset.new refillOps).bind
    (fun d => do
      let (_, xs, ended) ← d.extractPatternMatching 2
        (.anySubject (.givenPredicate 5 (.anyObject .anyGraph))) 2
      let (_, ys, ended') ← d.extractPatternMatching 2
        (.anySubject (.givenPredicate 5 (.anyObject .anyGraph))) 3
      pure (xs, ended, ys, ended'))
    = .ok ([⟨4, 5, 4, none⟩, ⟨4, 5, 6, some 7⟩], false,
        [⟨4, 5, 4, none⟩, ⟨4, 5, 6, some 7⟩], true) := by decide

/-! ## C67 -/

/-- A search whose pattern gives one part, not the subject, and repeats none. -/
theorem first_full {S : Type} {W : S → Prop} {h : Shelf S} {s g r : Prop} {n : Nat} {xs : List S}
    (hp : Picks W (h.places.take n) xs) (hg : GoesTo W h.places s g r n) (hs : ¬ s) (hr : ¬ r) :
    (!xs.isEmpty) = true ↔ h.places.head? ≠ some none ∧ ∃ y, h.has y ∧ W y := by
  obtain ⟨h1, h2⟩ := hg.noRepeat hr hs
  have hx : (!xs.isEmpty) = true ↔ ∃ y, some y ∈ h.places.take n ∧ W y := by
    rw [← exists_congr fun y => hp.mem y]
    cases xs with
    | nil => simp
    | cons x xs => exact ⟨fun _ => ⟨x, by simp⟩, fun _ => by simp⟩
  rw [hx]
  constructor
  · rintro ⟨y, hy, hw⟩
    refine ⟨fun he => ?_, y, List.mem_of_mem_take hy, hw⟩
    rw [List.head?_eq_getElem?] at he
    have : ¬ 0 < n := fun h0 => h2 0 h0 ⟨he, fun k hk => by omega⟩
    have : n = 0 := by omega
    subst this
    simp at hy
  · rintro ⟨he, y, hy, hw⟩
    rw [List.head?_eq_getElem?] at he
    rcases h1 with h1 | h1
    · exact ⟨y, by rw [h1, List.take_length]; exact hy, hw⟩
    · cases n with
      | zero => exact absurd h1.1 he
      | succ k =>
        obtain ⟨x, hx, hw'⟩ := h1.2 k rfl
        exact ⟨x, List.mem_iff_getElem?.2 ⟨k, by simp [hx]⟩, hw'⟩

/-- C67. `contains_quad_predicate`, `contains_quad_object`, `contains_named_graph`,
`contains_triple_predicate` and `contains_triple_object` answer true exactly when a
contained statement has the term there and the first place is not empty. -/
theorem C67_first_place (rep : Bool) :
    AnswersIfFirstFull (DatasetShelf (R := R) rep knownRepeats) datasetSlots (fun y r => y.p = r)
      containsPredicate ∧
    AnswersIfFirstFull (DatasetShelf (R := R) rep knownRepeats) datasetSlots (fun y r => y.o = r)
      containsObject ∧
    AnswersIfFirstFull (DatasetShelf (R := R) rep knownRepeats) datasetSlots
      (fun y r => y.g = some r) containsNamedGraph ∧
    AnswersIfFirstFull (GraphShelf (R := R) rep knownTripleRepeats) graphSlots (fun y r => y.p = r)
      containsTriplePredicate ∧
    AnswersIfFirstFull (GraphShelf (R := R) rep knownTripleRepeats) graphSlots (fun y r => y.o = r)
      containsTripleObject := by
  have key : ∀ (d : IndexedBTreeDataset R) h, DatasetShelf rep knownRepeats d h → ∀ cap,
      datasetSlots d ≤ cap → ∀ pat, ¬ givesSubject pat → ¬ repeatsPart pat →
      ∀ {has : Quad R → Prop}, (∀ y, matchesQuad pat y ↔ has y) →
      ∃ b, (d.matching cap).any pat = .ok b ∧
        (b = true ↔ h.places.head? ≠ some none ∧ ∃ y, h.has y ∧ has y) := by
    intro d h hs cap hcap pat h1 h2 has hw
    obtain ⟨xs, n, e, hp, hg⟩ := (C65_places rep).1 d h hs cap hcap pat
    obtain ⟨xs', e', hf⟩ := IndexedBTreeDataset.found
      (IndexedBTreeDataset.reach_stands (IndexedBTreeDataset.shelf_kept hs).1) hcap pat
    cases Except.ok.inj (e.symm.trans e')
    obtain ⟨m, em, hy⟩ := hf.yields
    refine ⟨_, Matching.any_eq em hy, ?_⟩
    simpa only [hw] using first_full hp hg h1 h2
  have key' : ∀ (d : IndexedBTreeGraph R) h, GraphShelf rep knownTripleRepeats d h → ∀ cap,
      graphSlots d ≤ cap → ∀ pat, ¬ tripleGivesSubject pat → ¬ tripleRepeatsPart pat →
      ∀ {has : Triple R → Prop}, (∀ y, matchesTriple pat y ↔ has y) →
      ∃ b, (d.matching cap).any pat = .ok b ∧
        (b = true ↔ h.places.head? ≠ some none ∧ ∃ y, h.has y ∧ has y) := by
    intro d h hs cap hcap pat h1 h2 has hw
    obtain ⟨xs, n, e, hp, hg⟩ := (C65_places rep).2.2 d h hs cap hcap pat
    obtain ⟨xs', e', hf⟩ := IndexedBTreeGraph.found
      (IndexedBTreeGraph.reach_stands (IndexedBTreeGraph.shelf_kept hs).1) hcap pat
    cases Except.ok.inj (e.symm.trans e')
    obtain ⟨m, em, hy⟩ := hf.yields
    refine ⟨_, Matching.any_eq em hy, ?_⟩
    simpa only [hw] using first_full hp hg h1 h2
  refine ⟨?_, ?_, ?_, ?_, ?_⟩
  · intro d h hs cap hcap r
    exact key d h hs cap hcap (.anySubject (.givenPredicate r (.anyObject .anyGraph)))
      (by simp [givesSubject]) (by simp [repeatsPart])
      (fun y => by simp [matchesQuad, QuadMatch.anyGivenAny])
  · intro d h hs cap hcap r
    exact key d h hs cap hcap (.anySubject (.anyPredicate (.givenObject r .anyGraph)))
      (by simp [givesSubject]) (by simp [repeatsPart])
      (fun y => by simp [matchesQuad, QuadMatch.anyAnyGiven])
  · intro d h hs cap hcap r
    exact key d h hs cap hcap (.anySubject (.anyPredicate (.anyObject (.givenGraph (some r)))))
      (by simp [givesSubject]) (by simp [repeatsPart])
      (fun y => by simp [matchesQuad, QuadMatch.anyAnyAny])
  · intro d h hs cap hcap r
    exact key' d h hs cap hcap (.anySubject (.givenPredicate r .anyObject))
      (by simp [tripleGivesSubject]) (by simp [tripleRepeatsPart])
      (fun y => by simp [matchesTriple])
  · intro d h hs cap hcap r
    exact key' d h hs cap hcap (.anySubject (.anyPredicate (.givenObject r)))
      (by simp [tripleGivesSubject]) (by simp [tripleRepeatsPart])
      (fun y => by simp [matchesTriple])

/-- In `sample_gap` the answer is right. After `holeOps` it is not, the first place
being empty (`C25_false`). -/
example (rep : Bool) : ∃ d : IndexedBTreeDataset Nat, ∀ cap, datasetSlots d ≤ cap →
    containsPredicate cap d 5 = .ok true ∧ containsPredicate cap d 6 = .ok false := by
  obtain ⟨d, hd⟩ := sample_gap rep
  refine ⟨d, fun cap hcap => ?_⟩
  obtain ⟨b, e, hb⟩ := (C67_first_place rep).1 d _ hd cap hcap 5
  obtain ⟨b', e', hb'⟩ := (C67_first_place rep).1 d _ hd cap hcap 6
  rw [e, e', hb.2 ⟨by simp, ⟨7, 5, 8, some 9⟩, by simp [Shelf.has], rfl⟩]
  cases b' with
  | false => exact ⟨rfl, rfl⟩
  | true =>
    obtain ⟨-, y, hy, hy'⟩ := hb'.1 rfl
    simp only [Shelf.has, List.mem_cons, Option.some.injEq, reduceCtorEq, List.not_mem_nil,
      or_false, false_or] at hy
    rcases hy with rfl | rfl <;> cases hy'

end RdfTypes.Property
