import Verif.Property.Found
import Verif.Proof.Walk

/-!
# C76: the way of a search

C65 and C71 say where a search without a given subject stops when the pattern repeats no
term or gives nothing. These theorems say where it stops, and what it yields, for every
such pattern: `Walk` is the way of the search through the places.
-/

set_option linter.unusedSectionVars false

namespace RdfTypes.Property

open Container Spec

variable {R : Type} [Ord R] [Std.TransOrd R] [Std.LawfulEqOrd R] [DecidableEq R]

/-- The searches without a given subject. -/
abbrev searchQuads (cap : Nat) (d : IndexedBTreeDataset R) (pat : QPat.AnySubject R) :
    Res (List (Quad R)) := matchQuads cap d (.anySubject pat)

abbrev searchListed (cap : Nat) (d : IndexedBTreeDataset R) (pat : QPat.AnySubject (List R)) :
    Res (List (Quad R)) := matchListed cap d (.anySubject pat)

abbrev searchTriples (cap : Nat) (d : IndexedBTreeGraph R) (pat : TPat.AnySubject R) :
    Res (List (Triple R)) := matchTriples cap d (.anySubject pat)

/-- C76. After any history, a search that does not give the subject ends without panic and
yields what the walk through the places yields, testing records. -/
theorem C76_walks (rep : Bool) :
    WalksRecords (DatasetPlaces (R := R) rep) (DatasetEvents rep) datasetSlots searchQuads
      (fun l => quadTests (askRecords quadAt fun r => recordsOf rep quadAt r l)) ∧
    WalksRecords (DatasetPlaces (R := R) rep) (DatasetEvents rep) datasetSlots searchListed
      (fun l => quadTests (askListed quadAt fun r => recordsOf rep quadAt r l)) ∧
    WalksRecords (GraphPlaces (R := R) rep) (GraphEvents rep) graphSlots searchTriples
      (fun l => tripleTests (askRecords tripleAt fun r => recordsOf rep tripleAt r l)) := by
  refine ⟨?_, ?_, ?_⟩
  · intro d h l hs hl cap hcap pat
    obtain ⟨w, k⟩ := IndexedBTreeDataset.events_follow hl
    exact IndexedBTreeDataset.patternMatching_walk w (IndexedBTreeDataset.shelf_kept hs).2 hcap
      (reads_records quadShape_laws w.inv k (fun _ _ _ => Iff.rfl)
        (fun y x p => by simp [askRecords]) (fun _ => Iff.rfl)) pat
  · intro d h l hs hl cap hcap pat
    obtain ⟨w, k⟩ := IndexedBTreeDataset.events_follow hl
    exact IndexedBTreeDataset.multiPatternMatching_walk w (IndexedBTreeDataset.shelf_kept hs).2 hcap
      (reads_records quadShape_laws w.inv k (fun _ _ _ => Iff.rfl)
        (fun y x p => by simp [askListed]) (fun _ => Iff.rfl)) pat
  · intro d h l hs hl cap hcap pat
    obtain ⟨w, k⟩ := IndexedBTreeGraph.events_follow hl
    exact IndexedBTreeGraph.patternMatching_walk w (IndexedBTreeGraph.shelf_kept hs).2 hcap
      (reads_records tripleShape_laws w.inv k (fun _ _ _ => Iff.rfl)
        (fun y x p => by simp [askRecords]) (fun _ => Iff.rfl)) pat

/-- After a history in which a resource repeated within an inserted statement already
occurs, the walk tests terms. -/
theorem C76_walks_terms (rep : Bool) :
    WalksPlaces (DatasetShelf (R := R) rep knownRepeats) datasetSlots searchQuads
      (quadTests fun x => askTerms (quadAt x)) ∧
    WalksPlaces (DatasetShelf (R := R) rep knownRepeats) datasetSlots searchListed
      (quadTests fun x => askListedTerms (quadAt x)) ∧
    WalksPlaces (GraphShelf (R := R) rep knownTripleRepeats) graphSlots searchTriples
      (tripleTests fun x => askTerms (tripleAt x)) := by
  refine ⟨?_, ?_, ?_⟩
  · intro d h hs cap hcap pat
    obtain ⟨hr, hk⟩ := IndexedBTreeDataset.shelf_kept hs
    have w := (IndexedBTreeDataset.reach_stands hr).1
    exact IndexedBTreeDataset.patternMatching_walk w hk hcap
      (reads_terms quadShape_laws w.inv (dataset_exact hr) (fun _ _ _ => Iff.rfl)
        (fun y x p => by simp [askTerms, quadShape_compV]) (fun _ => Iff.rfl)) pat
  · intro d h hs cap hcap pat
    obtain ⟨hr, hk⟩ := IndexedBTreeDataset.shelf_kept hs
    have w := (IndexedBTreeDataset.reach_stands hr).1
    exact IndexedBTreeDataset.multiPatternMatching_walk w hk hcap
      (reads_terms quadShape_laws w.inv (dataset_exact hr) (fun _ _ _ => Iff.rfl)
        (fun y x p => by simp [askListedTerms, quadShape_compV, and_comm]) (fun _ => Iff.rfl)) pat
  · intro d h hs cap hcap pat
    obtain ⟨hr, hk⟩ := IndexedBTreeGraph.shelf_kept hs
    have w := (IndexedBTreeGraph.reach_stands hr).1
    exact IndexedBTreeGraph.patternMatching_walk w hk hcap
      (reads_terms tripleShape_laws w.inv (graph_exact hr) (fun _ _ _ => Iff.rfl)
        (fun y x p => by simp [askTerms, tripleShape_compV]) (fun _ => Iff.rfl)) pat

/-- There is one walk from each place, whatever the tests. -/
theorem C76_one_walk {S : Type} (ts : List (Test S)) (l : List (Option S)) (i : Nat) :
    ∃ xs n, Walk ts l i xs n ∧ ∀ xs' n', Walk ts l i xs' n' → xs' = xs ∧ n' = n := by
  obtain ⟨xs, n, h⟩ := walk_exists ts l i
  exact ⟨xs, n, h, fun _ _ h' => h'.unique h⟩

/-- It yields exactly the statements that pass all tests in the places before the one
where it stops. -/
theorem C76_yields {S : Type} {ts : List (Test S)} {l : List (Option S)} {xs : List S} {n : Nat}
    (h : Walk ts l 0 xs n) : Picks (fun x => ∀ t ∈ ts, t.holds x) (l.take n) xs :=
  h.picks

/-- When the pattern gives nothing after a repeated term, the walk stops at the end, or
at the first empty place that comes first or just after a statement with the given
parts. -/
theorem C76_stops {S : Type} {ts : List (Test S)}
    (hts : ts.Pairwise fun t u => u.given = true → t.given = true) {l : List (Option S)}
    {xs : List S} {n : Nat} (h : Walk ts l 0 xs n) :
    (n = l.length ∨ Barrier (fun x => ∀ t ∈ ts, t.given = true → t.holds x) l n) ∧
      ∀ k < n, ¬ Barrier (fun x => ∀ t ∈ ts, t.given = true → t.holds x) l k :=
  h.stop hts

/-- Passing all tests is matching. -/
theorem C76_tests {S T : Type} (a : S → Ask T) (x : S) :
    (∀ pat, (∀ t ∈ quadTests a pat, t.holds x) ↔ (a x).quad (.anySubject pat)) ∧
    (∀ pat, (∀ t ∈ tripleTests a pat, t.holds x) ↔ (a x).triple (.anySubject pat)) := by
  constructor
  · intro pat
    rcases pat with (g | g | g | ⟨o, g⟩) | (g | g | ⟨o, g⟩) | ⟨p, g | g | ⟨o, g⟩⟩ <;> cases g <;>
      simp [quadTests, anyAnyTests, anyGivenTests, anyAnyAnyTests, anyGivenAnyTests,
        anyAnyGivenTests, anyGivenGivenTests, sameTest, givenTest, graphTest, Ask.quad,
        Ask.anyAnyAny, Ask.anyGivenAny, Ask.anyAnyGiven, Ask.anyGivenGiven]
  · intro pat
    rcases pat with (_ | _ | _ | o) | (_ | _ | o) | ⟨p, _ | _ | o⟩ <;>
      simp [tripleTests, tripleAnyAnyTests, tripleAnyGivenTests, sameTest, givenTest, Ask.triple]

/-- In `sample_gap`, a search for the predicate 5 jumps over the empty place. -/
example (rep : Bool) : ∃ d : IndexedBTreeDataset Nat, ∀ cap, datasetSlots d ≤ cap →
    searchQuads cap d (.givenPredicate 5 (.anyObject .anyGraph)) = .ok [⟨7, 5, 8, some 9⟩] := by
  obtain ⟨d, hd⟩ := sample_gap rep
  refine ⟨d, fun cap hcap => ?_⟩
  obtain ⟨xs, n, e, hw⟩ := (C76_walks_terms rep).1 d _ hd cap hcap
    (.givenPredicate 5 (.anyObject .anyGraph))
  have hr : Walk (quadTests (fun x : Quad Nat => askTerms (quadAt x))
      (.givenPredicate 5 (.anyObject .anyGraph)))
      [some ⟨1, 2, 3, none⟩, none, some ⟨7, 5, 8, some 9⟩] 0 [⟨7, 5, 8, some 9⟩] 3 := by
    refine .jump (j := 2) (x := ⟨1, 2, 3, none⟩) (y := ⟨7, 5, 8, some 9⟩) rfl
      ⟨[], [], rfl, by simp, by simp [givenTest, askTerms, quadAt]⟩ rfl (by decide) rfl
      (by simp [givenTest, askTerms, quadAt]) ?_ (.found rfl ?_ (.past (by simp)))
    · intro k z h1 h2 hz
      obtain rfl : k = 1 := by omega
      simp at hz
    · simp [quadTests, anyGivenTests, anyGivenAnyTests, givenTest, askTerms, quadAt]
  rw [e, (hw.unique hr).1]

/-- After `sample_twice`, a search for the predicate 1 finds the quad only if the record of
the subject was replaced. -/
example (rep : Bool) : ∃ d : IndexedBTreeDataset Nat, ∀ cap, datasetSlots d ≤ cap →
    searchQuads cap d (.givenPredicate 1 (.anyObject .anyGraph)) =
      .ok (if rep then [⟨1, 1, 2, none⟩] else []) := by
  obtain ⟨d, hs, hl⟩ := sample_twice rep
  refine ⟨d, fun cap hcap => ?_⟩
  obtain ⟨xs, n, e, hw⟩ := (C76_walks rep).1 d _ _ hs hl cap hcap
    (.givenPredicate 1 (.anyObject .anyGraph))
  rw [e]
  have h1 : (recordsOf rep quadAt 1 [Event.added (⟨1, 1, 2, none⟩ : Quad Nat)]).current =
      [(⟨1, 1, 2, none⟩, if rep then Pos.pred else Pos.subj)] := by cases rep <;> decide
  cases rep with
  | true =>
    simp only [if_true]
    refine congrArg _ (hw.unique (xs' := [⟨1, 1, 2, none⟩]) (n' := 1) (.found rfl ?_ (.past (by simp)))).1
    simp [quadTests, anyGivenTests, anyGivenAnyTests, givenTest, askRecords, h1]
  | false =>
    refine congrArg _ (hw.unique (xs' := []) (n' := 1) (.gone (x := ⟨1, 1, 2, none⟩) rfl
      ⟨[], [], rfl, by simp, ?_⟩ rfl ?_)).1
    · simp [givenTest, askRecords, h1]
    · intro k z hk hz
      simp only [List.getElem?_eq_some_iff] at hz
      obtain ⟨hz, -⟩ := hz
      simp at hz
      omega

/-- The fourth of five places is empty. -/
def wayOps : List (Op (Quad Nat)) :=
  [.insert ⟨1, 0, 0, none⟩, .insert ⟨7, 0, 0, none⟩, .insert ⟨1, 1, 5, none⟩,
    .insert ⟨4, 2, 6, none⟩, .insert ⟨7, 7, 3, none⟩, .remove ⟨4, 2, 6, none⟩]

/-- A pattern with a repeated term only stops there; one that also gives the object jumps
over it from the third place, whose object is the first part to fail. -/
example : ((IndexedBTreeDataset.container true Nat).run IndexedBTreeDataset.new wayOps).bind
    (fun d => do
      pure (← searchQuads 5 d (.sameAsSubject (.anyObject .anyGraph)),
        ← searchQuads 5 d (.sameAsSubject (.givenObject 3 .anyGraph))))
    = .ok ([⟨1, 1, 5, none⟩], [⟨7, 7, 3, none⟩]) := by decide

/-- `C76_stops` for a given predicate followed by a repeated term. -/
example (x y : Quad Nat) (hx : x.p = 5)
    {xs : List (Quad Nat)} {n : Nat}
    (h : Walk (quadTests (fun x : Quad Nat => askTerms (quadAt x))
      (.givenPredicate 5 (.sameAsSubject .anyGraph))) [some y, some x, none] 0 xs n) : n = 2 := by
  have hb := C76_stops (by simp [quadTests, anyGivenTests, anyGivenGivenTests, givenTest, sameTest]) h
  simp only [quadTests, anyGivenTests, anyGivenGivenTests, givenTest, sameTest] at hb
  have hB : Barrier (fun z : Quad Nat => ∀ t ∈ [(⟨true, fun z => (askTerms (quadAt z)).given 5 .pred⟩ : Test (Quad Nat)),
      ⟨false, fun z => (askTerms (quadAt z)).same .subj .obj⟩], t.given = true → t.holds z)
      [some y, some x, none] 2 := by
    refine ⟨rfl, fun k hk => ⟨x, ?_, ?_⟩⟩
    · obtain rfl : k = 1 := by omega
      rfl
    · simp [askTerms, quadAt, hx]
  have h1 : n ≤ 2 := Nat.le_of_not_lt fun hn => hb.2 2 hn hB
  rcases hb.1 with h2 | h2
  · simp at h2; omega
  · have := h2.1
    match n, h1 with
    | 0, _ => simp at this
    | 1, _ => simp at this
    | 2, _ => rfl

/-- A walk over a place that is empty. -/
example : ∃ xs n, Walk (quadTests (fun x : Quad Nat => askTerms (quadAt x))
      (.givenPredicate 5 (.anyObject .anyGraph)))
      [some ⟨1, 2, 3, none⟩, none, some ⟨7, 5, 8, some 9⟩] 0 xs n ∧
    Picks (fun x => ∀ t ∈ quadTests (fun x : Quad Nat => askTerms (quadAt x))
      (.givenPredicate 5 (.anyObject .anyGraph)), t.holds x)
      ([some ⟨1, 2, 3, none⟩, none, some ⟨7, 5, 8, some 9⟩].take n) xs := by
  obtain ⟨xs, n, h, -⟩ := C76_one_walk (quadTests (fun x : Quad Nat => askTerms (quadAt x))
    (.givenPredicate 5 (.anyObject .anyGraph)))
    [some ⟨1, 2, 3, none⟩, none, some ⟨7, 5, 8, some 9⟩] 0
  exact ⟨xs, n, h, C76_yields h⟩

end RdfTypes.Property
