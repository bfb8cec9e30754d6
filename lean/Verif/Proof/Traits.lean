import Verif.Spec.Matching
import Verif.Proof.PatternMatching
import Verif.Proof.Peak
import Verif.Proof.Runs
import Verif.Proof.ResourceClaims

/-! # Provided methods of the pattern matching traits -/

set_option linter.unusedSectionVars false
set_option linter.unusedSimpArgs false

namespace RdfTypes

open Spec

section

variable {P X R M : Type}

theorem ok_of_bind {α β : Type} {x : Res α} {f : α → Res β} {b : β} (h : (x >>= f) = .ok b) :
    ∃ a, x = .ok a ∧ f a = .ok b := by
  cases x with
  | error e => cases h
  | ok a => exact ⟨a, rfl, h⟩

theorem yields_of_collectAll {next : M → Res (Option X × M)} {fuel : Nat} :
    ∀ {m : M} {xs : List X}, collectAll next fuel m = .ok xs → Yields next m xs ∧ xs.length < fuel := by
  induction fuel with
  | zero => intro m xs h; simp [collectAll] at h
  | succ fuel ih =>
    intro m xs h
    rw [collectAll] at h
    obtain ⟨⟨o, m'⟩, e, h⟩ := ok_of_bind h
    cases o with
    | none =>
      simp only [pure, Except.pure, Except.ok.injEq] at h
      subst h
      exact ⟨.ends e, by simp⟩
    | some x =>
      obtain ⟨ys, e', h⟩ := ok_of_bind h
      simp only [pure, Except.pure, Except.ok.injEq] at h
      subst h
      obtain ⟨hy, hl⟩ := ih e'
      exact ⟨.item e hy, by simpa using hl⟩

theorem Spec.Yields.collect {next : M → Res (Option X × M)} {m : M} {xs : List X}
    (h : Yields next m xs) : ∀ {fuel : Nat}, xs.length < fuel → collectAll next fuel m = .ok xs := by
  induction h with
  | ends e =>
    intro fuel hf
    cases fuel with
    | zero => simp at hf
    | succ fuel => simp [collectAll, e, bind, Except.bind, pure, Except.pure]
  | item e h ih =>
    intro fuel hf
    cases fuel with
    | zero => simp at hf
    | succ fuel =>
      have := ih (fuel := fuel) (by simpa using hf)
      simp [collectAll, e, this, bind, Except.bind, pure, Except.pure]

theorem Matching.any_eq {mt : Matching P X M} {pat : P} {m : M} {xs : List X}
    (e : mt.start pat = .ok m) (h : Yields mt.next m xs) : mt.any pat = .ok (!xs.isEmpty) := by
  cases h with
  | ends e' => simp [Matching.any, e, e', bind, Except.bind, pure, Except.pure]
  | item e' h => simp [Matching.any, e, e', bind, Except.bind, pure, Except.pure]

theorem Spec.Yields.objects {next : M → Res (Option X × M)} {m : M} {xs : List X}
    (h : Yields next m xs) (f : X → R) : Yields (objectsNext next f) (none, m) (xs.map f) := by
  induction h with
  | ends e => exact .ends (by simp [objectsNext, e, bind, Except.bind, pure, Except.pure]; rfl)
  | item e h ih => exact .item (by simp [objectsNext, e, bind, Except.bind, pure, Except.pure]) ih

theorem predicatesObjects_eq {mt : Matching P X M} {f : X → R} {fuel : Nat} {pattern : R → P}
    {items : R → List X} {ps : List R}
    (h : ∀ p ∈ ps, (∃ m, mt.start (pattern p) = .ok m ∧ Yields mt.next m (items p)) ∧
      (items p).length < fuel) :
    predicatesObjects mt f fuel pattern ps =
      .ok ((ps.filter (fun p => !(items p).isEmpty)).map (fun p => (p, (items p).map f))) := by
  induction ps with
  | nil => rfl
  | cons p ps ih =>
    have ih := ih (fun p hp => h p (by simp [hp]))
    obtain ⟨⟨m, e, hy⟩, hl⟩ := h p (by simp)
    rw [predicatesObjects, e]
    generalize hi : items p = l at hy hl
    cases hy with
    | ends e' => simp [e', ih, hi, bind, Except.bind, pure, Except.pure]
    | @item _ m' x xs e' hy =>
      have h1 : Yields (objectsNext mt.next f) (some (f x), m') (f x :: xs.map f) :=
        .item rfl (hy.objects f)
      have h2 := h1.collect (fuel := fuel) (by simpa using hl)
      simp [e', ih, hi, h2, bind, Except.bind, pure, Except.pure]

end

variable {R : Type} [Ord R] [Std.TransOrd R] [Std.LawfulEqOrd R]

/-! ## Matching as yielding -/

/-- What matching a pattern yields in one state. -/
structure Found {P S M : Type} (mt : Matching P S M) (cap : Nat) (A : S → Prop) (wanted : S → Prop)
    (all : Prop) (pat : P) (xs : List S) : Prop where
  yields : ∃ m, mt.start pat = .ok m ∧ Yields mt.next m xs
  length : xs.length ≤ cap
  nodup : xs.Nodup
  sound : ∀ y ∈ xs, A y ∧ wanted y
  complete : all → ∀ y, A y → wanted y → y ∈ xs

theorem IndexedBTreeDataset.found {d : IndexedBTreeDataset R} {A : Quad R → Prop}
    (hs : Container.Stands WF IndexedBTreeDataset.abs d A) {cap : Nat} (hcap : datasetSlots d ≤ cap)
    (pat : CanonicalQuadPattern R) :
    ∃ xs, d.patternMatching cap pat = .ok xs ∧
      Found (d.matching cap) cap A (matchesQuad pat)
        (d.Clean ∧ (givesSubject pat ∨ d.Dense)) pat xs := by
  obtain ⟨xs, e, h1, h2, h3⟩ := patternMatching_spec hs.1 hcap pat
  refine ⟨xs, e, ?_, ?_, h1, fun y hy => ?_, fun hc y hy hw => ?_⟩
  · obtain ⟨m, em, e'⟩ := ok_of_bind e
    exact ⟨m, em, (yields_of_collectAll e').1⟩
  · obtain ⟨m, em, e'⟩ := ok_of_bind e
    exact Nat.le_of_lt_succ (yields_of_collectAll e').2
  · obtain ⟨ha, hw⟩ := h2 y hy
    exact ⟨(hs.2 y).1 ha, hw⟩
  · refine h3 hc.1 (hc.2.imp_left ?_) y ((hs.2 y).2 hy) hw
    cases pat <;> simp [givesSubject, CanonicalQuadPattern.subject]

theorem IndexedBTreeGraph.found {d : IndexedBTreeGraph R} {A : Triple R → Prop}
    (hs : Container.Stands WF IndexedBTreeGraph.abs d A) {cap : Nat} (hcap : graphSlots d ≤ cap)
    (pat : CanonicalTriplePattern R) :
    ∃ xs, d.patternMatching cap pat = .ok xs ∧
      Found (d.matching cap) cap A (matchesTriple pat)
        (d.Clean ∧ (tripleGivesSubject pat ∨ d.Dense)) pat xs := by
  obtain ⟨xs, e, h1, h2, h3⟩ := patternMatching_spec hs.1 hcap pat
  refine ⟨xs, e, ?_, ?_, h1, fun y hy => ?_, fun hc y hy hw => ?_⟩
  · obtain ⟨m, em, e'⟩ := ok_of_bind e
    exact ⟨m, em, (yields_of_collectAll e').1⟩
  · obtain ⟨m, em, e'⟩ := ok_of_bind e
    exact Nat.le_of_lt_succ (yields_of_collectAll e').2
  · obtain ⟨ha, hw⟩ := h2 y hy
    exact ⟨(hs.2 y).1 ha, hw⟩
  · refine h3 hc.1 (hc.2.imp_left ?_) y ((hs.2 y).2 hy) hw
    cases pat <;> simp [tripleGivesSubject, CanonicalTriplePattern.subject]

namespace Found

variable {P S M : Type} {mt : Matching P S M} {cap : Nat} {A wanted : S → Prop} {all : Prop}
  {pat : P} {xs : List S}

/-- Membership from the first item. -/
theorem any (h : Found mt cap A wanted all pat xs) :
    ∃ b, mt.any pat = .ok b ∧ (b = true → ∃ y, A y ∧ wanted y) ∧
      (all → (b = true ↔ ∃ y, A y ∧ wanted y)) := by
  obtain ⟨m, e, hy⟩ := h.yields
  refine ⟨_, Matching.any_eq e hy, ?_, ?_⟩
  · intro hb
    cases xs with
    | nil => simp at hb
    | cons y ys => exact ⟨y, h.sound y (by simp)⟩
  · refine fun ha => ⟨?_, ?_⟩
    · intro hb
      cases xs with
      | nil => simp at hb
      | cons y ys => exact ⟨y, h.sound y (by simp)⟩
    · rintro ⟨y, h1, h2⟩
      have := h.complete ha y h1 h2
      cases xs <;> simp_all

/-- The objects of what is found, when the rest of the statement is fixed. -/
theorem objects (h : Found mt cap A wanted all pat xs) {R : Type} {f : S → R} {build : R → S}
    (hb : ∀ y, wanted y ↔ y = build (f y)) (hf : ∀ o, f (build o) = o) :
    ObjectsOf all (fun o => A (build o)) (xs.map f) := by
  refine ⟨?_, ?_, ?_⟩
  · refine List.Pairwise.map f (R := fun a b => a ∈ xs ∧ b ∈ xs ∧ a ≠ b) ?_ ?_
    · rintro a b ⟨ha, hb', hne⟩ he
      exact hne (((hb a).1 (h.sound a ha).2).trans
        (he ▸ ((hb b).1 (h.sound b hb').2).symm))
    · exact List.Pairwise.imp_of_mem (fun ha hb' hne => ⟨ha, hb', hne⟩) h.nodup
  · intro o ho
    obtain ⟨y, hy, rfl⟩ := List.mem_map.1 ho
    obtain ⟨h1, h2⟩ := h.sound y hy
    rwa [(hb y).1 h2] at h1
  · intro ha o ho
    refine List.mem_map.2 ⟨build o, h.complete ha _ ho ?_, hf o⟩
    rw [hb, hf]

end Found

theorem predicatesObjects_spec {P S M R : Type} {mt : Matching P S M} {cap fuel : Nat}
    {A : S → Prop} {wanted : R → S → Prop} {all all' : Prop} {pattern : R → P} {f : S → R}
    {build : R → R → S} (hfuel : cap < fuel)
    (h : ∀ p, ∃ xs, Found mt cap A (wanted p) all (pattern p) xs)
    (hb : ∀ p y, wanted p y ↔ y = build p (f y)) (hf : ∀ p o, f (build p o) = o)
    {ps : List R} (ha : all' → all ∧ ps.Nodup ∧ ∀ p o, A (build p o) → p ∈ ps) :
    ∃ out, predicatesObjects mt f fuel pattern ps = .ok out ∧
      PredicatesOf all' (fun p o => A (build p o)) out := by
  obtain ⟨items, hi⟩ := Classical.axiomOfChoice h
  refine ⟨_, predicatesObjects_eq (items := items)
    (fun p _ => ⟨(hi p).yields, Nat.lt_of_le_of_lt (hi p).length hfuel⟩), ?_, ?_⟩
  · intro p os hm
    simp only [List.mem_map, List.mem_filter, Prod.mk.injEq] at hm
    obtain ⟨p', ⟨-, hne⟩, rfl, rfl⟩ := hm
    obtain ⟨h1, h2, h3⟩ := (hi p').objects (hb p') (hf p')
    refine ⟨?_, h1, h2, fun h => h3 (ha h).1⟩
    cases hx : items p' <;> simp_all
  · intro h
    obtain ⟨h1, h2, h3⟩ := ha h
    have e : List.map (·.1) ((ps.filter (fun p => !(items p).isEmpty)).map
        (fun p => (p, (items p).map f))) = ps.filter (fun p => !(items p).isEmpty) := by
      simp [Function.comp_def]
    rw [e]
    refine ⟨h2.sublist List.filter_sublist, ?_⟩
    intro p o ho
    refine List.mem_filter.2 ⟨h3 p o ho, ?_⟩
    have := (hi p).complete h1 (build p o) ho ((hb p _).2 (by rw [hf]))
    cases hx : items p <;> simp_all

/-! ## Graphs as datasets -/

theorem GraphImpl.yields {R M : Type} {gr : GraphImpl R M} {m : M} {ts : List (Triple R)}
    (h : Yields gr.matching.next m ts) :
    Yields gr.quadMatching.next (some m) (ts.map (·.intoQuad none)) := by
  induction h with
  | @ends m m' e =>
    refine .ends (m' := some m') ?_
    simp only [quadMatching, e, bind, Except.bind, pure, Except.pure]
    rfl
  | @item m m' x xs e h ih =>
    refine .item (m' := some m') ?_ ih
    simp only [quadMatching, e, bind, Except.bind, pure, Except.pure]
    rfl

/-! ## Patterns over lists -/

theorem graphIn_listed (g : Option (List R)) (q : Quad R) :
    GraphIn (fun a r => r ∈ a) (.given g) q ↔ QuadMatch.graphListed g q := by
  cases g with
  | none => rfl
  | some l =>
    simp only [GraphIn, QuadMatch.graphListed]
    exact ⟨fun ⟨g, h1, h2⟩ => ⟨g, h2, h1⟩, fun ⟨g, h1, h2⟩ => ⟨g, h2, h1⟩⟩

section listed

open IndexedBTreeDataset QuadMatch QPat CanonicalQuadPattern

theorem partsIn_listed (pat : CanonicalQuadPattern (List R)) (q : Quad R) :
    PartsIn (fun a r => r ∈ a) pat.subject pat.predicate pat.object pat.graph q ↔
      matchesListed pat q := by
  unfold PartsIn
  open Proof in cases_quad pat <;>
  simp only [subject, predicate, object, graph, AnySubject.predicate, AnySubject.object,
    GivenSubject.predicate, GivenSubject.object, AnySubjectAnyPredicate.object,
    AnySubjectGivenPredicate.object, GivenSubjectAnyPredicate.object,
    GivenSubjectGivenPredicate.object, AnySubject.graph, GivenSubject.graph,
    AnySubjectAnyPredicate.graph, AnySubjectGivenPredicate.graph, GivenSubjectAnyPredicate.graph,
    GivenSubjectGivenPredicate.graph,
    AnySubjectAnyPredicateAnyObject.graph, GivenSubjectAnyPredicateAnyObject.graph,
    AnySubjectGivenPredicateAnyObject.graph, AnySubjectAnyPredicateGivenObject.graph,
    AnySubjectGivenPredicateGivenObject.graph, GivenSubjectAnyPredicateGivenObject.graph,
    GivenSubjectGivenPredicateAnyObject.graph, GivenSubjectGivenPredicateGivenObject.graph,
    graphIn_listed] <;>
  simp [SubjectIn, PredicateIn, ObjectIn, GraphIn, matchesListed, anyAnyAny', givenAnyAny',
    anyGivenAny', anyAnyGiven', anyGivenGiven', givenAnyGiven', givenGivenAny', givenGivenGiven']

end listed

end RdfTypes
