import Verif.Spec.Found
import Verif.Proof.Records
import Verif.Proof.Search

/-! # Searches by records -/

set_option linter.unusedSectionVars false
set_option linter.unusedSimpArgs false

namespace RdfTypes

open Spec Container

/-! ## Parts -/

namespace Spec.Ask

variable {T : Type} (a : Ask T)

def subjectPart : PatternSubject T → Prop
  | .any => True
  | .given t => a.given t .subj

def predicatePart : PatternPredicate T → Prop
  | .any => True
  | .sameAsSubject => a.same .subj .pred
  | .given t => a.given t .pred

def objectPart : PatternObject T → Prop
  | .any => True
  | .sameAsSubject => a.same .subj .obj
  | .sameAsPredicate => a.same .pred .obj
  | .given t => a.given t .obj

def graphPart : PatternGraph T → Prop
  | .any => True
  | .sameAsSubject => a.same .subj .graph
  | .sameAsPredicate => a.same .pred .graph
  | .sameAsObject => a.same .obj .graph
  | .given t => a.graph t

theorem quad_parts (pat : CanonicalQuadPattern T) :
    a.quad pat ↔ a.subjectPart pat.subject ∧ a.predicatePart pat.predicate ∧
      a.objectPart pat.object ∧ a.graphPart pat.graph := by
  open QPat CanonicalQuadPattern Proof in cases_quad pat <;>
  simp only [subject, predicate, object, CanonicalQuadPattern.graph, AnySubject.predicate,
    AnySubject.object,
    GivenSubject.predicate, GivenSubject.object, AnySubjectAnyPredicate.object,
    AnySubjectGivenPredicate.object, GivenSubjectAnyPredicate.object,
    GivenSubjectGivenPredicate.object, AnySubject.graph, GivenSubject.graph,
    AnySubjectAnyPredicate.graph, AnySubjectGivenPredicate.graph, GivenSubjectAnyPredicate.graph,
    GivenSubjectGivenPredicate.graph,
    AnySubjectAnyPredicateAnyObject.graph, GivenSubjectAnyPredicateAnyObject.graph,
    AnySubjectGivenPredicateAnyObject.graph, AnySubjectAnyPredicateGivenObject.graph,
    AnySubjectGivenPredicateGivenObject.graph, GivenSubjectAnyPredicateGivenObject.graph,
    GivenSubjectGivenPredicateAnyObject.graph, GivenSubjectGivenPredicateGivenObject.graph] <;>
  simp [quad, anyAnyAny, givenAnyAny, anyGivenAny, anyAnyGiven, anyGivenGiven, givenAnyGiven,
    givenGivenAny, givenGivenGiven, subjectPart, predicatePart, objectPart, graphPart]

theorem triple_parts (pat : CanonicalTriplePattern T) :
    a.triple pat ↔ a.subjectPart pat.subject ∧ a.predicatePart pat.predicate ∧
      a.objectPart pat.object := by
  open TPat CanonicalTriplePattern Proof in cases_triple pat <;>
  simp [triple, subjectPart, predicatePart, objectPart, subject, predicate, object,
    AnySubject.predicate, AnySubject.object, GivenSubject.predicate, GivenSubject.object,
    AnySubjectAnyPredicate.object, AnySubjectGivenPredicate.object, GivenSubjectAnyPredicate.object,
    GivenSubjectGivenPredicate.object]

end Spec.Ask

/-! ## Slots and records -/

variable {R ρ σ S : Type} [Ord R] [Std.TransOrd R] [Std.LawfulEqOrd R] [Ord S] [Std.TransOrd S]
  [Std.LawfulEqOrd S] [DecidableEq R] [DecidableEq S]

section slots

variable {sh : Shape σ S R} {Rep : IndexedResource R → (Pos → Nat → Prop) → Prop}
  {res : Slab (IndexedResource R)} {ridx : Index} {st : Slab σ} {sidx : Index}
  {hs : R → Records S}

/-- The slot at a position is listed exactly when the occurrence is in the current
record. -/
theorem AllRecorded.current_iff (k : AllRecorded sh (indexOps R) res ridx st hs) (H : ShapeLaws sh)
    (inv : Inv sh (indexOps R) Rep res ridx st sidx) {n : Nat} {q : σ} {y : S}
    (hq : st.get n = some q) (hy : sh.sval (indexOps R) res st n = some y) {p : Pos} {i : Nat}
    (hi : sh.comp q p = some i) (P : R → Prop) :
    SlotIn res ridx P i ↔ ∃ r, P r ∧ (y, p) ∈ (hs r).current := by
  constructor
  · rintro ⟨hm, r, hv, hp⟩
    refine ⟨r, hp, ?_⟩
    obtain ⟨l, hl⟩ := k r
    have hlist := hl.listed_iff.2 ⟨i, hm, hv⟩
    obtain ⟨j, g, t, rfl, hj⟩ := hl.head hlist
    have hvj := (hl.slots j).2 ⟨g, by simp⟩
    cases inv.table.sorted.inj hm hj hv hvj
    have hg := hl.groups
    have hm' := (hl.uses i g (by simp) y p).2 ⟨n, ⟨q, hq, hi⟩, hy⟩
    revert hlist hg
    cases hs r with
    | mk b gs =>
    rintro rfl rfl
    exact hm'
  · rintro ⟨r, hp, hm⟩
    obtain ⟨l, hl⟩ := k r
    have hg := hl.groups
    have hh := hl.head
    cases e : hs r with
    | mk b gs =>
    rw [e] at hm hg hh
    cases b with
    | false => simp [Records.current] at hm
    | true =>
      obtain ⟨j, g, t, rfl, hj⟩ := hh rfl
      simp only [List.map_cons] at hg
      subst hg
      simp only [Records.current] at hm
      obtain ⟨n', ⟨q', hq', hc⟩, hy'⟩ := (hl.uses j g (by simp) y p).1 hm
      cases inv.sval_inj H hy hy'
      rw [hq] at hq'
      cases hq'
      rw [hi] at hc
      cases hc
      exact ⟨hj, r, (hl.slots i).2 ⟨g, by simp⟩, hp⟩

/-- The slots at two positions are the same exactly when the occurrences are in the same
record. -/
theorem AllRecorded.same_iff (k : AllRecorded sh (indexOps R) res ridx st hs) (H : ShapeLaws sh)
    (inv : Inv sh (indexOps R) Rep res ridx st sidx) {n : Nat} {q : σ} {y : S}
    (hq : st.get n = some q) (hy : sh.sval (indexOps R) res st n = some y) {p : Pos} {i : Nat}
    (hi : sh.comp q p = some i) (p' : Pos) :
    sh.comp q p' = some i ↔ ∃ r, ∃ g ∈ (hs r).groups, (y, p) ∈ g ∧ (y, p') ∈ g := by
  constructor
  · intro hi'
    obtain ⟨r, hv⟩ := inv.table.val_isSome_of_used (i := i) (p := p) (k := n) ⟨q, hq, hi⟩
    obtain ⟨l, hl⟩ := k r
    obtain ⟨g, hg⟩ := (hl.slots i).1 hv
    refine ⟨r, g, by rw [hl.groups]; exact List.mem_map.2 ⟨_, hg, rfl⟩, ?_, ?_⟩
    · exact (hl.uses i g hg y p).2 ⟨n, ⟨q, hq, hi⟩, hy⟩
    · exact (hl.uses i g hg y p').2 ⟨n, ⟨q, hq, hi'⟩, hy⟩
  · rintro ⟨r, g, hg, h1, h2⟩
    obtain ⟨l, hl⟩ := k r
    rw [hl.groups] at hg
    obtain ⟨⟨j, g'⟩, hm, e⟩ := List.mem_map.1 hg
    simp only at e
    subst e
    obtain ⟨n1, ⟨q1, hq1, hc1⟩, hy1⟩ := (hl.uses j g' hm y p).1 h1
    obtain ⟨n2, ⟨q2, hq2, hc2⟩, hy2⟩ := (hl.uses j g' hm y p').1 h2
    cases inv.sval_inj H hy hy1
    cases inv.sval_inj H hy hy2
    rw [hq] at hq1 hq2
    cases hq1
    cases hq2
    rw [hi] at hc1
    cases hc1
    exact hc2

end slots

/-! ## Searches -/

namespace IndexedBTreeDataset

variable {d : IndexedBTreeDataset R} {hs : R → Records (Quad R)}

theorem parts_records (w : d.WF) (k : d.Follows hs) {α : Type} (I : α → R → Prop) (a : Ask α)
    {n : Nat} {q : Quad Nat} {y : Quad R} (hq : d.quads.get n = some q) (hy : d.sval n = some y)
    (h1 : ∀ p p', a.same p p' ↔ ∃ r, ∃ g ∈ (hs r).groups, (y, p) ∈ g ∧ (y, p') ∈ g)
    (h2 : ∀ x p, a.given x p ↔ ∃ r, I x r ∧ (y, p) ∈ (hs r).current)
    (h3 : a.unnamed ↔ y.g = none) (pat : CanonicalQuadPattern α) :
    PartsIn (fun x => SlotIn d.resources d.resourcesIndexes (I x)) pat.subject pat.predicate
      pat.object pat.graph q ↔ a.quad pat := by
  have H := quadShape_laws (R := R)
  have same : ∀ (p p' : Pos) (i : Nat), (quadShape R).comp q p = some i →
      ((quadShape R).comp q p' = some i ↔ a.same p p') := by
    intro p p' i hi
    rw [h1]
    exact k.same_iff H w.inv hq hy hi p'
  have given : ∀ (x : α) (p : Pos) (i : Nat), (quadShape R).comp q p = some i →
      (SlotIn d.resources d.resourcesIndexes (I x) i ↔ a.given x p) := by
    intro x p i hi
    rw [h2]
    exact k.current_iff H w.inv hq hy hi (I x)
  have comp : ∀ x : Quad Nat, (quadShape R).comp x .graph = x.g := fun _ => rfl
  rw [Ask.quad_parts]
  refine and_congr ?_ (and_congr ?_ (and_congr ?_ ?_))
  · cases pat.subject with
    | any => exact Iff.rfl
    | given x => exact given x .subj q.s rfl
  · cases pat.predicate with
    | any => exact Iff.rfl
    | sameAsSubject => exact Iff.trans (by simp [PredicateIn, quadShape]) (same .subj .pred q.s rfl)
    | given x => exact given x .pred q.p rfl
  · cases pat.object with
    | any => exact Iff.rfl
    | sameAsSubject => exact Iff.trans (by simp [ObjectIn, quadShape]) (same .subj .obj q.s rfl)
    | sameAsPredicate => exact Iff.trans (by simp [ObjectIn, quadShape]) (same .pred .obj q.p rfl)
    | given x => exact given x .obj q.o rfl
  · cases pat.graph with
    | any => exact Iff.rfl
    | sameAsSubject => exact same .subj .graph q.s rfl
    | sameAsPredicate => exact same .pred .graph q.p rfl
    | sameAsObject => exact same .obj .graph q.o rfl
    | given x =>
      cases x with
      | none =>
        show q.g = none ↔ a.unnamed
        rw [h3]
        obtain ⟨q', hq', hcomp⟩ := Shape.sval_comp H hy
        rw [hq] at hq'
        cases hq'
        have := hcomp .graph
        cases hg : q.g with
        | none => simp_all [quadShape]
        | some g =>
          simp only [quadShape, hg] at this
          obtain ⟨r, -, hr⟩ := this
          simp [hr]
      | some x =>
        show (∃ g, q.g = some g ∧ _) ↔ a.given x .graph
        cases hg : q.g with
        | none =>
          simp only [reduceCtorEq, false_and, exists_false, false_iff]
          rw [h2]
          rintro ⟨r, -, hm⟩
          have hm' : (y, Pos.graph) ∈ (hs r).groups.flatten := by
            revert hm
            cases hs r with
            | mk b gs => cases b <;> cases gs <;> simp [Records.current] <;> intro h <;> exact .inl h
          have := ((k.occurrences H w.inv r).2.2 y .graph).1 hm'
          obtain ⟨q', hq', hcomp⟩ := Shape.sval_comp H hy
          rw [hq] at hq'
          cases hq'
          have hc := hcomp .graph
          simp only [comp, hg] at hc
          rw [this.2] at hc
          cases hc
        | some g =>
          simp only [Option.some.injEq, exists_eq_left']
          exact given x .graph g hg

theorem patternMatching_found (w : d.WF) (k : d.Follows hs) {h : Shelf (Quad R)} (hk : d.Kept h)
    {cap : Nat} (hcap : d.quads.entries.length ≤ cap) (pat : CanonicalQuadPattern R) :
    ∃ xs n, d.patternMatching cap pat = .ok xs ∧
      Picks (fun x => (askRecords quadAt hs x).quad pat) (h.places.take n) xs ∧
      GoesTo (fun x => (askRecords quadAt hs x).quad pat) h.places (givesSubject pat) (givesPart pat)
        (repeatsPart pat) n := by
  obtain ⟨m, e, hi, hm, hkind, hslots⟩ := matcher_kind w pat
  rw [subject_any_iff] at hm
  obtain ⟨xs, n, e', h1, h2⟩ := run_places (W := fun x => (askRecords quadAt hs x).quad pat) w hk hcap
    hm hi
    (fun n q y hq hy => (hslots n q hq).trans (parts_records w k (fun a r => r = a)
      (askRecords quadAt hs y) hq hy (fun _ _ => Iff.rfl) (fun x p => by simp [askRecords]) Iff.rfl pat))
    (fun hs => hkind.subject ((subject_any_iff pat).2 hs)) givesPart_of_subject
    (kindOf_filter hkind)
  exact ⟨xs, n, by simp [patternMatching, e, e', bind, Except.bind], h1, h2⟩

theorem multiPatternMatching_found (w : d.WF) (k : d.Follows hs) {h : Shelf (Quad R)}
    (hk : d.Kept h) {cap : Nat} (hcap : d.quads.entries.length ≤ cap)
    (pat : CanonicalQuadPattern (List R)) :
    ∃ xs n, d.multiPatternMatching cap pat = .ok xs ∧
      Picks (fun x => (askListed quadAt hs x).quad pat) (h.places.take n) xs ∧
      GoesTo (fun x => (askListed quadAt hs x).quad pat) h.places (givesSubject pat) (givesPart pat)
        (repeatsPart pat) n := by
  obtain ⟨m, e, hi, hm, hkind, hslots⟩ := multiMatcher_kind w pat
  rw [subject_any_iff] at hm
  obtain ⟨xs, n, e', h1, h2⟩ := run_places (W := fun x => (askListed quadAt hs x).quad pat) w hk hcap
    hm hi
    (fun n q y hq hy => (hslots n q hq).trans (parts_records w k (fun a r => r ∈ a)
      (askListed quadAt hs y) hq hy (fun _ _ => Iff.rfl) (fun x p => by simp [askListed]) Iff.rfl pat))
    (fun hs => hkind.subject ((subject_any_iff pat).2 hs)) givesPart_of_subject
    (kindOf_filter hkind)
  exact ⟨xs, n, by simp [multiPatternMatching, e, e', bind, Except.bind], h1, h2⟩

end IndexedBTreeDataset

namespace IndexedBTreeGraph

variable {d : IndexedBTreeGraph R} {hs : R → Records (Triple R)}

theorem parts_records (w : d.WF) (k : d.Follows hs) {n : Nat} {q : Triple Nat} {y : Triple R}
    (hq : d.triples.get n = some q) (hy : d.sval n = some y) (pat : CanonicalTriplePattern R) :
    (SubjectIn (fun a => SlotIn d.resources d.resourcesIndexes (· = a)) pat.subject q.s ∧
      PredicateIn (fun a => SlotIn d.resources d.resourcesIndexes (· = a)) pat.predicate q.s q.p ∧
      ObjectIn (fun a => SlotIn d.resources d.resourcesIndexes (· = a)) pat.object q.s q.p q.o) ↔
    (askRecords tripleAt hs y).triple pat := by
  have H := tripleShape_laws (R := R)
  have same : ∀ (p p' : Pos) (i : Nat), (tripleShape R).comp q p = some i →
      ((tripleShape R).comp q p' = some i ↔ (askRecords tripleAt hs y).same p p') := by
    intro p p' i hi
    exact k.same_iff H w.inv hq hy hi p'
  have given : ∀ (x : R) (p : Pos) (i : Nat), (tripleShape R).comp q p = some i →
      (SlotIn d.resources d.resourcesIndexes (· = x) i ↔ (askRecords tripleAt hs y).given x p) := by
    intro x p i hi
    refine (k.current_iff H w.inv hq hy hi (· = x)).trans ?_
    simp [askRecords]
  rw [Ask.triple_parts]
  refine and_congr ?_ (and_congr ?_ ?_)
  · cases pat.subject with
    | any => exact Iff.rfl
    | given x => exact given x .subj q.s rfl
  · cases pat.predicate with
    | any => exact Iff.rfl
    | sameAsSubject =>
      exact Iff.trans (by simp [PredicateIn, tripleShape]) (same .subj .pred q.s rfl)
    | given x => exact given x .pred q.p rfl
  · cases pat.object with
    | any => exact Iff.rfl
    | sameAsSubject => exact Iff.trans (by simp [ObjectIn, tripleShape]) (same .subj .obj q.s rfl)
    | sameAsPredicate => exact Iff.trans (by simp [ObjectIn, tripleShape]) (same .pred .obj q.p rfl)
    | given x => exact given x .obj q.o rfl

theorem patternMatching_found (w : d.WF) (k : d.Follows hs) {h : Shelf (Triple R)} (hk : d.Kept h)
    {cap : Nat} (hcap : d.triples.entries.length ≤ cap) (pat : CanonicalTriplePattern R) :
    ∃ xs n, d.patternMatching cap pat = .ok xs ∧
      Picks (fun x => (askRecords tripleAt hs x).triple pat) (h.places.take n) xs ∧
      GoesTo (fun x => (askRecords tripleAt hs x).triple pat) h.places (tripleGivesSubject pat)
        (tripleGivesPart pat) (tripleRepeatsPart pat) n := by
  obtain ⟨m, e, hi, hm, hkind, hslots⟩ := matcher_kind w pat
  rw [subject_any_iff] at hm
  obtain ⟨xs, n, e', h1, h2⟩ := run_places (W := fun x => (askRecords tripleAt hs x).triple pat) w hk
    hcap hm hi
    (fun n q y hq hy => (hslots n q hq).trans (parts_records w k hq hy pat))
    (fun hs => hkind.subject ((subject_any_iff pat).2 hs)) givesPart_of_subject
    (kindOf_filter hkind)
  exact ⟨xs, n, by simp [patternMatching, e, e', bind, Except.bind], h1, h2⟩

end IndexedBTreeGraph

end RdfTypes
