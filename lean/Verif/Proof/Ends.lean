import Verif.Proof.Traits
import Verif.Spec.Panics

/-! # Iterators that have ended, and calls that return -/

set_option linter.unusedSectionVars false
set_option linter.unusedSimpArgs false

namespace RdfTypes

open Spec

variable {M X R P : Type}

/-- Once ended, the iterator stays where it is. -/
def Fused (next : M → Res (Option X × M)) : Prop :=
  ∀ m m', next m = .ok (none, m') → next m' = .ok (none, m')

theorem skipTo_idem (i : Nat) : ∀ l : List Nat, skipTo i (skipTo i l) = skipTo i l
  | [] => rfl
  | j :: l => by
    by_cases h : j < i
    · simp [skipTo, h, skipTo_idem i l]
    · simp [skipTo, h]

theorem SubjectConstraints.next_idem (i : Nat) (c : SubjectConstraints) :
    (c.next i).1.next i = c.next i := by
  cases c <;> simp [SubjectConstraints.next, skipTo_idem]

theorem fixedNext_idem (i : Nat) (l : List Nat) : fixedNext i (fixedNext i l).1 = fixedNext i l := by
  have h := skipTo_idem i l
  unfold fixedNext
  generalize skipTo i l = k at h ⊢
  cases k with
  | nil => simp [skipTo]
  | cons j k => simp [h]

theorem PredicateConstraints.next_idem (i s p : Nat) (c : PredicateConstraints) :
    (c.next i s p).1.next i s p = c.next i s p := by
  cases c <;> simp [PredicateConstraints.next, fixedNext_idem]

theorem ObjectConstraints.next_idem (i s p o : Nat) (c : ObjectConstraints) :
    (c.next i s p o).1.next i s p o = c.next i s p o := by
  cases c <;> simp [ObjectConstraints.next, fixedNext_idem]

theorem GraphConstraints.next_idem (i : Nat) (q : Quad Nat) (c : GraphConstraints) :
    (c.next i q).1.next i q = c.next i q := by
  cases c <;> simp [GraphConstraints.next, fixedNext_idem]

theorem QuadFilter.next_idem (i : Nat) (q : Quad Nat) (f : QuadFilter) :
    (f.next i q).1.next i q = f.next i q := by
  have h1 := PredicateConstraints.next_idem i q.s q.p f.predicate
  have h2 := ObjectConstraints.next_idem i q.s q.p q.o f.object
  have h3 := GraphConstraints.next_idem i q f.graph
  rcases e1 : f.predicate.next i q.s q.p with ⟨p, _ | _⟩ <;>
    rcases e2 : f.object.next i q.s q.p q.o with ⟨o, _ | _⟩ <;>
    rcases e3 : f.graph.next i q with ⟨g, _ | _⟩ <;>
    simp only [e1, e2, e3] at h1 h2 h3 <;>
    simp [QuadFilter.next, e1, e2, e3, h1, h2, h3]

theorem TripleFilter.next_idem (i : Nat) (t : Triple Nat) (f : TripleFilter) :
    (f.next i t).1.next i t = f.next i t := by
  have h1 := PredicateConstraints.next_idem i t.s t.p f.predicate
  have h2 := ObjectConstraints.next_idem i t.s t.p t.o f.object
  rcases e1 : f.predicate.next i t.s t.p with ⟨p, _ | _⟩ <;>
    rcases e2 : f.object.next i t.s t.p t.o with ⟨o, _ | _⟩ <;>
    simp only [e1, e2] at h1 h2 <;>
    simp [TripleFilter.next, e1, e2, h1, h2]

/-- The loop ends where it ends again, with any fuel. -/
theorem Matcher.loop_ended {F σ : Type} {get : Nat → Option σ}
    {filter : Nat → σ → F → F × Except (Option Nat) Unit} {cap : Nat}
    (hf : ∀ i q f, filter i q (filter i q f).1 = filter i q f) :
    ∀ (fuel : Nat) (m m' : Matcher F), m.loop get filter cap fuel = .ok (none, m') →
      ∀ fuel', 0 < fuel' ∨ ¬ m'.i < cap → m'.loop get filter cap fuel' = .ok (none, m')
  | 0, m, m', h, fuel', h' => by
    unfold loop at h
    by_cases hi : m.i < cap
    · simp [hi] at h
    · simp only [hi, if_false, Except.ok.injEq, Prod.mk.injEq, true_and] at h
      subst h
      cases fuel' <;> simp [loop, hi]
  | fuel + 1, m, m', h, fuel', h' => by
    unfold loop at h
    by_cases hi : m.i < cap
    · simp only [hi, if_true] at h
      have hs := SubjectConstraints.next_idem m.i m.subject
      rcases e : m.subject.next m.i with ⟨s, _ | i⟩
      · simp only [e, Except.ok.injEq, Prod.mk.injEq, true_and] at h hs
        subst h
        cases fuel' with
        | zero => simp [hi] at h'
        | succ n => simp [loop, hi, hs]
      · simp only [e] at h hs
        rcases eg : get i with _ | q
        · simp only [eg, Except.ok.injEq, Prod.mk.injEq, true_and] at h
          subst h
          cases fuel' with
          | zero => simp [hi] at h'
          | succ n => simp [loop, hi, hs, eg]
        · simp only [eg] at h
          have hq := hf i q m.filter
          rcases ef : filter i q m.filter with ⟨f, (_ | j) | u⟩
          · simp only [ef, Except.ok.injEq, Prod.mk.injEq, true_and] at h hq
            subst h
            cases fuel' with
            | zero => simp [hi] at h'
            | succ n => simp [loop, hi, hs, eg, hq]
          · simp only [ef] at h
            exact loop_ended hf fuel _ m' h fuel' h'
          · simp [ef] at h
    · simp only [hi, if_false, Except.ok.injEq, Prod.mk.injEq, true_and] at h
      subst h
      cases fuel' <;> simp [loop, hi]

theorem Matcher.loop_fused {F σ : Type} {get : Nat → Option σ}
    {filter : Nat → σ → F → F × Except (Option Nat) Unit} {cap : Nat}
    (hf : ∀ i q f, filter i q (filter i q f).1 = filter i q f) {m m' : Matcher F}
    (h : m.loop get filter cap cap = .ok (none, m')) :
    m'.loop get filter cap cap = .ok (none, m') :=
  loop_ended hf cap m m' h cap (by omega)

theorem IndexedBTreeDataset.matchNext_fused [Ord R] (cap : Nat) (d : IndexedBTreeDataset R) :
    Fused (d.matchNext cap) := by
  intro m m' h
  unfold matchNext at h
  rcases e : m.loop d.quads.get QuadFilter.next cap cap with x | ⟨_ | ⟨i, q⟩, m₁⟩
  · simp [e, bind, Except.bind] at h
  · simp only [e, bind, Except.bind, pure, Except.pure, Except.ok.injEq, Prod.mk.injEq,
      true_and] at h
    subst h
    simp [matchNext, Matcher.loop_fused QuadFilter.next_idem e, bind, Except.bind, pure,
      Except.pure]
  · simp only [e, bind, Except.bind, pure, Except.pure] at h
    split at h <;> simp at h

theorem IndexedBTreeGraph.matchNext_fused [Ord R] (cap : Nat) (d : IndexedBTreeGraph R) :
    Fused (d.matchNext cap) := by
  intro m m' h
  unfold matchNext at h
  rcases e : m.loop d.triples.get TripleFilter.next cap cap with x | ⟨_ | ⟨i, q⟩, m₁⟩
  · simp [e, bind, Except.bind] at h
  · simp only [e, bind, Except.bind, pure, Except.pure, Except.ok.injEq, Prod.mk.injEq,
      true_and] at h
    subst h
    simp [matchNext, Matcher.loop_fused TripleFilter.next_idem e, bind, Except.bind, pure,
      Except.pure]
  · simp only [e, bind, Except.bind, pure, Except.pure] at h
    split at h <;> simp at h

/-- The iterator of `extract_pattern_matching`, which holds the dataset. -/
def extractStep [Ord R] (cap : Nat) (s : Matcher QuadFilter × IndexedBTreeDataset R) :
    Res (Option (Quad R) × Matcher QuadFilter × IndexedBTreeDataset R) := s.2.extractNext cap s.1

theorem extractStep_fused [Ord R] (cap : Nat) : Fused (extractStep (R := R) cap) := by
  rintro ⟨m, d⟩ ⟨m', d'⟩ h
  unfold extractStep IndexedBTreeDataset.extractNext at h
  rcases e : m.loop d.quads.get QuadFilter.next cap cap with x | ⟨_ | ⟨i, q⟩, m₁⟩
  · simp [e, bind, Except.bind] at h
  · simp only [e, bind, Except.bind, pure, Except.pure, Except.ok.injEq, Prod.mk.injEq,
      true_and] at h
    obtain ⟨rfl, rfl⟩ := h
    simp [extractStep, IndexedBTreeDataset.extractNext, Matcher.loop_fused QuadFilter.next_idem e,
      bind, Except.bind, pure, Except.pure]
  · simp only [e, bind, Except.bind, pure, Except.pure] at h
    split at h
    · simp at h
    · split at h <;> simp at h

theorem objectsNext_fused {next : M → Res (Option X × M)} (h : Fused next) (f : X → R) :
    Fused (objectsNext next f) := by
  rintro ⟨_ | o, m⟩ s e
  · rcases en : next m with x | ⟨_ | x, m₁⟩
    · simp [objectsNext, en, bind, Except.bind] at e
    · simp only [objectsNext, en, bind, Except.bind, pure, Except.pure, Option.map_none,
        Except.ok.injEq, Prod.mk.injEq, true_and] at e
      subst e
      simp [objectsNext, h _ _ en, bind, Except.bind, pure, Except.pure]
    · simp [objectsNext, en, bind, Except.bind, pure, Except.pure] at e
  · simp [objectsNext, pure, Except.pure] at e

theorem infallibleNext_fused {next : M → Res (Option X × M)} (h : Fused next) :
    Fused (infallibleNext next) := by
  intro m s e
  rcases en : next m with x | ⟨_ | x, m₁⟩
  · simp [infallibleNext, en, bind, Except.bind] at e
  · simp only [infallibleNext, en, bind, Except.bind, pure, Except.pure, Option.map_none,
      Except.ok.injEq, Prod.mk.injEq, true_and] at e
    subst e
    simp [infallibleNext, h _ _ en, bind, Except.bind, pure, Except.pure]
  · simp [infallibleNext, en, bind, Except.bind, pure, Except.pure] at e

theorem GraphImpl.fused {gr : GraphImpl R M} (h : Fused gr.matching.next) :
    Fused gr.quadMatching.next := by
  rintro (_ | m) s e
  · simp only [GraphImpl.quadMatching, pure, Except.pure, Except.ok.injEq, Prod.mk.injEq,
      true_and] at e
    subst e
    rfl
  · rcases en : gr.matching.next m with x | ⟨_ | x, m₁⟩
    · simp [GraphImpl.quadMatching, en, bind, Except.bind] at e
    · simp only [GraphImpl.quadMatching, en, bind, Except.bind, pure, Except.pure, Option.map_none,
        Except.ok.injEq, Prod.mk.injEq, true_and] at e
      subst e
      simp [GraphImpl.quadMatching, h _ _ en, bind, Except.bind, pure, Except.pure]
    · simp [GraphImpl.quadMatching, en, bind, Except.bind, pure, Except.pure] at e

/-- The iterator yields the items and is then in the state `m'`. -/
inductive YieldsTo (next : M → Res (Option X × M)) : M → List X → M → Prop
  | ends {m m' : M} : next m = .ok (none, m') → YieldsTo next m [] m'
  | item {m m' e : M} {x : X} {xs : List X} : next m = .ok (some x, m') → YieldsTo next m' xs e →
    YieldsTo next m (x :: xs) e

theorem yieldsTo_of_yields {next : M → Res (Option X × M)} {m : M} {xs : List X}
    (h : Yields next m xs) : ∃ e, YieldsTo next m xs e := by
  induction h with
  | ends e => exact ⟨_, .ends e⟩
  | item e _ ih =>
    obtain ⟨s, hs⟩ := ih
    exact ⟨s, .item e hs⟩

/-- The results of any number of calls. -/
theorem Fused.calls_ended {next : M → Res (Option X × M)} {m : M} (h : next m = .ok (none, m)) :
    ∀ n, nextCalls next n m = .ok (List.replicate n none, m)
  | 0 => rfl
  | n + 1 => by simp [nextCalls, h, calls_ended h n, List.replicate_succ]

theorem Fused.calls {next : M → Res (Option X × M)} (hf : Fused next) {m e : M} {xs : List X}
    (h : YieldsTo next m xs e) : ∀ n, ∃ s, Spec.nextCalls next n m = .ok (thenNothing xs n, s) ∧
      (xs.length < n → s = e) := by
  induction h with
  | ends e =>
    intro n
    cases n with
    | zero => exact ⟨_, rfl, by simp⟩
    | succ n =>
      refine ⟨_, ?_, fun _ => rfl⟩
      simp [Spec.nextCalls, e, Fused.calls_ended (hf _ _ e) n, thenNothing, List.replicate_succ]
  | item e h ih =>
    intro n
    cases n with
    | zero => exact ⟨_, rfl, by simp⟩
    | succ n =>
      obtain ⟨s, hs, hl⟩ := ih n
      refine ⟨s, ?_, fun hn => hl (by simpa using hn)⟩
      simp only [Spec.nextCalls, e, hs, thenNothing, List.map_cons, List.cons_append,
        List.take_succ_cons, Except.ok.injEq, List.cons.injEq, Prod.mk.injEq, true_and, and_true]
      rw [List.take_append, List.take_append, List.take_replicate, List.take_replicate]
      congr 2
      omega

theorem thenNothing_map {Y : Type} (f : X → Y) (xs : List X) (n : Nat) :
    (thenNothing xs n).map (Option.map f) = thenNothing (xs.map f) n := by
  simp [thenNothing, List.map_take, Function.comp_def]

theorem thenNothing_cons (x : X) (xs : List X) (n : Nat) :
    thenNothing (x :: xs) (n + 1) = some x :: thenNothing xs n := by
  simp only [thenNothing, List.map_cons, List.cons_append, List.take_succ_cons]
  rw [List.take_append, List.take_append, List.take_replicate, List.take_replicate]
  congr 3
  omega

theorem calls_objects {next : M → Res (Option X × M)} (f : X → R) : ∀ {n : Nat} {m m' : M}
    {l : List (Option X)}, nextCalls next n m = .ok (l, m') →
      nextCalls (objectsNext next f) n (none, m) = .ok (l.map (Option.map f), none, m')
  | 0, m, m', l, h => by
    simp only [nextCalls, Except.ok.injEq, Prod.mk.injEq] at h
    obtain ⟨rfl, rfl⟩ := h
    rfl
  | n + 1, m, m', l, h => by
    rcases e : next m with x | ⟨x, m₁⟩
    · simp [nextCalls, e] at h
    · rcases e' : nextCalls next n m₁ with y | ⟨k, m₂⟩
      · simp [nextCalls, e, e'] at h
      · simp only [nextCalls, e, e', Except.ok.injEq, Prod.mk.injEq] at h
        obtain ⟨rfl, rfl⟩ := h
        simp [nextCalls, objectsNext, e, calls_objects f e', bind, Except.bind, pure, Except.pure]

theorem calls_infallible {next : M → Res (Option X × M)} : ∀ {n : Nat} {m m' : M}
    {l : List (Option X)}, nextCalls next n m = .ok (l, m') →
      nextCalls (infallibleNext next) n m = .ok (l.map (Option.map .ok), m')
  | 0, m, m', l, h => by
    simp only [nextCalls, Except.ok.injEq, Prod.mk.injEq] at h
    obtain ⟨rfl, rfl⟩ := h
    rfl
  | n + 1, m, m', l, h => by
    rcases e : next m with x | ⟨x, m₁⟩
    · simp [nextCalls, e] at h
    · rcases e' : nextCalls next n m₁ with y | ⟨k, m₂⟩
      · simp [nextCalls, e, e'] at h
      · simp only [nextCalls, e, e', Except.ok.injEq, Prod.mk.injEq] at h
        obtain ⟨rfl, rfl⟩ := h
        simp [nextCalls, infallibleNext, e, calls_infallible e', bind, Except.bind, pure, Except.pure]

theorem yieldsTo_of_extractLoop [Ord R] {cap : Nat} : ∀ {n : Nat} {d d' : IndexedBTreeDataset R}
    {m : Matcher QuadFilter} {xs : List (Quad R)},
    IndexedBTreeDataset.extractLoop cap n d m = .ok (d', xs, true) →
      ∃ m', YieldsTo (extractStep cap) (m, d) xs (m', d')
  | 0, d, d', m, xs, h => by simp [IndexedBTreeDataset.extractLoop, pure, Except.pure] at h
  | n + 1, d, d', m, xs, h => by
    rcases e : d.extractNext cap m with x | ⟨_ | x, m₁, d₁⟩
    · simp [IndexedBTreeDataset.extractLoop, e, bind, Except.bind] at h
    · simp only [IndexedBTreeDataset.extractLoop, e, bind, Except.bind, pure, Except.pure,
        Except.ok.injEq, Prod.mk.injEq, and_true] at h
      obtain ⟨rfl, rfl⟩ := h
      exact ⟨m₁, .ends e⟩
    · rcases e' : IndexedBTreeDataset.extractLoop cap n d₁ m₁ with y | ⟨d₂, ys, b⟩
      · simp [IndexedBTreeDataset.extractLoop, e, e', bind, Except.bind] at h
      · simp only [IndexedBTreeDataset.extractLoop, e, e', bind, Except.bind, pure, Except.pure,
          Except.ok.injEq, Prod.mk.injEq] at h
        obtain ⟨rfl, rfl, rfl⟩ := h
        obtain ⟨m', hm⟩ := yieldsTo_of_extractLoop e'
        exact ⟨m', .item e hm⟩

/-! ## Returning -/

theorem Spec.Returns.bind {α β : Type} {x : Res α} {f : α → Res β} (h : Returns x)
    (hf : ∀ a, x = .ok a → Returns (f a)) : Returns (x >>= f) := by
  obtain ⟨a, e⟩ := h
  obtain ⟨b, hb⟩ := hf a e
  exact ⟨b, by simp [e, hb, Bind.bind, Except.bind]⟩

theorem returns_pure {α : Type} (a : α) : Returns (pure a : Res α) := ⟨a, rfl⟩

/-- Matching whose iterators yield at most `cap` items and stay ended. -/
structure Bounded (mt : Matching P X M) (cap : Nat) : Prop where
  fused : Fused mt.next
  yields : ∀ pat, ∃ m xs, mt.start pat = .ok m ∧ Yields mt.next m xs ∧ xs.length ≤ cap

namespace Bounded

variable {mt : Matching P X M} {cap fuel : Nat}

theorem matching (h : Bounded mt cap) : MatchingReturns mt := by
  intro pat n
  obtain ⟨m, xs, e, hy, -⟩ := h.yields pat
  obtain ⟨s, hs⟩ := yieldsTo_of_yields hy
  obtain ⟨t, ht, -⟩ := h.fused.calls hs n
  exact ⟨m, e, _, ht⟩

theorem any (h : Bounded mt cap) (pat : P) : Returns (mt.any pat) := by
  obtain ⟨m, xs, e, hy, -⟩ := h.yields pat
  exact ⟨_, Matching.any_eq e hy⟩

theorem infallible (h : Bounded mt cap) : Bounded mt.infallible cap := by
  refine ⟨infallibleNext_fused h.fused, fun pat => ?_⟩
  obtain ⟨m, xs, e, hy, hl⟩ := h.yields pat
  refine ⟨m, xs.map .ok, e, ?_, by simpa using hl⟩
  clear e hl
  induction hy with
  | @ends _ m' e => exact .ends (m' := m') (by simp [Matching.infallible, infallibleNext, e,
      Bind.bind, Except.bind, pure, Except.pure])
  | @item _ m' x _ e _ ih => exact .item (m' := m') (by simp [Matching.infallible, infallibleNext, e,
      Bind.bind, Except.bind, pure, Except.pure]) ih

theorem tryAny (h : Bounded mt cap) (pat : P) : Returns (TryMatching.any mt.infallible pat) := by
  obtain ⟨m, xs, e, hy, -⟩ := h.infallible.yields pat
  rw [TryMatching.any]
  refine Returns.bind ⟨m, e⟩ fun a ea => ?_
  rw [e] at ea
  cases ea
  cases hy with
  | ends e => exact Returns.bind ⟨_, e⟩ fun a ea => by rw [e] at ea; cases ea; exact ⟨_, rfl⟩
  | @item _ _ x _ e _ =>
    cases x with
    | ok x => exact Returns.bind ⟨_, e⟩ fun a ea => by rw [e] at ea; cases ea; exact ⟨_, rfl⟩
    | error x => exact x.elim

theorem objects (h : Bounded mt cap) (hf : cap < fuel) (pat : P) (f : X → R) :
    Returns (do
      let m ← mt.start pat
      collectAll (objectsNext mt.next f) fuel (none, m)) := by
  obtain ⟨m, xs, e, hy, hl⟩ := h.yields pat
  refine Returns.bind ⟨m, e⟩ fun a ea => ?_
  rw [e] at ea
  cases ea
  exact ⟨_, (hy.objects f).collect (by simp; omega)⟩

theorem predicates (h : Bounded mt cap) (hf : cap < fuel) (pattern : R → P) (f : X → R)
    (ps : List R) : Returns (predicatesObjects mt f fuel pattern ps) := by
  refine ⟨_, predicatesObjects_eq
    (items := fun p => (Classical.choose_spec (h.yields (pattern p))).choose) fun p _ => ?_⟩
  obtain ⟨e, hy, hl⟩ := (Classical.choose_spec (h.yields (pattern p))).choose_spec
  exact ⟨⟨_, e, hy⟩, by omega⟩

theorem search {M : Type} {mt : QuadMatching R M} (h : Bounded mt cap) (hf : cap < fuel) :
    SearchReturns fuel mt where
  matching := h.matching
  containsQuad _ := h.any _
  containsQuadSubject _ := h.any _
  containsQuadPredicate _ := h.any _
  containsQuadObject _ := h.any _
  containsNamedGraph _ := h.any _
  quadObjects _ _ _ := h.objects hf _ _
  quadPredicatesObjects _ _ _ := h.predicates hf _ _ _
  tryMatching := h.infallible.matching
  tryContainsTriple _ := h.tryAny _

theorem graphSearch {M : Type} {mt : TripleMatching R M} (h : Bounded mt cap) (hf : cap < fuel) :
    GraphSearchReturns fuel mt where
  matching := h.matching
  containsTriple _ := h.any _
  containsTripleSubject _ := h.any _
  containsTriplePredicate _ := h.any _
  containsTripleObject _ := h.any _
  tripleObjects _ _ := h.objects hf _ _
  triplePredicatesObjects _ _ := h.predicates hf _ _ _
  tryMatching := h.infallible.matching
  tryContainsTriple _ := h.tryAny _

theorem asDataset {M : Type} {gr : GraphImpl R M} (h : Bounded gr.matching cap) :
    Bounded gr.quadMatching cap := by
  refine ⟨GraphImpl.fused h.fused, fun pat => ?_⟩
  obtain ⟨m, ts, e, hy, hl⟩ := h.yields pat.intoTriple.1
  rcases hx : pat.intoTriple with ⟨x, g⟩
  rw [hx] at e
  by_cases hg : g = .any ∨ g = .given none
  · refine ⟨some m, ts.map (·.intoQuad none), ?_, GraphImpl.yields hy, by simpa using hl⟩
    rcases hg with rfl | rfl <;>
      simp [GraphImpl.quadMatching, hx, e, Bind.bind, Except.bind, pure, Except.pure]
  · refine ⟨none, [], ?_, .ends rfl, by simp⟩
    rcases g with _ | _ | _ | _ | _ | _ <;>
      simp_all [GraphImpl.quadMatching, pure, Except.pure]

end Bounded

theorem IndexedBTreeDataset.bounded [Ord R] [Std.TransOrd R] [Std.LawfulEqOrd R]
    {d : IndexedBTreeDataset R} {A : Quad R → Prop}
    (hs : Container.Stands WF IndexedBTreeDataset.abs d A) {cap : Nat}
    (hcap : datasetSlots d ≤ cap) : Bounded (d.matching cap) cap := by
  refine ⟨matchNext_fused cap d, fun pat => ?_⟩
  obtain ⟨xs, -, hf⟩ := IndexedBTreeDataset.found hs hcap pat
  obtain ⟨m, e, hy⟩ := hf.yields
  exact ⟨m, xs, e, hy, hf.length⟩

theorem IndexedBTreeGraph.bounded [Ord R] [Std.TransOrd R] [Std.LawfulEqOrd R]
    {d : IndexedBTreeGraph R} {A : Triple R → Prop}
    (hs : Container.Stands WF IndexedBTreeGraph.abs d A) {cap : Nat}
    (hcap : graphSlots d ≤ cap) : Bounded (d.matching cap) cap := by
  refine ⟨matchNext_fused cap d, fun pat => ?_⟩
  obtain ⟨xs, -, hf⟩ := IndexedBTreeGraph.found hs hcap pat
  obtain ⟨m, e, hy⟩ := hf.yields
  exact ⟨m, xs, e, hy, hf.length⟩

/-- The calls that the four containers have. -/
theorem commonReturn {S D : Type} [Ord S] {c : Container S D} {d : D}
    (hi : ∀ x, Returns (c.insert d x)) (hr : ∀ x, Returns (c.remove d x))
    (he : ∀ l, Returns (c.extend d l)) (hc : ∀ x, Returns (c.contains d x))
    (ht : Returns (c.iter d)) (ho : Returns (c.intoIter d)) : CommonReturn c d where
  insert := hi
  remove := hr
  extend := he
  contains := hc
  iter := ht
  intoIter := ho
  eq c' d' e h := by
    unfold Container.eq
    by_cases hl : c.len d == c'.len d'
    · rw [if_pos hl]
      exact ht.bind fun _ _ => h.bind fun _ _ => returns_pure _
    · rw [if_neg hl]
      exact returns_pure _
  cmp d' h := ht.bind fun _ _ => h.bind fun _ _ => returns_pure _
  partialCmp pc d' h := ht.bind fun _ _ => h.bind fun _ _ => returns_pure _
  hash _ := ht.bind fun _ _ => returns_pure _
  serialize _ := ht.bind fun _ _ => returns_pure _
  rdfFmt _ := ht.bind fun _ _ => returns_pure _
  tryItems := ht.bind fun _ _ => returns_pure _
  tryInsert x := (hi x).bind fun _ _ => returns_pure _

/-- Containers can be made when an insertion always returns and leads to a container where it
does. -/
theorem makingReturns {S D : Type} {c : Container S D} {Reach : D → Prop} (h0 : Reach c.empty)
    (hi : ∀ d x, Reach d → ∃ d' b, c.insert d x = .ok (d', b) ∧ Reach d') : MakingReturns c where
  fromIter l := by
    unfold Container.fromIter
    generalize c.empty = d at h0
    induction l generalizing d with
    | nil => exact ⟨d, rfl⟩
    | cons x l ih =>
      obtain ⟨d', b, e, hd⟩ := hi d x h0
      obtain ⟨v, hv⟩ := ih d' hd
      exact ⟨v, by simp [Container.extend, e, hv, Bind.bind, Except.bind]⟩
  deserialize read v := by
    cases v with
    | seq l =>
      simp only [Container.deserialize]
      generalize c.empty = d at h0
      induction l generalizing d with
      | nil => exact ⟨_, rfl⟩
      | cons v l ih =>
        unfold Container.visitSeq
        cases read v with
        | none => exact ⟨_, rfl⟩
        | some x =>
          obtain ⟨d', b, e, hd⟩ := hi d x h0
          obtain ⟨v, hv⟩ := ih d' hd
          exact ⟨v, by simp [e, hv, Bind.bind, Except.bind]⟩
    | _ => exact ⟨none, rfl⟩

end RdfTypes
