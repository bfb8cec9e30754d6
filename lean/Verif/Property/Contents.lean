import Verif.Property.Sets
import Verif.Property.First
import Verif.Property.Meaning
import Verif.Model.Contents

/-!
# C82: isomorphism of the containers

The functions of C39–C41 and C74–C81, called with any two of the four containers, whatever
happened to these before.
-/

set_option linter.unusedSectionVars false

namespace RdfTypes.Property

open Spec Isomorphism

section resources

variable {R I L : Type} [DecidableEq R] [DecidableEq I] [DecidableEq L]
  [Ord R] [Std.TransOrd R] [Std.LawfulEqOrd R] {i : ReverseInterpretation R I L}

/-- A history of calls after which the quads of the container are those of the list, each listed
once; the triples of a graph are quads of the default graph. -/
def HoldsQuads (rep : Bool) (ds : List (Quad R)) (c : AnyContainer R) : Prop :=
  ds.Nodup ∧
  match c with
  | .dataset d => ∃ A, DatasetHistory rep d A ∧ ∀ q, q ∈ ds ↔ A q
  | .indexedDataset d => ∃ A, IndexedDatasetHistory rep d A ∧ ∀ q, q ∈ ds ↔ A q
  | .graph d => ∃ A, GraphHistory rep d A ∧ ∀ q, q ∈ ds ↔ q.g = none ∧ A ⟨q.s, q.p, q.o⟩
  | .indexedGraph d => ∃ A, IndexedGraphHistory rep d A ∧
      ∀ q, q ∈ ds ↔ q.g = none ∧ A ⟨q.s, q.p, q.o⟩

private theorem nodup_of_lists {S : Type} [Ord S] [Std.TransOrd S] {l : List S} {A : S → Prop}
    (h : Lists l A) : l.Nodup := by
  refine h.ascending.imp fun {x y} hlt e => ?_
  subst e
  simp [Std.ReflCmp.compare_self] at hlt

private theorem perm_of_lists {l ds : List (Quad R)} {A : Quad R → Prop} (h : Lists l A)
    (hd : ds.Nodup) (e : ∀ q, q ∈ ds ↔ A q) : l.Perm ds :=
  (List.perm_ext_iff_of_nodup (nodup_of_lists h) hd).2 fun q => (h.exact q).trans (e q).symm

private theorem perm_of_triples {l : List (Triple R)} {ds : List (Quad R)} {A : Triple R → Prop}
    (h : Lists l A) (hd : ds.Nodup) (e : ∀ q, q ∈ ds ↔ q.g = none ∧ A ⟨q.s, q.p, q.o⟩) :
    (l.map (·.intoQuad none)).Perm ds := by
  refine (List.perm_ext_iff_of_nodup ?_ hd).2 fun q => ?_
  · refine List.Pairwise.map _ (fun x y hxy he => hxy ?_) (nodup_of_lists h)
    cases x; cases y
    simpa [Triple.intoQuad] using he
  · rw [e, List.mem_map]
    constructor
    · rintro ⟨t, ht, rfl⟩
      exact ⟨rfl, (h.exact t).1 ht⟩
    · rintro ⟨hg, ha⟩
      refine ⟨_, (h.exact _).2 ha, ?_⟩
      cases q
      simp_all [Triple.intoQuad]

private theorem quads_perm {rep : Bool} {ds : List (Quad R)} {c : AnyContainer R}
    (h : HoldsQuads rep ds c) : ∃ l, c.quads = .ok l ∧ l.Perm ds := by
  obtain ⟨hd, h⟩ := h
  obtain ⟨c1, c2, c3, c4⟩ := C06_iteration (R := R) rep
  cases c with
  | dataset d =>
    obtain ⟨A, h, hA⟩ := h
    obtain ⟨xs, e, hl⟩ := c1 d _ h
    exact ⟨xs, e, perm_of_lists hl hd hA⟩
  | indexedDataset d =>
    obtain ⟨A, h, hA⟩ := h
    obtain ⟨xs, e, hl⟩ := c3 d _ h
    exact ⟨xs, e, perm_of_lists hl hd hA⟩
  | graph d =>
    obtain ⟨A, h, hA⟩ := h
    obtain ⟨xs, e, hl⟩ := c2 d _ h
    have e : d.iter = .ok xs := e
    exact ⟨_, by simp only [AnyContainer.quads, e]; rfl, perm_of_triples hl hd hA⟩
  | indexedGraph d =>
    obtain ⟨A, h, hA⟩ := h
    obtain ⟨xs, e, hl⟩ := c4 d _ h
    have e : d.iter = .ok xs := e
    exact ⟨_, by simp only [AnyContainer.quads, e]; rfl, perm_of_triples hl hd hA⟩

private theorem in_eq {rep : Bool} {ds ds' : List (Quad R)} {c c' : AnyContainer R}
    (h : HoldsQuads rep ds c) (h' : HoldsQuads rep ds' c') :
    findBijectionIn i c c' = findBijectionWith i ds ds' ∧
      areIsomorphicIn i c c' = areIsomorphicWith i ds ds' := by
  obtain ⟨l, e, hl⟩ := quads_perm h
  obtain ⟨l', e', hl'⟩ := quads_perm h'
  have : findBijectionIn i c c' = findBijectionWith i ds ds' := by
    simp only [findBijectionIn, e, e', bind, Except.bind]
    exact findBijectionWith_perm hl hl'
  exact ⟨this, by rw [areIsomorphicIn, areIsomorphicWith, this]⟩

/-- Neither function panics, and what they return depends only on the quads in the two containers:
not on which of the four kinds these are, nor on what happened to them. -/
theorem C82_contents (i : ReverseInterpretation R I L) {rep rep' : Bool} {ds ds' : List (Quad R)}
    {c c' e e' : AnyContainer R} (h : HoldsQuads rep ds c) (h' : HoldsQuads rep ds' c')
    (k : HoldsQuads rep' ds e) (k' : HoldsQuads rep' ds' e') :
    ∃ o, findBijectionIn i c c' = .ok o ∧ findBijectionIn i e e' = .ok o ∧
      areIsomorphicIn i c c' = .ok o.isSome ∧ areIsomorphicIn i e e' = .ok o.isSome := by
  obtain ⟨o, ho, ho', -⟩ := C75_bijection i ds ds'
  obtain ⟨h1, h2⟩ := in_eq (i := i) h h'
  obtain ⟨k1, k2⟩ := in_eq (i := i) k k'
  exact ⟨o, h1.trans ho, k1.trans ho, h2.trans ho', k2.trans ho'⟩

/-- A container is isomorphic to any other with the same quads, when names agree. -/
theorem C82_same (hn : NamesAgree i) {rep : Bool} {ds : List (Quad R)} {c c' : AnyContainer R}
    (h : HoldsQuads rep ds c) (h' : HoldsQuads rep ds c') : areIsomorphicIn i c c' = .ok true := by
  obtain ⟨m, hm, -⟩ := C78_identity hn (List.Perm.refl ds)
  rw [(in_eq h h').2]
  simp [areIsomorphicWith, hm, bind, Except.bind, pure, Except.pure]

/-- C81 for containers. -/
theorem C82_resources (hn : NamesAgree i) {rep : Bool} {ds ds' : List (Quad R)}
    {c c' : AnyContainer R} (h : HoldsQuads rep ds c) (h' : HoldsQuads rep ds' c')
    (hd : SaysOnce i ds) (hd' : SaysOnce i ds') :
    (IsomorphicWith i ds ds' → areIsomorphicIn i c c' = .ok true) ∧
    ((UntangledWith i ds ∨ UntangledWith i ds') →
      (∀ q ∈ ds, AllNamed i q → ∃ q' ∈ ds', EachPosition (SharesTerm i) q q') →
      (∀ q' ∈ ds', AllNamed i q' → ∃ q ∈ ds, EachPosition (SharesTerm i) q q') →
      (areIsomorphicIn i c c' = .ok true ↔ IsomorphicWith i ds ds')) := by
  rw [(in_eq h h').2]
  exact ⟨fun hi => (C81_recognised hn hd hd' hi).2, fun hu hg hg' => C81_decides hn hd hd' hu hg hg'⟩

end resources

section terms

variable {B I L : Type} [Ord B] [Ord I] [Ord L] [DecidableEq B] [DecidableEq I] [DecidableEq L]
  [Std.TransOrd B] [Std.LawfulEqOrd B] [Std.TransOrd I] [Std.LawfulEqOrd I] [Std.TransOrd L]
  [Std.LawfulEqOrd L]

/-- C39 and C79 for containers: `are_isomorphic` (12-18 of `isomorphism.rs`, which passes the
lexical interpretation) recognises containers with isomorphic contents, and only these if one of
the contents is untangled and both have the same quads without blank nodes. -/
theorem C82_terms {rep : Bool} {ds ds' : List (Quad (LocalTerm B I L))}
    {c c' : AnyContainer (LocalTerm B I L)} (h : HoldsQuads rep ds c) (h' : HoldsQuads rep ds' c') :
    (Isomorphic ds ds' → areIsomorphicIn (lexical B I L) c c' = .ok true) ∧
    ((Untangled ds ∨ Untangled ds') → (∀ q, Ground q → (q ∈ ds ↔ q ∈ ds')) →
      (areIsomorphicIn (lexical B I L) c c' = .ok true ↔ Isomorphic ds ds')) := by
  rw [(in_eq h h').2]
  exact ⟨fun hi => (C39_recognised h.1 h'.1 hi).2, fun hu hg => C79_decides h.1 h'.1 hu hg⟩

end terms

/-! ## Cases -/

section cases

variable {R : Type} [Ord R] [Std.TransOrd R] [Std.LawfulEqOrd R]

private theorem after_extend {S : Type} (l : List S) (x : S) :
    x ∈ l ↔ after nothing [.extend l] x := by
  simp [after, apply, nothing]

/-- Any quads can be put in the two kinds of datasets. -/
theorem holds_datasets (rep : Bool) (ds : List (Quad R)) (hd : ds.Nodup) :
    (∃ d, HoldsQuads rep ds (.dataset d)) ∧ ∃ d, HoldsQuads rep ds (.indexedDataset d) := by
  obtain ⟨d, e, hs⟩ := (BTreeDataset.laws (R := R) rep).run_stands
    (BTreeDataset.laws rep).stands_empty [.extend ds]
  have h : DatasetHistory rep d (after nothing [.extend ds]) := .run .new e
  obtain ⟨d1, e1, -⟩ := IndexedBTreeDataset.fromNonIndexed_spec
    ((BTreeDataset.laws rep).reach_stands h).1
  exact ⟨⟨d, hd, _, h, after_extend ds⟩, d1, hd, _, .convert h e1, after_extend ds⟩

/-- Any triples can be put in the two kinds of graphs. -/
theorem holds_graphs (rep : Bool) (ts : List (Triple R)) (hd : ts.Nodup) :
    (∃ d, HoldsQuads rep (ts.map (·.intoQuad none)) (.graph d)) ∧
      ∃ d, HoldsQuads rep (ts.map (·.intoQuad none)) (.indexedGraph d) := by
  obtain ⟨d, e, hs⟩ := (BTreeGraph.laws (R := R) rep).run_stands
    (BTreeGraph.laws rep).stands_empty [.extend ts]
  have h : GraphHistory rep d (after nothing [.extend ts]) := .run .new e
  obtain ⟨d1, e1, -⟩ := IndexedBTreeGraph.fromNonIndexed_spec
    ((BTreeGraph.laws rep).reach_stands h).1
  have hn : (ts.map (·.intoQuad (G := R) none)).Nodup := by
    refine List.Pairwise.map _ (fun x y hxy he => hxy ?_) hd
    cases x; cases y
    simpa [Triple.intoQuad] using he
  have hm : ∀ q : Quad R, q ∈ ts.map (·.intoQuad none) ↔
      q.g = none ∧ after nothing [.extend ts] ⟨q.s, q.p, q.o⟩ := by
    rintro ⟨s, p, o, g⟩
    rw [← after_extend, List.mem_map]
    constructor
    · rintro ⟨t, ht, e⟩
      cases t
      simp only [Triple.intoQuad, Quad.mk.injEq] at e
      obtain ⟨rfl, rfl, rfl, rfl⟩ := e
      exact ⟨rfl, ht⟩
    · rintro ⟨hg, ht⟩
      exact ⟨_, ht, by simp_all [Triple.intoQuad]⟩
  exact ⟨⟨d, hn, _, h, hm⟩, d1, hn, _, .convert h e1, hm⟩

private abbrev b (n : Nat) : LocalTerm Nat Nat Nat := .anonymous n
private abbrev u (n : Nat) : LocalTerm Nat Nat Nat := .named (.iri n)

/-- A graph with a chain of blank nodes, and an indexed dataset with the same chain under other
names. -/
example : ∃ g d, HoldsQuads true
      (([⟨b 0, u 1, b 1⟩, ⟨b 1, u 1, b 2⟩] : List (Triple (LocalTerm Nat Nat Nat))).map
        (·.intoQuad none)) (.graph g) ∧
    HoldsQuads true [⟨b 5, u 1, b 4, none⟩, ⟨b 4, u 1, b 3, none⟩] (.indexedDataset d) ∧
    areIsomorphicIn (lexical Nat Nat Nat) (.graph g) (.indexedDataset d) = .ok true := by
  obtain ⟨⟨g, hg⟩, -⟩ := holds_graphs true
    ([⟨b 0, u 1, b 1⟩, ⟨b 1, u 1, b 2⟩] : List (Triple (LocalTerm Nat Nat Nat))) (by decide)
  obtain ⟨-, d, hd⟩ := holds_datasets true
    ([⟨b 5, u 1, b 4, none⟩, ⟨b 4, u 1, b 3, none⟩] : List (Quad (LocalTerm Nat Nat Nat)))
    (by decide)
  refine ⟨g, d, hg, hd, (C82_terms hg hd).1 ⟨fun n => 5 - n, ?_, ?_⟩⟩
  · intro x y hx hy h
    simp [BlankIn, positions, Triple.intoQuad] at hx hy h
    omega
  · intro q
    simp [relabel, Triple.intoQuad, Quad.map]

/-- The same container twice, one of them after removals. -/
example : (do
      let d ← (BTreeDataset.container true (LocalTerm Nat Nat Nat)).run BTreeDataset.new
        [.insert ⟨u 7, u 1, b 1, none⟩, .extend [⟨b 0, u 1, b 1, none⟩, ⟨b 1, u 1, b 0, none⟩],
          .remove ⟨u 7, u 1, b 1, none⟩]
      let g ← (BTreeGraph.container true (LocalTerm Nat Nat Nat)).run BTreeGraph.new
        [.extend [⟨b 3, u 1, b 2⟩, ⟨b 2, u 1, b 3⟩]]
      areIsomorphicIn (lexical Nat Nat Nat) (.dataset d) (.graph g)) = .ok true := by
  decide +kernel

end cases

/-- A graph and an indexed dataset with the same chain, under any order of its statements. -/
example : ∃ g d, areIsomorphicIn (lexical Nat Nat Nat) (.graph g) (.indexedDataset d) = .ok true ∧
    HoldsQuads true [⟨b 0, u 1, b 1, none⟩, ⟨b 1, u 1, b 2, none⟩] (.graph g) ∧
    HoldsQuads true [⟨b 0, u 1, b 1, none⟩, ⟨b 1, u 1, b 2, none⟩] (.indexedDataset d) := by
  obtain ⟨⟨g, hg⟩, -⟩ := holds_graphs true
    ([⟨b 0, u 1, b 1⟩, ⟨b 1, u 1, b 2⟩] : List (Triple (LocalTerm Nat Nat Nat))) (by decide)
  obtain ⟨-, d, hd⟩ := holds_datasets true
    ([⟨b 0, u 1, b 1, none⟩, ⟨b 1, u 1, b 2, none⟩] : List (Quad (LocalTerm Nat Nat Nat)))
    (by decide)
  have h : NamesAgree (lexical Nat Nat Nat) := fun x y z h h' => by
    revert h h'
    unfold SharesTerm lexical
    rcases x with x | (x | x) <;> rcases y with y | (y | y) <;> rcases z with z | (z | z) <;> simp <;>
      exact Eq.trans
  exact ⟨g, d, C82_same h hg hd, hg, hd⟩

/-- Comparing the two graphs returns what comparing the two datasets does. -/
example : ∃ g g' d d', findBijectionIn (lexical Nat Nat Nat) (.graph g) (.indexedGraph g') =
      findBijectionIn (lexical Nat Nat Nat) (.dataset d) (.indexedDataset d') ∧
    HoldsQuads true [⟨b 0, u 1, b 1, none⟩, ⟨b 1, u 1, b 2, none⟩] (.graph g) ∧
    HoldsQuads true [⟨b 5, u 1, b 4, none⟩, ⟨b 4, u 1, b 3, none⟩] (.indexedGraph g') ∧
    HoldsQuads false [⟨b 0, u 1, b 1, none⟩, ⟨b 1, u 1, b 2, none⟩] (.dataset d) ∧
    HoldsQuads false [⟨b 5, u 1, b 4, none⟩, ⟨b 4, u 1, b 3, none⟩] (.indexedDataset d') := by
  obtain ⟨⟨g, hg⟩, -⟩ := holds_graphs true
    ([⟨b 0, u 1, b 1⟩, ⟨b 1, u 1, b 2⟩] : List (Triple (LocalTerm Nat Nat Nat))) (by decide)
  obtain ⟨-, g', hg'⟩ := holds_graphs true
    ([⟨b 5, u 1, b 4⟩, ⟨b 4, u 1, b 3⟩] : List (Triple (LocalTerm Nat Nat Nat))) (by decide)
  obtain ⟨⟨d, hd⟩, -⟩ := holds_datasets false
    ([⟨b 0, u 1, b 1, none⟩, ⟨b 1, u 1, b 2, none⟩] : List (Quad (LocalTerm Nat Nat Nat)))
    (by decide)
  obtain ⟨-, d', hd'⟩ := holds_datasets false
    ([⟨b 5, u 1, b 4, none⟩, ⟨b 4, u 1, b 3, none⟩] : List (Quad (LocalTerm Nat Nat Nat)))
    (by decide)
  obtain ⟨o, e, e', -⟩ := C82_contents (lexical Nat Nat Nat) hg hg' hd hd'
  exact ⟨g, g', d, d', e.trans e'.symm, hg, hg', hd, hd'⟩

end RdfTypes.Property
