import Verif.Model.PatternMatching

/-!
# Provided methods of the pattern matching traits

`/repo/src/dataset/mod.rs` 20-414, `/repo/src/dataset/graph/mod.rs` 8-211,
and the iterators of `/repo/src/utils.rs`.

The traits are modelled by what an implementation supplies for one value: an
iterator is a state and a function `next`. The methods provided by the traits are
functions of that.

Simplification: `self.predicates()` is a list, read before the iteration over it
starts instead of lazily.
-/

namespace RdfTypes

/-- An implementation of `quad_pattern_matching` (`dataset/mod.rs` 219-222) or
`triple_pattern_matching` (`dataset/graph/mod.rs` 81-84): `P` are patterns, `X` items and `M` the
states of the iterator. -/
structure Matching (P X M : Type) where
  start : P → Res M
  next : M → Res (Option X × M)

/-- `….next().is_some()`, which ends the `contains_…` methods, `dataset/mod.rs` 226, 240, 255,
270 and 284, `dataset/graph/mod.rs` 87, 97, 107 and 117. -/
def Matching.any {P X M : Type} (mt : Matching P X M) (pat : P) : Res Bool := do
  let m ← mt.start pat
  let (o, _) ← mt.next m
  pure o.isSome

/-- `next` of `QuadObjects` (`dataset/mod.rs` 409-413) and `TripleObjects` (`dataset/graph/mod.rs`
206-210): the state holds `first` and `inner`. -/
def objectsNext {X R M : Type} (next : M → Res (Option X × M)) (object : X → R) :
    Option R × M → Res (Option R × (Option R × M))
  | (some o, m) => pure (some o, (none, m))
  | (none, m) => do
    let (x, m') ← next m
    pure (x.map object, (none, m'))

/-- `QuadPredicatesObjects::next` (`dataset/mod.rs` 364-392) and `TriplePredicatesObjects::next`
(`dataset/graph/mod.rs` 168-190) called until the end, with each yielded iterator run to its end.
`pattern` builds the pattern for a predicate. -/
def predicatesObjects {P X R M : Type} (mt : Matching P X M) (object : X → R) (fuel : Nat)
    (pattern : R → P) : List R → Res (List (R × List R))
  | [] => pure []
  | p :: ps => do
    let m ← mt.start (pattern p)
    match ← mt.next m with
    | (none, _) => predicatesObjects mt object fuel pattern ps
    | (some x, m') => do
      let os ← collectAll (objectsNext mt.next object) fuel (some (object x), m')
      let rest ← predicatesObjects mt object fuel pattern ps
      pure ((p, os) :: rest)

/-! ## Datasets -/

/-- `PatternMatchingDataset`, `dataset/mod.rs` 210-222. -/
abbrev QuadMatching (R M : Type) := Matching (CanonicalQuadPattern R) (Quad R) M

namespace QuadMatching

variable {R M : Type} (mt : QuadMatching R M)

/-- `contains_quad`, `dataset/mod.rs` 225-227. `IndexedBTreeDataset` overrides it by `contains`. -/
def containsQuad (q : Quad R) : Res Bool := mt.any (.fromQuad q)

/-- `contains_quad_subject`, `dataset/mod.rs` 230-242. -/
def containsQuadSubject (s : R) : Res Bool :=
  mt.any (.givenSubject s (.anyPredicate (.anyObject .anyGraph)))

/-- `contains_quad_predicate`, `dataset/mod.rs` 245-257. -/
def containsQuadPredicate (p : R) : Res Bool :=
  mt.any (.anySubject (.givenPredicate p (.anyObject .anyGraph)))

/-- `contains_quad_object`, `dataset/mod.rs` 260-272. -/
def containsQuadObject (o : R) : Res Bool :=
  mt.any (.anySubject (.anyPredicate (.givenObject o .anyGraph)))

/-- `contains_named_graph`, `dataset/mod.rs` 275-286. -/
def containsNamedGraph (g : R) : Res Bool :=
  mt.any (.anySubject (.anyPredicate (.anyObject (.givenGraph (some g)))))

/-- `quad_objects`, `dataset/mod.rs` 307-321, run to the end. -/
def quadObjects (fuel : Nat) (g : Option R) (s p : R) : Res (List R) := do
  let m ← mt.start (.fromOptionQuad ⟨some s, some p, none, some g⟩)
  collectAll (objectsNext mt.next (·.o)) fuel (none, m)

/-- `quad_predicates_objects`, `dataset/mod.rs` 290-304, run to the end; `predicates` is what
`self.predicates()` yields. -/
def quadPredicatesObjects (fuel : Nat) (predicates : List R) (g : Option R) (s : R) :
    Res (List (R × List R)) :=
  predicatesObjects mt (·.o) fuel
    (fun p => .givenSubject s (.givenPredicate p (.anyObject (.givenGraph g)))) predicates

end QuadMatching

/-! ## Graphs -/

/-- `PatternMatchingGraph`, `dataset/graph/mod.rs` 75-84. -/
abbrev TripleMatching (R M : Type) := Matching (CanonicalTriplePattern R) (Triple R) M

namespace TripleMatching

variable {R M : Type} (mt : TripleMatching R M)

/-- `contains_triple`, `dataset/graph/mod.rs` 86-88. `IndexedBTreeGraph` overrides it by
`contains`. -/
def containsTriple (t : Triple R) : Res Bool := mt.any (.fromTriple t)

/-- `contains_triple_subject`, `dataset/graph/mod.rs` 91-99. -/
def containsTripleSubject (s : R) : Res Bool :=
  mt.any (.givenSubject s (.anyPredicate .anyObject))

/-- `contains_triple_predicate`, `dataset/graph/mod.rs` 102-109. -/
def containsTriplePredicate (p : R) : Res Bool :=
  mt.any (.anySubject (.givenPredicate p .anyObject))

/-- `contains_triple_object`, `dataset/graph/mod.rs` 112-119. -/
def containsTripleObject (o : R) : Res Bool :=
  mt.any (.anySubject (.anyPredicate (.givenObject o)))

/-- `triple_objects`, `dataset/graph/mod.rs` 137-148, run to the end. -/
def tripleObjects (fuel : Nat) (s p : R) : Res (List R) := do
  let m ← mt.start (.fromOptionTriple ⟨some s, some p, none⟩)
  collectAll (objectsNext mt.next (·.o)) fuel (none, m)

/-- `triple_predicates_objects`, `dataset/graph/mod.rs` 122-134, run to the end. -/
def triplePredicatesObjects (fuel : Nat) (predicates : List R) (s : R) :
    Res (List (R × List R)) :=
  predicatesObjects mt (·.o) fuel (fun p => .givenSubject s (.givenPredicate p .anyObject)) predicates

end TripleMatching

/-! ## Graphs as datasets -/

/-- What a graph supplies to be used as a dataset: `triples` (`dataset/graph/mod.rs` 15-24,
collected), `triples_count`, `graph_resources`, `graph_subjects`, `graph_predicates`,
`graph_objects` with their counts (`dataset/graph/mod.rs` 26-72) and `triple_pattern_matching`. -/
structure GraphImpl (R M : Type) where
  triples : List (Triple R)
  triplesCount : Nat
  graphResources : List R
  graphResourceCount : Nat
  graphSubjects : List R
  graphSubjectCount : Nat
  graphPredicates : List R
  graphPredicateCount : Nat
  graphObjects : List R
  graphObjectCount : Nat
  matching : TripleMatching R M

namespace GraphImpl

variable {R M : Type} (gr : GraphImpl R M)

/-- `quads`, `dataset/mod.rs` 50-52, with `TripleToQuadIterator::next`, `utils.rs` 26-28. -/
def quads : List (Quad R) := gr.triples.map (·.intoQuad none)

/-- `quads_count`, `dataset/mod.rs` 54-56. -/
def quadsCount : Nat := gr.triplesCount

/-- `resources`, `dataset/mod.rs` 77-79. -/
def resources : List R := gr.graphResources

/-- `resource_count`, `dataset/mod.rs` 81-83. -/
def resourceCount : Nat := gr.graphResourceCount

/-- `subjects`, `dataset/mod.rs` 104-106. -/
def subjects : List R := gr.graphSubjects

/-- `subject_count`, `dataset/mod.rs` 108-110. -/
def subjectCount : Nat := gr.graphSubjectCount

/-- `predicates`, `dataset/mod.rs` 131-133. -/
def predicates : List R := gr.graphPredicates

/-- `predicate_count`, `dataset/mod.rs` 135-137. -/
def predicateCount : Nat := gr.graphPredicateCount

/-- `objects`, `dataset/mod.rs` 158-160. -/
def objects : List R := gr.graphObjects

/-- `object_count`, `dataset/mod.rs` 162-164. -/
def objectCount : Nat := gr.graphObjectCount

/-- `named_graphs`, `dataset/mod.rs` 185-187. -/
def namedGraphs (_ : GraphImpl R M) : List R := []

/-- `named_graph_count`, `dataset/mod.rs` 189-191. -/
def namedGraphCount (_ : GraphImpl R M) : Nat := 0

/-- `quad_pattern_matching`, `dataset/mod.rs` 332-343, with `OptionIterator::next` (`utils.rs`
36-38) around `TripleToQuadIterator::next`. -/
def quadMatching : QuadMatching R (Option M) where
  start pat :=
    match pat.intoTriple with
    | (pat, .given none) | (pat, .any) => do pure (some (← gr.matching.start pat))
    | _ => pure none
  next
    | none => pure (none, none)
    | some m => do
      let (t, m') ← gr.matching.next m
      pure (t.map (·.intoQuad none), some m')

end GraphImpl

/-! ## The indexed containers -/

/-- `PatternMatchingDataset for IndexedBTreeDataset`, indexed_btree_dataset.rs 613-631. -/
def IndexedBTreeDataset.matching {R : Type} [Ord R] (cap : Nat) (d : IndexedBTreeDataset R) :
    QuadMatching R (Matcher QuadFilter) := ⟨d.matcher, d.matchNext cap⟩

/-- `PatternMatchingGraph for IndexedBTreeGraph`, indexed_btree_graph.rs 449-467. -/
def IndexedBTreeGraph.matching {R : Type} [Ord R] (cap : Nat) (d : IndexedBTreeGraph R) :
    TripleMatching R (Matcher TripleFilter) := ⟨d.matcher, d.matchNext cap⟩

/-- What an `IndexedBTreeGraph` supplies, indexed_btree_graph.rs 363-437 and 449-467;
`triples_count` is the provided one, `dataset/graph/mod.rs` 21-23. -/
def IndexedBTreeGraph.impl {R : Type} [Ord R] (cap : Nat) (d : IndexedBTreeGraph R) :
    Res (GraphImpl R (Matcher TripleFilter)) := do
  let triples ← d.iter
  let resources ← d.resourceList
  let subjects ← d.subjectList
  let predicates ← d.predicateList
  let objects ← d.objectList
  pure ⟨triples, triples.length, resources, d.resourceCount, subjects, d.subjectCount, predicates,
    d.predicateCount, objects, d.objectCount, d.matching cap⟩

/-- `quad_predicates_objects`, `dataset/mod.rs` 290-304, on an `IndexedBTreeDataset`. -/
def IndexedBTreeDataset.quadPredicatesObjects {R : Type} [Ord R] (cap fuel : Nat)
    (d : IndexedBTreeDataset R) (g : Option R) (s : R) : Res (List (R × List R)) := do
  let ps ← d.predicateList
  (d.matching cap).quadPredicatesObjects fuel ps g s

/-- `triple_predicates_objects`, `dataset/graph/mod.rs` 122-134, on an `IndexedBTreeGraph`. -/
def IndexedBTreeGraph.triplePredicatesObjects {R : Type} [Ord R] (cap fuel : Nat)
    (d : IndexedBTreeGraph R) (s : R) : Res (List (R × List R)) := do
  let ps ← d.predicateList
  (d.matching cap).triplePredicatesObjects fuel ps s

end RdfTypes
