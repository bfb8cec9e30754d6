import Verif.Proof.PatternMap

/-!
# C37 and C38: pattern maps

Lookup in a pattern map is exact. `union_with` is not the union: entries of the second
map replace those of the first one under the same given term.
-/

set_option linter.unusedSectionVars false

namespace RdfTypes.Property

open Spec PatternMap

variable {V T : Type} [DecidableEq V] [DecidableEq T]

/-- Lookup in a map of canonical triple patterns. -/
theorem C37_patterns : (triplePatternMap V T).Maps (fun t p => matchesTriple p t) :=
  TriplePatternMap.flat.maps

example : ∃ xs, (triplePatternMap Nat Nat).Returns ((triplePatternMap Nat Nat).fill
      [(.anySubject (.anyPredicate .sameAsSubject), 10), (.givenSubject 1 (.anyPredicate .anyObject), 11)])
      ⟨1, 2, 1⟩ xs ∧
    MapImpl.Counts [(.anySubject (.anyPredicate .sameAsSubject), 10), (.givenSubject 1 (.anyPredicate .anyObject), 11)]
      (fun p => matchesTriple p ⟨1, 2, 1⟩) xs :=
  C37_patterns.1 _ _

/-- Lookup in the six maps of partial patterns it is made of. -/
theorem C37_parts :
    (givenSubjectMap V T).Maps inGivenSubject ∧
    (givenSubjectAnyPredicateMap V T).Maps inGivenSubjectAnyPredicate ∧
    (givenSubjectGivenPredicateMap V T).Maps inGivenSubjectGivenPredicate ∧
    (anySubjectMap V T).Maps inAnySubject ∧
    (anySubjectAnyPredicateMap V T).Maps inAnySubjectAnyPredicate ∧
    (anySubjectGivenPredicateMap V T).Maps inAnySubjectGivenPredicate :=
  ⟨GivenSubjectMap.flat.maps, GivenSubjectAnyPredicateMap.flat.maps,
    GivenSubjectGivenPredicateMap.flat.maps,
    AnySubjectMap.flat.maps, AnySubjectAnyPredicateMap.flat.maps,
    AnySubjectGivenPredicateMap.flat.maps⟩

/-- Two patterns match the triple, one of them with the same value twice. -/
example : ∃ xs, (triplePatternMap Nat Nat).Returns ((triplePatternMap Nat Nat).fill
      [(.anySubject (.anyPredicate .sameAsSubject), 10), (.givenSubject 1 (.givenPredicate 2 .anyObject), 10),
        (.givenSubject 1 (.anyPredicate .sameAsPredicate), 11), (.givenSubject 1 (.anyPredicate (.givenObject 1)), 12),
        (.givenSubject 1 (.anyPredicate (.givenObject 1)), 12)]) ⟨1, 2, 1⟩ xs ∧ xs = [10, 12, 10] :=
  ⟨_, TriplePatternMap.flat.returns _ _, by decide⟩

example : ((triplePatternMap Nat Nat).insert ((triplePatternMap Nat Nat).fill
      [(.anySubject (.anyPredicate .sameAsSubject), 10)]) (.anySubject (.anyPredicate .sameAsSubject)) 10).2
    = false := by decide

/-- After the union of two maps with no two patterns that share their first given term,
lookup yields the values of both. Missing: patterns that share it. -/
theorem C38_union_partial :
    (givenSubjectMap V T).Merges GivenSubjectMap.unionWith (Apart meetGivenSubject) ∧
    (givenSubjectAnyPredicateMap V T).Merges GivenSubjectAnyPredicateMap.unionWith (Apart meetGivenSubjectAnyPredicate) ∧
    (givenSubjectGivenPredicateMap V T).Merges GivenSubjectGivenPredicateMap.unionWith (Apart meetGivenSubjectGivenPredicate) ∧
    (anySubjectMap V T).Merges AnySubjectMap.unionWith (Apart meetAnySubject) ∧
    (anySubjectAnyPredicateMap V T).Merges AnySubjectAnyPredicateMap.unionWith (Apart meetAnySubjectAnyPredicate) ∧
    (anySubjectGivenPredicateMap V T).Merges AnySubjectGivenPredicateMap.unionWith (Apart meetAnySubjectGivenPredicate) :=
  ⟨GivenSubjectMap.joined.merges GivenSubjectMap.flat,
    GivenSubjectAnyPredicateMap.joined.merges GivenSubjectAnyPredicateMap.flat,
    GivenSubjectGivenPredicateMap.joined.merges GivenSubjectGivenPredicateMap.flat,
    AnySubjectMap.joined.merges AnySubjectMap.flat,
    AnySubjectAnyPredicateMap.joined.merges AnySubjectAnyPredicateMap.flat,
    AnySubjectGivenPredicateMap.joined.merges AnySubjectGivenPredicateMap.flat⟩

example : ∃ xs ys zs,
    (givenSubjectMap Nat Nat).Returns
      ((givenSubjectMap Nat Nat).fill [(.givenPredicate 1 .anyObject, 10)]) ⟨0, 1, 2⟩ xs ∧
    (givenSubjectMap Nat Nat).Returns
      ((givenSubjectMap Nat Nat).fill [(.anyPredicate .anyObject, 20)]) ⟨0, 1, 2⟩ ys ∧
    (givenSubjectMap Nat Nat).Returns
      (GivenSubjectMap.unionWith ((givenSubjectMap Nat Nat).fill [(.givenPredicate 1 .anyObject, 10)])
        ((givenSubjectMap Nat Nat).fill [(.anyPredicate .anyObject, 20)])) ⟨0, 1, 2⟩ zs ∧
    ∀ v, v ∈ zs ↔ v ∈ xs ∨ v ∈ ys :=
  C38_union_partial.1 _ _ (by simp [Apart, meetGivenSubject]) ⟨0, 1, 2⟩

/-- Under the same restriction, values are counted as if all pairs had been inserted in
one map. -/
theorem C38_counts_partial :
    (givenSubjectMap V T).MergesCounts GivenSubjectMap.unionWith inGivenSubject (Apart meetGivenSubject) ∧
    (givenSubjectAnyPredicateMap V T).MergesCounts GivenSubjectAnyPredicateMap.unionWith inGivenSubjectAnyPredicate (Apart meetGivenSubjectAnyPredicate) ∧
    (givenSubjectGivenPredicateMap V T).MergesCounts GivenSubjectGivenPredicateMap.unionWith inGivenSubjectGivenPredicate (Apart meetGivenSubjectGivenPredicate) ∧
    (anySubjectMap V T).MergesCounts AnySubjectMap.unionWith inAnySubject (Apart meetAnySubject) ∧
    (anySubjectAnyPredicateMap V T).MergesCounts AnySubjectAnyPredicateMap.unionWith inAnySubjectAnyPredicate (Apart meetAnySubjectAnyPredicate) ∧
    (anySubjectGivenPredicateMap V T).MergesCounts AnySubjectGivenPredicateMap.unionWith inAnySubjectGivenPredicate (Apart meetAnySubjectGivenPredicate) :=
  ⟨GivenSubjectMap.joined.mergesCounts GivenSubjectMap.flat,
    GivenSubjectAnyPredicateMap.joined.mergesCounts GivenSubjectAnyPredicateMap.flat,
    GivenSubjectGivenPredicateMap.joined.mergesCounts GivenSubjectGivenPredicateMap.flat,
    AnySubjectMap.joined.mergesCounts AnySubjectMap.flat,
    AnySubjectAnyPredicateMap.joined.mergesCounts AnySubjectAnyPredicateMap.flat,
    AnySubjectGivenPredicateMap.joined.mergesCounts AnySubjectGivenPredicateMap.flat⟩

example : ∃ zs,
    (givenSubjectMap Nat Nat).Returns
      (GivenSubjectMap.unionWith ((givenSubjectMap Nat Nat).fill [(.givenPredicate 1 .anyObject, 10)])
        ((givenSubjectMap Nat Nat).fill [(.anyPredicate .anyObject, 10)])) ⟨0, 1, 2⟩ zs ∧
    MapImpl.Counts [(.givenPredicate 1 .anyObject, 10), (.anyPredicate .anyObject, 10)]
      (inGivenSubject ⟨0, 1, 2⟩) zs :=
  C38_counts_partial.1 [(.givenPredicate 1 .anyObject, 10)] [(.anyPredicate .anyObject, 10)]
    (by simp [Apart, meetGivenSubject]) ⟨0, 1, 2⟩

/-- For any two maps, lookup after the union yields every value of the second one, and
no value that neither yields. -/
theorem C38_bounds_partial :
    (givenSubjectMap V T).MergesSome GivenSubjectMap.unionWith ∧
    (givenSubjectAnyPredicateMap V T).MergesSome GivenSubjectAnyPredicateMap.unionWith ∧
    (givenSubjectGivenPredicateMap V T).MergesSome GivenSubjectGivenPredicateMap.unionWith ∧
    (anySubjectMap V T).MergesSome AnySubjectMap.unionWith ∧
    (anySubjectAnyPredicateMap V T).MergesSome AnySubjectAnyPredicateMap.unionWith ∧
    (anySubjectGivenPredicateMap V T).MergesSome AnySubjectGivenPredicateMap.unionWith :=
  ⟨GivenSubjectMap.joined.mergesSome GivenSubjectMap.flat,
    GivenSubjectAnyPredicateMap.joined.mergesSome GivenSubjectAnyPredicateMap.flat,
    GivenSubjectGivenPredicateMap.joined.mergesSome GivenSubjectGivenPredicateMap.flat,
    AnySubjectMap.joined.mergesSome AnySubjectMap.flat,
    AnySubjectAnyPredicateMap.joined.mergesSome AnySubjectAnyPredicateMap.flat,
    AnySubjectGivenPredicateMap.joined.mergesSome AnySubjectGivenPredicateMap.flat⟩

example : ∃ xs ys zs,
    (anySubjectMap Nat Nat).Returns
      ((anySubjectMap Nat Nat).fill [(.givenPredicate 1 .anyObject, 10)]) ⟨0, 1, 2⟩ xs ∧
    (anySubjectMap Nat Nat).Returns
      ((anySubjectMap Nat Nat).fill [(.givenPredicate 1 (.givenObject 2), 20)]) ⟨0, 1, 2⟩ ys ∧
    (anySubjectMap Nat Nat).Returns
      (AnySubjectMap.unionWith ((anySubjectMap Nat Nat).fill [(.givenPredicate 1 .anyObject, 10)])
        ((anySubjectMap Nat Nat).fill [(.givenPredicate 1 (.givenObject 2), 20)])) ⟨0, 1, 2⟩ zs ∧
    (∀ v ∈ ys, v ∈ zs) ∧ ∀ v ∈ zs, v ∈ xs ∨ v ∈ ys :=
  C38_bounds_partial.2.2.2.1 _ _ ⟨0, 1, 2⟩

/-- The union of two maps loses values of the first one, for each kind of map. -/
theorem C38_false :
    (givenSubjectMap Nat Nat).Loses GivenSubjectMap.unionWith ∧
    (givenSubjectAnyPredicateMap Nat Nat).Loses GivenSubjectAnyPredicateMap.unionWith ∧
    (givenSubjectGivenPredicateMap Nat Nat).Loses GivenSubjectGivenPredicateMap.unionWith ∧
    (anySubjectMap Nat Nat).Loses AnySubjectMap.unionWith ∧
    (anySubjectAnyPredicateMap Nat Nat).Loses AnySubjectAnyPredicateMap.unionWith ∧
    (anySubjectGivenPredicateMap Nat Nat).Loses AnySubjectGivenPredicateMap.unionWith := by
  refine ⟨?_, ?_, ?_, ?_, ?_, ?_⟩
  · exact ⟨[(.givenPredicate 1 .anyObject, 10)], [(.givenPredicate 1 (.givenObject 5), 20)], ⟨0, 1, 2⟩, 10, _, _,
      GivenSubjectMap.flat.returns _ _, by decide, GivenSubjectMap.flat.returns _ _, by decide⟩
  · exact ⟨[(.givenObject 2, 10)], [(.givenObject 2, 20)], ⟨0, 1, 2⟩, 10, _, _,
      GivenSubjectAnyPredicateMap.flat.returns _ _, by decide, GivenSubjectAnyPredicateMap.flat.returns _ _, by decide⟩
  · exact ⟨[(.givenObject 2, 10)], [(.givenObject 2, 20)], ⟨0, 1, 2⟩, 10, _, _,
      GivenSubjectGivenPredicateMap.flat.returns _ _, by decide, GivenSubjectGivenPredicateMap.flat.returns _ _, by decide⟩
  · exact ⟨[(.givenPredicate 1 .anyObject, 10)], [(.givenPredicate 1 .sameAsSubject, 20)], ⟨0, 1, 2⟩, 10, _, _,
      AnySubjectMap.flat.returns _ _, by decide, AnySubjectMap.flat.returns _ _, by decide⟩
  · exact ⟨[(.givenObject 2, 10)], [(.givenObject 2, 20)], ⟨0, 1, 2⟩, 10, _, _,
      AnySubjectAnyPredicateMap.flat.returns _ _, by decide, AnySubjectAnyPredicateMap.flat.returns _ _, by decide⟩
  · exact ⟨[(.givenObject 2, 10)], [(.givenObject 2, 20)], ⟨0, 1, 2⟩, 10, _, _,
      AnySubjectGivenPredicateMap.flat.returns _ _, by decide, AnySubjectGivenPredicateMap.flat.returns _ _, by decide⟩

/-- Patterns with different given terms. -/
example : Apart meetGivenSubject [(TPat.GivenSubject.givenPredicate 1 .anyObject, 10), (.anyPredicate .anyObject, 11)]
    [(.givenPredicate 2 .anyObject, 20), (.anyPredicate .anyObject, 11), (.anyPredicate (.givenObject 1), 13)] := by
  intro x hx y hy
  simp at hx hy
  rcases hx with rfl | rfl <;> rcases hy with rfl | rfl | rfl <;>
    simp [meetGivenSubject, meetGivenSubjectAnyPredicate]

/-- However a map was built with insertions and unions, lookup yields exactly the values
that are in it by the rule of `Steps.Holds`: a union drops the pairs of the first map
whose pattern meets one of the second map, and no other pair. -/
theorem C61_union :
    (givenSubjectMap V T).MapsUnions GivenSubjectMap.unionWith inGivenSubject meetGivenSubject ∧
    (givenSubjectAnyPredicateMap V T).MapsUnions GivenSubjectAnyPredicateMap.unionWith inGivenSubjectAnyPredicate meetGivenSubjectAnyPredicate ∧
    (givenSubjectGivenPredicateMap V T).MapsUnions GivenSubjectGivenPredicateMap.unionWith inGivenSubjectGivenPredicate meetGivenSubjectGivenPredicate ∧
    (anySubjectMap V T).MapsUnions AnySubjectMap.unionWith inAnySubject meetAnySubject ∧
    (anySubjectAnyPredicateMap V T).MapsUnions AnySubjectAnyPredicateMap.unionWith inAnySubjectAnyPredicate meetAnySubjectAnyPredicate ∧
    (anySubjectGivenPredicateMap V T).MapsUnions AnySubjectGivenPredicateMap.unionWith inAnySubjectGivenPredicate meetAnySubjectGivenPredicate :=
  ⟨GivenSubjectMap.joined.mapsUnions GivenSubjectMap.flat,
    GivenSubjectAnyPredicateMap.joined.mapsUnions GivenSubjectAnyPredicateMap.flat,
    GivenSubjectGivenPredicateMap.joined.mapsUnions GivenSubjectGivenPredicateMap.flat,
    AnySubjectMap.joined.mapsUnions AnySubjectMap.flat,
    AnySubjectAnyPredicateMap.joined.mapsUnions AnySubjectAnyPredicateMap.flat,
    AnySubjectGivenPredicateMap.joined.mapsUnions AnySubjectGivenPredicateMap.flat⟩

/-- A pair that is lost, one that is kept, and one inserted again afterwards. -/
example : ∃ xs, (givenSubjectMap Nat Nat).Returns ((givenSubjectMap Nat Nat).build GivenSubjectMap.unionWith
      (.insert (.union
        (.insert (.insert (.insert .empty (.givenPredicate 1 .anyObject) 10) (.anyPredicate .anyObject) 11)
          (.givenPredicate 1 (.givenObject 2)) 12)
        (.insert .empty (.givenPredicate 1 (.givenObject 5)) 20)) (.givenPredicate 1 .anyObject) 12))
      ⟨0, 1, 2⟩ xs ∧ xs = [11, 12] :=
  ⟨_, GivenSubjectMap.flat.returns _ _, by decide⟩

end RdfTypes.Property
