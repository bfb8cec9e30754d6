import Verif.Model.PatternOrder
import Verif.Spec.PatternOrder
import Verif.Proof.Pattern

namespace RdfTypes.Proof

namespace PatternOrder

open Spec

set_option linter.unusedSimpArgs false

variable {R : Type} [Ord R]

theorem given_some {X : Type} [Ord X] (a b : X) : compare (some a) (some b) = compare a b := rfl

theorem given_none : compare (none : Option (Option R)) none = .eq := rfl

theorem rank_lt {m n : Nat} (h : m < n) (a b : Option (Option R)) :
    rankOrder (m, a) (n, b) = .lt := by
  simp [rankOrder, Nat.compare_eq_lt.2 h]

theorem rank_gt {m n : Nat} (h : n < m) (a b : Option (Option R)) :
    rankOrder (m, a) (n, b) = .gt := by
  simp [rankOrder, Nat.compare_eq_gt.2 h]

theorem rank_same (n : Nat) (a b : Option (Option R)) :
    rankOrder (n, a) (n, b) = compare a b := by
  simp [rankOrder, Nat.compare_eq_eq.2 rfl]

theorem subject_eq (x y : PatternSubject R) :
    PatOrd.subject x y = rankOrder (subjectRank x) (subjectRank y) := by
  cases x <;> cases y <;>
    simp [PatOrd.subject, PatOrd.subjectTag, subjectRank,
      rank_same, rank_lt, rank_gt, given_some,
      given_none, Nat.compare_eq_lt.2, Nat.compare_eq_gt.2, Nat.compare_eq_eq.2]

theorem predicate_eq (x y : PatternPredicate R) :
    PatOrd.predicate x y = rankOrder (predicateRank x) (predicateRank y) := by
  cases x <;> cases y <;>
    simp [PatOrd.predicate, PatOrd.predicateTag, predicateRank,
      rank_same, rank_lt, rank_gt, given_some,
      given_none, Nat.compare_eq_lt.2, Nat.compare_eq_gt.2, Nat.compare_eq_eq.2]

theorem object_eq (x y : PatternObject R) :
    PatOrd.object x y = rankOrder (objectRank x) (objectRank y) := by
  cases x <;> cases y <;>
    simp [PatOrd.object, PatOrd.objectTag, objectRank,
      rank_same, rank_lt, rank_gt, given_some,
      given_none, Nat.compare_eq_lt.2, Nat.compare_eq_gt.2, Nat.compare_eq_eq.2]

theorem graph_eq (x y : PatternGraph R) :
    PatOrd.graph x y = rankOrder (graphRank x) (graphRank y) := by
  cases x <;> cases y <;>
    simp [PatOrd.graph, PatOrd.graphTag, graphRank,
      rank_same, rank_lt, rank_gt, given_some,
      given_none, Nat.compare_eq_lt.2, Nat.compare_eq_gt.2, Nat.compare_eq_eq.2]

theorem tAnySubjectAnyPredicate_eq
    (x y : TPat.AnySubjectAnyPredicate R) :
    PatOrd.tAnySubjectAnyPredicate x y =
      rankOrder (objectRank x.object) (objectRank y.object) := by
  cases x <;> cases y <;>
    simp [PatOrd.tAnySubjectAnyPredicate,
      PatOrd.tAnySubjectAnyPredicateTag,
      TPat.AnySubjectAnyPredicate.object,
      objectRank,
      rank_same, rank_lt, rank_gt, given_some, given_none,
      Nat.compare_eq_lt.2, Nat.compare_eq_gt.2, Nat.compare_eq_eq.2]

theorem tAnySubjectGivenPredicate_eq
    (x y : TPat.AnySubjectGivenPredicate R) :
    PatOrd.tAnySubjectGivenPredicate x y =
      rankOrder (objectRank x.object) (objectRank y.object) := by
  cases x <;> cases y <;>
    simp [PatOrd.tAnySubjectGivenPredicate,
      PatOrd.tAnySubjectGivenPredicateTag,
      TPat.AnySubjectGivenPredicate.object,
      objectRank,
      rank_same, rank_lt, rank_gt, given_some, given_none,
      Nat.compare_eq_lt.2, Nat.compare_eq_gt.2, Nat.compare_eq_eq.2,
      tAnySubjectAnyPredicate_eq]

theorem tGivenSubjectAnyPredicate_eq
    (x y : TPat.GivenSubjectAnyPredicate R) :
    PatOrd.tGivenSubjectAnyPredicate x y =
      rankOrder (objectRank x.object) (objectRank y.object) := by
  cases x <;> cases y <;>
    simp [PatOrd.tGivenSubjectAnyPredicate,
      PatOrd.tGivenSubjectAnyPredicateTag,
      TPat.GivenSubjectAnyPredicate.object,
      objectRank,
      rank_same, rank_lt, rank_gt, given_some, given_none,
      Nat.compare_eq_lt.2, Nat.compare_eq_gt.2, Nat.compare_eq_eq.2,
      tAnySubjectAnyPredicate_eq,
      tAnySubjectGivenPredicate_eq]

theorem tGivenSubjectGivenPredicate_eq
    (x y : TPat.GivenSubjectGivenPredicate R) :
    PatOrd.tGivenSubjectGivenPredicate x y =
      rankOrder (objectRank x.object) (objectRank y.object) := by
  cases x <;> cases y <;>
    simp [PatOrd.tGivenSubjectGivenPredicate,
      PatOrd.tGivenSubjectGivenPredicateTag,
      TPat.GivenSubjectGivenPredicate.object,
      objectRank,
      rank_same, rank_lt, rank_gt, given_some, given_none,
      Nat.compare_eq_lt.2, Nat.compare_eq_gt.2, Nat.compare_eq_eq.2,
      tAnySubjectAnyPredicate_eq,
      tAnySubjectGivenPredicate_eq,
      tGivenSubjectAnyPredicate_eq]

theorem tAnySubject_eq
    (x y : TPat.AnySubject R) :
    PatOrd.tAnySubject x y =
      (rankOrder (predicateRank x.predicate) (predicateRank y.predicate)).then
      (rankOrder (objectRank x.object) (objectRank y.object)) := by
  cases x <;> cases y <;>
    simp [PatOrd.tAnySubject,
      PatOrd.tAnySubjectTag,
      TPat.AnySubject.predicate,
      TPat.AnySubject.object,
      predicateRank, objectRank,
      rank_same, rank_lt, rank_gt, given_some, given_none,
      Nat.compare_eq_lt.2, Nat.compare_eq_gt.2, Nat.compare_eq_eq.2,
      tAnySubjectAnyPredicate_eq,
      tAnySubjectGivenPredicate_eq,
      tGivenSubjectAnyPredicate_eq,
      tGivenSubjectGivenPredicate_eq]

theorem tGivenSubject_eq
    (x y : TPat.GivenSubject R) :
    PatOrd.tGivenSubject x y =
      (rankOrder (predicateRank x.predicate) (predicateRank y.predicate)).then
      (rankOrder (objectRank x.object) (objectRank y.object)) := by
  cases x <;> cases y <;>
    simp [PatOrd.tGivenSubject,
      PatOrd.tGivenSubjectTag,
      TPat.GivenSubject.predicate,
      TPat.GivenSubject.object,
      predicateRank, objectRank,
      rank_same, rank_lt, rank_gt, given_some, given_none,
      Nat.compare_eq_lt.2, Nat.compare_eq_gt.2, Nat.compare_eq_eq.2,
      tAnySubjectAnyPredicate_eq,
      tAnySubjectGivenPredicate_eq,
      tGivenSubjectAnyPredicate_eq,
      tGivenSubjectGivenPredicate_eq,
      tAnySubject_eq]

theorem triplePattern_eq
    (x y : CanonicalTriplePattern R) :
    PatOrd.triplePattern x y =
      (rankOrder (subjectRank x.subject) (subjectRank y.subject)).then
      ((rankOrder (predicateRank x.predicate) (predicateRank y.predicate)).then
      (rankOrder (objectRank x.object) (objectRank y.object))) := by
  cases x <;> cases y <;>
    simp [PatOrd.triplePattern,
      PatOrd.triplePatternTag,
      CanonicalTriplePattern.subject,
      CanonicalTriplePattern.predicate,
      CanonicalTriplePattern.object,
      subjectRank, predicateRank, objectRank,
      rank_same, rank_lt, rank_gt, given_some, given_none,
      Nat.compare_eq_lt.2, Nat.compare_eq_gt.2, Nat.compare_eq_eq.2,
      tAnySubjectAnyPredicate_eq,
      tAnySubjectGivenPredicate_eq,
      tGivenSubjectAnyPredicate_eq,
      tGivenSubjectGivenPredicate_eq,
      tAnySubject_eq,
      tGivenSubject_eq]

theorem qAnySubjectAnyPredicateAnyObject_eq
    (x y : QPat.AnySubjectAnyPredicateAnyObject R) :
    PatOrd.qAnySubjectAnyPredicateAnyObject x y =
      rankOrder (graphRank x.graph) (graphRank y.graph) := by
  cases x <;> cases y <;>
    simp [PatOrd.qAnySubjectAnyPredicateAnyObject,
      PatOrd.qAnySubjectAnyPredicateAnyObjectTag,
      QPat.AnySubjectAnyPredicateAnyObject.graph,
      graphRank,
      rank_same, rank_lt, rank_gt, given_some, given_none,
      Nat.compare_eq_lt.2, Nat.compare_eq_gt.2, Nat.compare_eq_eq.2]

theorem qGivenSubjectAnyPredicateAnyObject_eq
    (x y : QPat.GivenSubjectAnyPredicateAnyObject R) :
    PatOrd.qGivenSubjectAnyPredicateAnyObject x y =
      rankOrder (graphRank x.graph) (graphRank y.graph) := by
  cases x <;> cases y <;>
    simp [PatOrd.qGivenSubjectAnyPredicateAnyObject,
      PatOrd.qGivenSubjectAnyPredicateAnyObjectTag,
      QPat.GivenSubjectAnyPredicateAnyObject.graph,
      graphRank,
      rank_same, rank_lt, rank_gt, given_some, given_none,
      Nat.compare_eq_lt.2, Nat.compare_eq_gt.2, Nat.compare_eq_eq.2,
      qAnySubjectAnyPredicateAnyObject_eq]

theorem qAnySubjectGivenPredicateAnyObject_eq
    (x y : QPat.AnySubjectGivenPredicateAnyObject R) :
    PatOrd.qAnySubjectGivenPredicateAnyObject x y =
      rankOrder (graphRank x.graph) (graphRank y.graph) := by
  cases x <;> cases y <;>
    simp [PatOrd.qAnySubjectGivenPredicateAnyObject,
      PatOrd.qAnySubjectGivenPredicateAnyObjectTag,
      QPat.AnySubjectGivenPredicateAnyObject.graph,
      graphRank,
      rank_same, rank_lt, rank_gt, given_some, given_none,
      Nat.compare_eq_lt.2, Nat.compare_eq_gt.2, Nat.compare_eq_eq.2,
      qAnySubjectAnyPredicateAnyObject_eq,
      qGivenSubjectAnyPredicateAnyObject_eq]

theorem qAnySubjectAnyPredicateGivenObject_eq
    (x y : QPat.AnySubjectAnyPredicateGivenObject R) :
    PatOrd.qAnySubjectAnyPredicateGivenObject x y =
      rankOrder (graphRank x.graph) (graphRank y.graph) := by
  cases x <;> cases y <;>
    simp [PatOrd.qAnySubjectAnyPredicateGivenObject,
      PatOrd.qAnySubjectAnyPredicateGivenObjectTag,
      QPat.AnySubjectAnyPredicateGivenObject.graph,
      graphRank,
      rank_same, rank_lt, rank_gt, given_some, given_none,
      Nat.compare_eq_lt.2, Nat.compare_eq_gt.2, Nat.compare_eq_eq.2,
      qAnySubjectAnyPredicateAnyObject_eq,
      qGivenSubjectAnyPredicateAnyObject_eq,
      qAnySubjectGivenPredicateAnyObject_eq]

theorem qAnySubjectGivenPredicateGivenObject_eq
    (x y : QPat.AnySubjectGivenPredicateGivenObject R) :
    PatOrd.qAnySubjectGivenPredicateGivenObject x y =
      rankOrder (graphRank x.graph) (graphRank y.graph) := by
  cases x <;> cases y <;>
    simp [PatOrd.qAnySubjectGivenPredicateGivenObject,
      PatOrd.qAnySubjectGivenPredicateGivenObjectTag,
      QPat.AnySubjectGivenPredicateGivenObject.graph,
      graphRank,
      rank_same, rank_lt, rank_gt, given_some, given_none,
      Nat.compare_eq_lt.2, Nat.compare_eq_gt.2, Nat.compare_eq_eq.2,
      qAnySubjectAnyPredicateAnyObject_eq,
      qGivenSubjectAnyPredicateAnyObject_eq,
      qAnySubjectGivenPredicateAnyObject_eq,
      qAnySubjectAnyPredicateGivenObject_eq]

theorem qGivenSubjectAnyPredicateGivenObject_eq
    (x y : QPat.GivenSubjectAnyPredicateGivenObject R) :
    PatOrd.qGivenSubjectAnyPredicateGivenObject x y =
      rankOrder (graphRank x.graph) (graphRank y.graph) := by
  cases x <;> cases y <;>
    simp [PatOrd.qGivenSubjectAnyPredicateGivenObject,
      PatOrd.qGivenSubjectAnyPredicateGivenObjectTag,
      QPat.GivenSubjectAnyPredicateGivenObject.graph,
      graphRank,
      rank_same, rank_lt, rank_gt, given_some, given_none,
      Nat.compare_eq_lt.2, Nat.compare_eq_gt.2, Nat.compare_eq_eq.2,
      qAnySubjectAnyPredicateAnyObject_eq,
      qGivenSubjectAnyPredicateAnyObject_eq,
      qAnySubjectGivenPredicateAnyObject_eq,
      qAnySubjectAnyPredicateGivenObject_eq,
      qAnySubjectGivenPredicateGivenObject_eq]

theorem qGivenSubjectGivenPredicateAnyObject_eq
    (x y : QPat.GivenSubjectGivenPredicateAnyObject R) :
    PatOrd.qGivenSubjectGivenPredicateAnyObject x y =
      rankOrder (graphRank x.graph) (graphRank y.graph) := by
  cases x <;> cases y <;>
    simp [PatOrd.qGivenSubjectGivenPredicateAnyObject,
      PatOrd.qGivenSubjectGivenPredicateAnyObjectTag,
      QPat.GivenSubjectGivenPredicateAnyObject.graph,
      graphRank,
      rank_same, rank_lt, rank_gt, given_some, given_none,
      Nat.compare_eq_lt.2, Nat.compare_eq_gt.2, Nat.compare_eq_eq.2,
      qAnySubjectAnyPredicateAnyObject_eq,
      qGivenSubjectAnyPredicateAnyObject_eq,
      qAnySubjectGivenPredicateAnyObject_eq,
      qAnySubjectAnyPredicateGivenObject_eq,
      qAnySubjectGivenPredicateGivenObject_eq,
      qGivenSubjectAnyPredicateGivenObject_eq]

theorem qGivenSubjectGivenPredicateGivenObject_eq
    (x y : QPat.GivenSubjectGivenPredicateGivenObject R) :
    PatOrd.qGivenSubjectGivenPredicateGivenObject x y =
      rankOrder (graphRank x.graph) (graphRank y.graph) := by
  cases x <;> cases y <;>
    simp [PatOrd.qGivenSubjectGivenPredicateGivenObject,
      PatOrd.qGivenSubjectGivenPredicateGivenObjectTag,
      QPat.GivenSubjectGivenPredicateGivenObject.graph,
      graphRank,
      rank_same, rank_lt, rank_gt, given_some, given_none,
      Nat.compare_eq_lt.2, Nat.compare_eq_gt.2, Nat.compare_eq_eq.2,
      qAnySubjectAnyPredicateAnyObject_eq,
      qGivenSubjectAnyPredicateAnyObject_eq,
      qAnySubjectGivenPredicateAnyObject_eq,
      qAnySubjectAnyPredicateGivenObject_eq,
      qAnySubjectGivenPredicateGivenObject_eq,
      qGivenSubjectAnyPredicateGivenObject_eq,
      qGivenSubjectGivenPredicateAnyObject_eq]

theorem qAnySubjectAnyPredicate_eq
    (x y : QPat.AnySubjectAnyPredicate R) :
    PatOrd.qAnySubjectAnyPredicate x y =
      (rankOrder (objectRank x.object) (objectRank y.object)).then
      (rankOrder (graphRank x.graph) (graphRank y.graph)) := by
  cases x <;> cases y <;>
    simp [PatOrd.qAnySubjectAnyPredicate,
      PatOrd.qAnySubjectAnyPredicateTag,
      QPat.AnySubjectAnyPredicate.object,
      QPat.AnySubjectAnyPredicate.graph,
      objectRank, graphRank,
      rank_same, rank_lt, rank_gt, given_some, given_none,
      Nat.compare_eq_lt.2, Nat.compare_eq_gt.2, Nat.compare_eq_eq.2,
      qAnySubjectAnyPredicateAnyObject_eq,
      qGivenSubjectAnyPredicateAnyObject_eq,
      qAnySubjectGivenPredicateAnyObject_eq,
      qAnySubjectAnyPredicateGivenObject_eq,
      qAnySubjectGivenPredicateGivenObject_eq,
      qGivenSubjectAnyPredicateGivenObject_eq,
      qGivenSubjectGivenPredicateAnyObject_eq,
      qGivenSubjectGivenPredicateGivenObject_eq]

theorem qAnySubjectGivenPredicate_eq
    (x y : QPat.AnySubjectGivenPredicate R) :
    PatOrd.qAnySubjectGivenPredicate x y =
      (rankOrder (objectRank x.object) (objectRank y.object)).then
      (rankOrder (graphRank x.graph) (graphRank y.graph)) := by
  cases x <;> cases y <;>
    simp [PatOrd.qAnySubjectGivenPredicate,
      PatOrd.qAnySubjectGivenPredicateTag,
      QPat.AnySubjectGivenPredicate.object,
      QPat.AnySubjectGivenPredicate.graph,
      objectRank, graphRank,
      rank_same, rank_lt, rank_gt, given_some, given_none,
      Nat.compare_eq_lt.2, Nat.compare_eq_gt.2, Nat.compare_eq_eq.2,
      qAnySubjectAnyPredicateAnyObject_eq,
      qGivenSubjectAnyPredicateAnyObject_eq,
      qAnySubjectGivenPredicateAnyObject_eq,
      qAnySubjectAnyPredicateGivenObject_eq,
      qAnySubjectGivenPredicateGivenObject_eq,
      qGivenSubjectAnyPredicateGivenObject_eq,
      qGivenSubjectGivenPredicateAnyObject_eq,
      qGivenSubjectGivenPredicateGivenObject_eq,
      qAnySubjectAnyPredicate_eq]

theorem qGivenSubjectAnyPredicate_eq
    (x y : QPat.GivenSubjectAnyPredicate R) :
    PatOrd.qGivenSubjectAnyPredicate x y =
      (rankOrder (objectRank x.object) (objectRank y.object)).then
      (rankOrder (graphRank x.graph) (graphRank y.graph)) := by
  cases x <;> cases y <;>
    simp [PatOrd.qGivenSubjectAnyPredicate,
      PatOrd.qGivenSubjectAnyPredicateTag,
      QPat.GivenSubjectAnyPredicate.object,
      QPat.GivenSubjectAnyPredicate.graph,
      objectRank, graphRank,
      rank_same, rank_lt, rank_gt, given_some, given_none,
      Nat.compare_eq_lt.2, Nat.compare_eq_gt.2, Nat.compare_eq_eq.2,
      qAnySubjectAnyPredicateAnyObject_eq,
      qGivenSubjectAnyPredicateAnyObject_eq,
      qAnySubjectGivenPredicateAnyObject_eq,
      qAnySubjectAnyPredicateGivenObject_eq,
      qAnySubjectGivenPredicateGivenObject_eq,
      qGivenSubjectAnyPredicateGivenObject_eq,
      qGivenSubjectGivenPredicateAnyObject_eq,
      qGivenSubjectGivenPredicateGivenObject_eq,
      qAnySubjectAnyPredicate_eq,
      qAnySubjectGivenPredicate_eq]

theorem qGivenSubjectGivenPredicate_eq
    (x y : QPat.GivenSubjectGivenPredicate R) :
    PatOrd.qGivenSubjectGivenPredicate x y =
      (rankOrder (objectRank x.object) (objectRank y.object)).then
      (rankOrder (graphRank x.graph) (graphRank y.graph)) := by
  cases x <;> cases y <;>
    simp [PatOrd.qGivenSubjectGivenPredicate,
      PatOrd.qGivenSubjectGivenPredicateTag,
      QPat.GivenSubjectGivenPredicate.object,
      QPat.GivenSubjectGivenPredicate.graph,
      objectRank, graphRank,
      rank_same, rank_lt, rank_gt, given_some, given_none,
      Nat.compare_eq_lt.2, Nat.compare_eq_gt.2, Nat.compare_eq_eq.2,
      qAnySubjectAnyPredicateAnyObject_eq,
      qGivenSubjectAnyPredicateAnyObject_eq,
      qAnySubjectGivenPredicateAnyObject_eq,
      qAnySubjectAnyPredicateGivenObject_eq,
      qAnySubjectGivenPredicateGivenObject_eq,
      qGivenSubjectAnyPredicateGivenObject_eq,
      qGivenSubjectGivenPredicateAnyObject_eq,
      qGivenSubjectGivenPredicateGivenObject_eq,
      qAnySubjectAnyPredicate_eq,
      qAnySubjectGivenPredicate_eq,
      qGivenSubjectAnyPredicate_eq]

theorem qAnySubject_eq
    (x y : QPat.AnySubject R) :
    PatOrd.qAnySubject x y =
      (rankOrder (predicateRank x.predicate) (predicateRank y.predicate)).then
      ((rankOrder (objectRank x.object) (objectRank y.object)).then
      (rankOrder (graphRank x.graph) (graphRank y.graph))) := by
  cases x <;> cases y <;>
    simp [PatOrd.qAnySubject,
      PatOrd.qAnySubjectTag,
      QPat.AnySubject.predicate,
      QPat.AnySubject.object,
      QPat.AnySubject.graph,
      predicateRank, objectRank, graphRank,
      rank_same, rank_lt, rank_gt, given_some, given_none,
      Nat.compare_eq_lt.2, Nat.compare_eq_gt.2, Nat.compare_eq_eq.2,
      qAnySubjectAnyPredicateAnyObject_eq,
      qGivenSubjectAnyPredicateAnyObject_eq,
      qAnySubjectGivenPredicateAnyObject_eq,
      qAnySubjectAnyPredicateGivenObject_eq,
      qAnySubjectGivenPredicateGivenObject_eq,
      qGivenSubjectAnyPredicateGivenObject_eq,
      qGivenSubjectGivenPredicateAnyObject_eq,
      qGivenSubjectGivenPredicateGivenObject_eq,
      qAnySubjectAnyPredicate_eq,
      qAnySubjectGivenPredicate_eq,
      qGivenSubjectAnyPredicate_eq,
      qGivenSubjectGivenPredicate_eq]

theorem qGivenSubject_eq
    (x y : QPat.GivenSubject R) :
    PatOrd.qGivenSubject x y =
      (rankOrder (predicateRank x.predicate) (predicateRank y.predicate)).then
      ((rankOrder (objectRank x.object) (objectRank y.object)).then
      (rankOrder (graphRank x.graph) (graphRank y.graph))) := by
  cases x <;> cases y <;>
    simp [PatOrd.qGivenSubject,
      PatOrd.qGivenSubjectTag,
      QPat.GivenSubject.predicate,
      QPat.GivenSubject.object,
      QPat.GivenSubject.graph,
      predicateRank, objectRank, graphRank,
      rank_same, rank_lt, rank_gt, given_some, given_none,
      Nat.compare_eq_lt.2, Nat.compare_eq_gt.2, Nat.compare_eq_eq.2,
      qAnySubjectAnyPredicateAnyObject_eq,
      qGivenSubjectAnyPredicateAnyObject_eq,
      qAnySubjectGivenPredicateAnyObject_eq,
      qAnySubjectAnyPredicateGivenObject_eq,
      qAnySubjectGivenPredicateGivenObject_eq,
      qGivenSubjectAnyPredicateGivenObject_eq,
      qGivenSubjectGivenPredicateAnyObject_eq,
      qGivenSubjectGivenPredicateGivenObject_eq,
      qAnySubjectAnyPredicate_eq,
      qAnySubjectGivenPredicate_eq,
      qGivenSubjectAnyPredicate_eq,
      qGivenSubjectGivenPredicate_eq,
      qAnySubject_eq]

theorem quadPattern_eq
    (x y : CanonicalQuadPattern R) :
    PatOrd.quadPattern x y =
      (rankOrder (subjectRank x.subject) (subjectRank y.subject)).then
      ((rankOrder (predicateRank x.predicate) (predicateRank y.predicate)).then
      ((rankOrder (objectRank x.object) (objectRank y.object)).then
      (rankOrder (graphRank x.graph) (graphRank y.graph)))) := by
  cases x <;> cases y <;>
    simp [PatOrd.quadPattern,
      PatOrd.quadPatternTag,
      CanonicalQuadPattern.subject,
      CanonicalQuadPattern.predicate,
      CanonicalQuadPattern.object,
      CanonicalQuadPattern.graph,
      subjectRank, predicateRank, objectRank, graphRank,
      rank_same, rank_lt, rank_gt, given_some, given_none,
      Nat.compare_eq_lt.2, Nat.compare_eq_gt.2, Nat.compare_eq_eq.2,
      qAnySubjectAnyPredicateAnyObject_eq,
      qGivenSubjectAnyPredicateAnyObject_eq,
      qAnySubjectGivenPredicateAnyObject_eq,
      qAnySubjectAnyPredicateGivenObject_eq,
      qAnySubjectGivenPredicateGivenObject_eq,
      qGivenSubjectAnyPredicateGivenObject_eq,
      qGivenSubjectGivenPredicateAnyObject_eq,
      qGivenSubjectGivenPredicateGivenObject_eq,
      qAnySubjectAnyPredicate_eq,
      qAnySubjectGivenPredicate_eq,
      qGivenSubjectAnyPredicate_eq,
      qGivenSubjectGivenPredicate_eq,
      qAnySubject_eq,
      qGivenSubject_eq]

theorem rank_trans [Std.TransOrd R] : Std.TransCmp (rankOrder (R := R)) := by
  have : (rankOrder : Nat × Option (Option R) → _ → Ordering) =
      compareLex (compareOn Prod.fst) (compareOn Prod.snd) := rfl
  rw [this]
  infer_instance

theorem rank_eq [Std.LawfulEqOrd R] {a b : Nat × Option (Option R)} :
    rankOrder a b = .eq ↔ a = b := by
  obtain ⟨m, a⟩ := a
  obtain ⟨n, b⟩ := b
  simp [rankOrder, Ordering.then_eq_eq]

omit [Ord R] in
theorem subjectRank_inj {x y : PatternSubject R} (h : subjectRank x = subjectRank y) : x = y := by
  cases x <;> cases y <;> simp_all [subjectRank]

omit [Ord R] in
theorem predicateRank_inj {x y : PatternPredicate R} (h : predicateRank x = predicateRank y) :
    x = y := by
  cases x <;> cases y <;> simp_all [predicateRank]

omit [Ord R] in
theorem objectRank_inj {x y : PatternObject R} (h : objectRank x = objectRank y) : x = y := by
  cases x <;> cases y <;> simp_all [objectRank]

omit [Ord R] in
theorem graphRank_inj {x y : PatternGraph R} (h : graphRank x = graphRank y) : x = y := by
  cases x <;> cases y <;> simp_all [graphRank]

theorem quadPattern_trans [Std.TransOrd R] : Std.TransCmp (PatOrd.quadPattern (T := R)) := by
  letI : Ord (Nat × Option (Option R)) := ⟨rankOrder⟩
  haveI : Std.TransOrd (Nat × Option (Option R)) := rank_trans
  have : (PatOrd.quadPattern : CanonicalQuadPattern R → _ → Ordering) =
      compareLex (compareOn fun p => subjectRank p.subject)
        (compareLex (compareOn fun p => predicateRank p.predicate)
          (compareLex (compareOn fun p => objectRank p.object)
            (compareOn fun p => graphRank p.graph))) := by
    funext p q
    exact quadPattern_eq p q
  rw [this]
  infer_instance

theorem triplePattern_trans [Std.TransOrd R] : Std.TransCmp (PatOrd.triplePattern (T := R)) := by
  letI : Ord (Nat × Option (Option R)) := ⟨rankOrder⟩
  haveI : Std.TransOrd (Nat × Option (Option R)) := rank_trans
  have : (PatOrd.triplePattern : CanonicalTriplePattern R → _ → Ordering) =
      compareLex (compareOn fun p => subjectRank p.subject)
        (compareLex (compareOn fun p => predicateRank p.predicate)
          (compareOn fun p => objectRank p.object)) := by
    funext p q
    exact triplePattern_eq p q
  rw [this]
  infer_instance

theorem rank_open (n : Nat × Option (Option R)) : (rankOrder (0, none) n).isLE := by
  obtain ⟨_ | n, o⟩ := n
  · rw [rank_same]
    cases o <;> rfl
  · rw [rank_lt (Nat.succ_pos n)]
    rfl

theorem then_isLE : ∀ {a b : Ordering}, a.isLE → b.isLE → (a.then b).isLE := by decide

end PatternOrder

end RdfTypes.Proof
