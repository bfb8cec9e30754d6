import Verif.Model.PatternOrder
import Verif.Spec.PatternOrder
import Verif.Spec.Pattern
import Verif.Proof.PatternOrder
import Verif.Property.PatternForms

/-!
# C99: the order of canonical patterns
-/

namespace RdfTypes.Property

open Spec

variable {R V : Type}

/-- Canonical patterns are in the order of the first position at which they differ, and so are
the parts taken from them. -/
theorem C99_positions [Ord R] :
    (∀ p q : CanonicalQuadPattern R, PatOrd.quadPattern p q = firstUnequal
      [(subjectRank p.subject, subjectRank q.subject),
        (predicateRank p.predicate, predicateRank q.predicate),
        (objectRank p.object, objectRank q.object), (graphRank p.graph, graphRank q.graph)]) ∧
    (∀ p q : CanonicalTriplePattern R, PatOrd.triplePattern p q = firstUnequal
      [(subjectRank p.subject, subjectRank q.subject),
        (predicateRank p.predicate, predicateRank q.predicate),
        (objectRank p.object, objectRank q.object)]) ∧
    (∀ x y : PatternSubject R, PatOrd.subject x y = rankOrder (subjectRank x) (subjectRank y)) ∧
    (∀ x y : PatternPredicate R,
      PatOrd.predicate x y = rankOrder (predicateRank x) (predicateRank y)) ∧
    (∀ x y : PatternObject R, PatOrd.object x y = rankOrder (objectRank x) (objectRank y)) ∧
    ∀ x y : PatternGraph R, PatOrd.graph x y = rankOrder (graphRank x) (graphRank y) := by
  refine ⟨fun p q => ?_, fun p q => ?_, Proof.PatternOrder.subject_eq,
    Proof.PatternOrder.predicate_eq, Proof.PatternOrder.object_eq, Proof.PatternOrder.graph_eq⟩
  · rw [Proof.PatternOrder.quadPattern_eq]
    simp [firstUnequal]
  · rw [Proof.PatternOrder.triplePattern_eq]
    simp [firstUnequal]

/-- It is a total order if that of the terms is: patterns that compare equal are equal, the
order is reversed if they are exchanged, and it is transitive. -/
theorem C99_total [Ord R] [Std.TransOrd R] [Std.LawfulEqOrd R] :
    ((∀ p q : CanonicalQuadPattern R, PatOrd.quadPattern p q = .eq ↔ p = q) ∧
      (∀ p q : CanonicalQuadPattern R, PatOrd.quadPattern q p = (PatOrd.quadPattern p q).swap) ∧
      ∀ p q r : CanonicalQuadPattern R, (PatOrd.quadPattern p q).isLE →
        (PatOrd.quadPattern q r).isLE → (PatOrd.quadPattern p r).isLE) ∧
    ((∀ p q : CanonicalTriplePattern R, PatOrd.triplePattern p q = .eq ↔ p = q) ∧
      (∀ p q : CanonicalTriplePattern R,
        PatOrd.triplePattern q p = (PatOrd.triplePattern p q).swap) ∧
      ∀ p q r : CanonicalTriplePattern R, (PatOrd.triplePattern p q).isLE →
        (PatOrd.triplePattern q r).isLE → (PatOrd.triplePattern p r).isLE) := by
  have hq := Proof.PatternOrder.quadPattern_trans (R := R)
  have ht := Proof.PatternOrder.triplePattern_trans (R := R)
  refine ⟨⟨fun p q => ⟨fun h => ?_, fun h => ?_⟩, fun p q => Std.OrientedCmp.eq_swap,
    fun p q r => Std.TransCmp.isLE_trans⟩, fun p q => ⟨fun h => ?_, fun h => ?_⟩,
    fun p q => Std.OrientedCmp.eq_swap, fun p q r => Std.TransCmp.isLE_trans⟩
  · simp only [Proof.PatternOrder.quadPattern_eq, Ordering.then_eq_eq,
      Proof.PatternOrder.rank_eq] at h
    exact Proof.quad_parts_inj (Proof.PatternOrder.subjectRank_inj h.1)
      (Proof.PatternOrder.predicateRank_inj h.2.1) (Proof.PatternOrder.objectRank_inj h.2.2.1)
      (Proof.PatternOrder.graphRank_inj h.2.2.2)
  · rw [h]
    exact Std.ReflCmp.compare_self
  · simp only [Proof.PatternOrder.triplePattern_eq, Ordering.then_eq_eq,
      Proof.PatternOrder.rank_eq] at h
    exact Proof.triple_parts_inj (Proof.PatternOrder.subjectRank_inj h.1)
      (Proof.PatternOrder.predicateRank_inj h.2.1) (Proof.PatternOrder.objectRank_inj h.2.2)
  · rw [h]
    exact Std.ReflCmp.compare_self

/-- So two canonical patterns compare equal exactly if they match the same statements, and the
canonical forms of two patterns exactly if these have the same instances, if there are two
terms. -/
theorem C99_matches [DecidableEq V] [Ord R] [Std.TransOrd R] [Std.LawfulEqOrd R] {u v : R}
    (huv : u ≠ v) :
    (∀ p q : CanonicalQuadPattern R, PatOrd.quadPattern p q = .eq ↔
      ∀ x, matchesQuad p x ↔ matchesQuad q x) ∧
    (∀ p q : CanonicalTriplePattern R, PatOrd.triplePattern p q = .eq ↔
      ∀ x, matchesTriple p x ↔ matchesTriple q x) ∧
    (∀ a b : QuadPattern R V, PatOrd.quadPattern (.fromPattern a) (.fromPattern b) = .eq ↔
      ∀ x, instanceOfQuad a x ↔ instanceOfQuad b x) ∧
    ∀ a b : TriplePattern R V, PatOrd.triplePattern (.fromPattern a) (.fromPattern b) = .eq ↔
      ∀ x, instanceOfTriple a x ↔ instanceOfTriple b x := by
  obtain ⟨⟨h1, -⟩, h2, -⟩ := C99_total (R := R)
  obtain ⟨k1, k2, k3, k4⟩ := C69_same_statements (X := V) huv
  exact ⟨fun p q => (h1 p q).trans ⟨fun e x => by rw [e], k2 p q⟩,
    fun p q => (h2 p q).trans ⟨fun e x => by rw [e], k1 p q⟩,
    fun a b => (h1 _ _).trans (k4 a b), fun a b => (h2 _ _).trans (k3 a b)⟩

/-- A pattern that matches every statement comes before all others, if there are two terms. -/
theorem C99_first [Ord R] {u v : R} (huv : u ≠ v) :
    (∀ p : CanonicalQuadPattern R, (∀ x, matchesQuad p x) → ∀ q, (PatOrd.quadPattern p q).isLE) ∧
    ∀ p : CanonicalTriplePattern R, (∀ x, matchesTriple p x) →
      ∀ q, (PatOrd.triplePattern p q).isLE := by
  obtain ⟨k1, k2, -⟩ := C69_same_statements (X := Nat) huv
  constructor
  · intro p hp q
    have e : p = .anySubject (.anyPredicate (.anyObject .anyGraph)) :=
      k2 _ _ fun x => ⟨fun _ => by trivial, fun _ => hp x⟩
    subst e
    rw [Proof.PatternOrder.quadPattern_eq]
    have h := fun n => Proof.PatternOrder.rank_open (R := R) n
    have t := fun {a b} => Proof.PatternOrder.then_isLE (a := a) (b := b)
    exact t (h _) (t (h _) (t (h _) (h _)))
  · intro p hp q
    have e : p = .anySubject (.anyPredicate .anyObject) :=
      k1 _ _ fun x => ⟨fun _ => by trivial, fun _ => hp x⟩
    subst e
    rw [Proof.PatternOrder.triplePattern_eq]
    have h := fun n => Proof.PatternOrder.rank_open (R := R) n
    have t := fun {a b} => Proof.PatternOrder.then_isLE (a := a) (b := b)
    exact t (h _) (t (h _) (h _))

/-- The patterns `?x ?y ?y` and `?x ?y 0` are in this order, whatever the graph. -/
example : PatOrd.quadPattern
    (.fromPattern (⟨.var 0, .var 1, .var 1, some (.resource 9)⟩ : QuadPattern Nat Nat))
    (.fromPattern (⟨.var 0, .var 1, .resource 0, none⟩ : QuadPattern Nat Nat)) = .lt := by
  decide +kernel

/-- The default graph comes before a named graph. -/
example : PatOrd.quadPattern
    (.fromPattern (⟨.resource 1, .var 1, .var 1, some (.resource 9)⟩ : QuadPattern Nat Nat))
    (.fromPattern (⟨.resource 1, .var 1, .var 1, none⟩ : QuadPattern Nat Nat)) = .gt := by
  decide +kernel

/-- A pattern that matches everything, before one that does not. -/
example : (0 : Nat) ≠ 1 ∧ PatOrd.triplePattern
    (.fromPattern (⟨.var 0, .var 1, .var 2⟩ : TriplePattern Nat Nat))
    (.fromPattern (⟨.var 0, .var 0, .var 2⟩ : TriplePattern Nat Nat)) = .lt := by
  decide +kernel

end RdfTypes.Property
