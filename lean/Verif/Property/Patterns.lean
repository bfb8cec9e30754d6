import Verif.Proof.Pattern

/-!
# C28–C36: canonical patterns

`Spec.matchesTriple` and `Spec.matchesQuad` say which statements a canonical
pattern stands for (`Verif/Spec/Pattern.lean`); `Spec.instanceOfTriple` and
`Spec.instanceOfQuad` say it for patterns made of terms and variables.
-/

namespace RdfTypes.Property

open Spec

variable {T U V X : Type}

/-! ## C28 -/

/-- C28: the canonical form of a triple pattern matches exactly the triples
obtained from the pattern by some assignment of terms to variables, and does not
depend on the names of the variables. -/
theorem C28_triple_pattern [DecidableEq X] (pat : TriplePattern T X) :
    (∀ t, matchesTriple (.fromPattern pat) t ↔ instanceOfTriple pat t) ∧
    (∀ {Y : Type} [DecidableEq Y] (ρ : X → Y), (∀ x y, ρ x = ρ y → x = y) →
      CanonicalTriplePattern.fromPattern (renameTriple ρ pat) = .fromPattern pat) :=
  ⟨Proof.fromPattern_triple pat, fun ρ h => Proof.fromPattern_rename pat ρ h⟩

/-- The pattern `?0 7 ?0`. -/
def samplePattern : TriplePattern Nat Nat := ⟨.var 0, .resource 7, .var 0⟩

example : instanceOfTriple samplePattern ⟨3, 7, 3⟩ ∧ ¬ instanceOfTriple samplePattern ⟨3, 7, 4⟩ := by
  simp only [← (C28_triple_pattern samplePattern).1]
  decide

/-! ## C29 -/

/-- C29: the same for quad patterns, with the rules of `Spec.instanceOfQuad` for
the graph position. -/
theorem C29_quad_pattern [DecidableEq X] (pat : QuadPattern T X) :
    (∀ q, matchesQuad (.fromPattern pat) q ↔ instanceOfQuad pat q) ∧
    (∀ {Y : Type} [DecidableEq Y] (ρ : X → Y), (∀ x y, ρ x = ρ y → x = y) →
      CanonicalQuadPattern.fromPattern (renameQuad ρ pat) = .fromPattern pat) :=
  ⟨Proof.fromPattern_quad pat, fun ρ h => Proof.fromPattern_quad_rename pat ρ h⟩

/-- The pattern `?0 ?1 7` in graph `?1`. -/
def sampleQuadPattern : QuadPattern Nat Nat := ⟨.var 0, .var 1, .resource 7, some (.var 1)⟩

example : instanceOfQuad sampleQuadPattern ⟨3, 5, 7, some 5⟩ ∧
    ¬ instanceOfQuad sampleQuadPattern ⟨3, 5, 7, some 3⟩ ∧
    ¬ instanceOfQuad sampleQuadPattern ⟨3, 5, 7, none⟩ := by
  simp only [← (C29_quad_pattern sampleQuadPattern).1]
  decide

/-- A graph variable used nowhere else matches the default graph and any other. -/
example : instanceOfQuad (⟨.var 0, .var 1, .resource 7, some (.var 2)⟩ : QuadPattern Nat Nat)
      ⟨3, 5, 7, none⟩ ∧
    instanceOfQuad (⟨.var 0, .var 1, .resource 7, some (.var 2)⟩ : QuadPattern Nat Nat)
      ⟨3, 5, 7, some 9⟩ := by
  simp only [← (C29_quad_pattern _).1]
  decide

/-! ## C30 -/

/-- C30: patterns built from statements and from optional terms. A triple
without graph matches in every graph; an absent outer graph option matches every
graph, and a present one exactly the graph it holds. -/
theorem C30_from_statements :
    (∀ (t : Triple T) u, matchesTriple (.fromTriple t) u ↔ u = t) ∧
    (∀ (t : Triple (Option T)) u, matchesTriple (.fromOptionTriple t) u ↔
      optionHolds t.s u.s ∧ optionHolds t.p u.p ∧ optionHolds t.o u.o) ∧
    (∀ (t : Triple T) (q : Quad T), matchesQuad (.fromTriple t) q ↔
      q.s = t.s ∧ q.p = t.p ∧ q.o = t.o) ∧
    (∀ (q : Quad T) r, matchesQuad (.fromQuad q) r ↔ r = q) ∧
    (∀ (t : Triple (Option T)) (q : Quad T), matchesQuad (.fromOptionTriple t) q ↔
      optionHolds t.s q.s ∧ optionHolds t.p q.p ∧ optionHolds t.o q.o) ∧
    (∀ (x : Quad (Option T)) (q : Quad T), matchesQuad (.fromOptionQuad x) q ↔
      optionHolds x.s q.s ∧ optionHolds x.p q.p ∧ optionHolds x.o q.o ∧
        optionHolds x.g q.g) := by
  refine ⟨Proof.fromTriple_matches, Proof.fromOptionTriple_matches, fun t q => ?_,
    Proof.quad_fromQuad_matches, fun t q => ?_, Proof.quad_fromOptionQuad_matches⟩
  · rw [Proof.quad_fromTriple_matches]
    cases t
    simp
  · rw [Proof.quad_fromOptionTriple_eq, Proof.quad_fromOptionQuad_matches]
    simp [optionHolds]

example : matchesQuad (.fromOptionQuad ⟨some 1, none, some 3, some none⟩) (⟨1, 2, 3, none⟩ : Quad Nat)
    ∧ ¬ matchesQuad (.fromOptionQuad ⟨some 1, none, some 3, some none⟩) (⟨1, 2, 3, some 4⟩ : Quad Nat)
    ∧ matchesQuad (.fromOptionQuad ⟨some 1, none, some 3, none⟩) (⟨1, 2, 3, some 4⟩ : Quad Nat) := by
  decide

/-! ## C31 -/

/-- C31: the parts of a canonical pattern determine it, and the pattern matches
exactly the statements of which each part holds. -/
theorem C31_parts :
    (∀ x y : CanonicalTriplePattern T, x.subject = y.subject → x.predicate = y.predicate →
      x.object = y.object → x = y) ∧
    (∀ (x : CanonicalTriplePattern T) t, matchesTriple x t ↔ subjectHolds x.subject t.s ∧
      predicateHolds x.predicate t.s t.p ∧ objectHolds x.object t.s t.p t.o) ∧
    (∀ x y : CanonicalQuadPattern T, x.intoParts = y.intoParts → x = y) ∧
    (∀ x : CanonicalQuadPattern T, x.intoParts = (x.subject, x.predicate, x.object, x.graph)) ∧
    (∀ (x : CanonicalQuadPattern T) q, matchesQuad x q ↔ subjectHolds x.subject q.s ∧
      predicateHolds x.predicate q.s q.p ∧ objectHolds x.object q.s q.p q.o ∧
      graphHolds x.graph q.s q.p q.o q.g) := by
  refine ⟨fun x y => Proof.triple_parts_inj, Proof.matchesTriple_iff_parts, fun x y h => ?_,
    Proof.intoParts_eq, Proof.matchesQuad_iff_parts⟩
  simp only [Proof.intoParts_eq, Prod.mk.injEq] at h
  exact Proof.quad_parts_inj h.1 h.2.1 h.2.2.1 h.2.2.2

example (t : Triple Nat) : matchesTriple (.fromPattern samplePattern) t ↔
    True ∧ t.p = 7 ∧ t.o = t.s :=
  C31_parts.2.1 (.fromPattern samplePattern) t

/-- C31: `id` of a part is the only term that matching statements have there, if there is only
one. -/
theorem C31_ids {a b : T} (hab : a ≠ b) (c : T) (x : CanonicalTriplePattern T)
    (y : CanonicalQuadPattern T) :
    (x.subject.id = some c ↔ ∀ t, matchesTriple x t → t.s = c) ∧
    (x.predicate.id = some c ↔ ∀ t, matchesTriple x t → t.p = c) ∧
    (x.object.id = some c ↔ ∀ t, matchesTriple x t → t.o = c) ∧
    (y.subject.id = some c ↔ ∀ q, matchesQuad y q → q.s = c) ∧
    (y.predicate.id = some c ↔ ∀ q, matchesQuad y q → q.p = c) ∧
    (y.object.id = some c ↔ ∀ q, matchesQuad y q → q.o = c) := by
  obtain ⟨d, hd⟩ : ∃ d, d ≠ c := by
    by_cases h : a = c
    · exact ⟨b, fun e => hab (h.trans e.symm)⟩
    · exact ⟨a, h⟩
  obtain ⟨h1, h2, h3⟩ := Proof.triple_ids hd x
  obtain ⟨h4, h5, h6⟩ := Proof.quad_ids hd y
  exact ⟨h1, h2, h3, h4, h5, h6⟩

/-- `?x 7 ?x`: the predicate is known, the others are not. -/
example : ((.fromPattern samplePattern : CanonicalTriplePattern Nat)).predicate.id = some 7 ∧
    ((.fromPattern samplePattern : CanonicalTriplePattern Nat)).object.id = none := by decide

/-- C31: `into_triple` splits a quad pattern into a triple pattern and a graph
part that match together what the quad pattern matches, and loses nothing. -/
theorem C31_into_triple :
    (∀ (x : CanonicalQuadPattern T) q, matchesQuad x q ↔
      matchesTriple x.intoTriple.1 ⟨q.s, q.p, q.o⟩ ∧
        graphHolds x.intoTriple.2 q.s q.p q.o q.g) ∧
    (∀ x y : CanonicalQuadPattern T, x.intoTriple = y.intoTriple → x = y) := by
  constructor
  · intro x q
    obtain ⟨h1, h2, h3, h4⟩ := Proof.intoTriple_parts x
    rw [Proof.matchesQuad_iff_parts, Proof.matchesTriple_iff_parts, h1, h2, h3, h4]
    simp [and_assoc]
  · intro x y h
    obtain ⟨h1, h2, h3, h4⟩ := Proof.intoTriple_parts x
    obtain ⟨k1, k2, k3, k4⟩ := Proof.intoTriple_parts y
    rw [h] at h1 h2 h3 h4
    exact Proof.quad_parts_inj (h1.symm.trans k1) (h2.symm.trans k2) (h3.symm.trans k3)
      (h4.symm.trans k4)

example (q : Quad Nat) :
    matchesQuad (.anySubject (.givenPredicate 7 (.sameAsSubject (.givenGraph (some 4))))) q ↔
    (q.p = 7 ∧ q.o = q.s) ∧ q.g = some 4 :=
  C31_into_triple.1 (.anySubject (.givenPredicate 7 (.sameAsSubject (.givenGraph (some 4))))) q

/-- C31: `filter_triple` decides the object part. -/
theorem C31_filter_triple [DecidableEq T] (x : PatternObject T) (t : Triple T) :
    x.filterTriple t = true ↔ objectHolds x t.s t.p t.o := by
  cases x <;> simp [PatternObject.filterTriple, objectHolds]

example : matchesQuad
    (.anySubject (.sameAsSubject (.anyObject .sameAsObject)) : CanonicalQuadPattern Nat)
    ⟨1, 1, 2, some 2⟩ := by decide

/-! ## C32 -/

/-- C32: adding a graph part to a triple pattern. -/
theorem C32_graph_part [DecidableEq X] :
    (∀ (x : CanonicalTriplePattern T) (q : Quad T), matchesQuad x.withAnyGraph q ↔
      matchesTriple x ⟨q.s, q.p, q.o⟩) ∧
    (∀ (pat : TriplePattern T X) (q : Quad T), matchesQuad (.fromTriplePattern pat) q ↔
      q.g = none ∧ instanceOfTriple pat ⟨q.s, q.p, q.o⟩) :=
  ⟨Proof.withAnyGraph_matches, Proof.fromTriplePattern_matches⟩

example : ∃ q : Quad Nat, matchesQuad (.fromTriplePattern samplePattern) q ∧
    ¬ matchesQuad (.fromTriplePattern samplePattern) ⟨q.s, q.p, q.o, some 0⟩ :=
  ⟨⟨3, 7, 3, none⟩, by decide⟩

/-! ## C33 -/

/-- C33: `set_subject` on an unbound subject keeps exactly the matched triples
with that subject; on a bound subject it replaces it; it returns the former
subject part. -/
theorem C33_set_subject (x : CanonicalTriplePattern T) (s : T) :
    (x.subject = .any → ∀ t, matchesTriple (x.setSubject s).2 t ↔ matchesTriple x t ∧ t.s = s) ∧
    (∀ s', x.subject = .given s' → ∀ t, matchesTriple (x.setSubject s).2 t ↔
      t.s = s ∧ matchesTriple x ⟨s', t.p, t.o⟩) ∧
    (x.setSubject s).1 = x.subject ∧ x.withSubject s = (x.setSubject s).2 :=
  ⟨Proof.setSubject_any x s, fun s' => Proof.setSubject_given x s s', Proof.setSubject_old x s, rfl⟩

example : (CanonicalTriplePattern.fromPattern samplePattern).subject = .any ∧
    matchesTriple ((CanonicalTriplePattern.fromPattern samplePattern).setSubject 4).2 ⟨4, 7, 4⟩ ∧
    ¬ matchesTriple ((CanonicalTriplePattern.fromPattern samplePattern).setSubject 4).2 ⟨4, 7, 5⟩ := by
  decide

/-! ## C34 -/

/-- The full claim C34: binding an unbound predicate keeps exactly the matched
triples with that predicate. -/
def C34_claim (T : Type) : Prop :=
  ∀ (x : CanonicalTriplePattern T) (p : T), (∀ p', x.predicate ≠ .given p') →
    ∀ t, matchesTriple (x.setPredicate p).2 t ↔ matchesTriple x t ∧ t.p = p

/-- C34, proved part: for every pattern except `?x ?y ?x` (subject and predicate
different variables, object the subject again). Missing: that pattern, for which
the claim is false (`C34_false`). The replacement of a bound predicate and the
returned value are right for all patterns. -/
theorem C34_set_predicate_partial (x : CanonicalTriplePattern T) (p : T) :
    ((∀ p', x.predicate ≠ .given p') →
      ¬ (x.subject = .any ∧ x.predicate = .any ∧ x.object = .sameAsSubject) →
      ∀ t, matchesTriple (x.setPredicate p).2 t ↔ matchesTriple x t ∧ t.p = p) ∧
    (∀ p', x.predicate = .given p' → ∀ t, matchesTriple (x.setPredicate p).2 t ↔
      t.p = p ∧ matchesTriple x ⟨t.s, p', t.o⟩) ∧
    (x.setPredicate p).1 = x.predicate ∧ x.withPredicate p = (x.setPredicate p).2 := by
  refine ⟨fun h hx => Proof.setPredicate_free x p h ?_, fun p' => Proof.setPredicate_given x p p',
    Proof.setPredicate_old x p, rfl⟩
  rintro rfl
  exact hx ⟨rfl, rfl, rfl⟩

/-- `?x ?y ?y`. -/
example (t : Triple Nat) :
    matchesTriple
      ((CanonicalTriplePattern.anySubject (.anyPredicate .sameAsPredicate)).setPredicate 7).2 t ↔
    t.o = t.p ∧ t.p = 7 :=
  (C34_set_predicate_partial (.anySubject (.anyPredicate .sameAsPredicate)) 7).1
    (fun _ h => by cases h) (fun h => by cases h.2.2) t

/-- C34 fails on `?x ?y ?x`: the pattern obtained forgets that the object equals
the subject, so that it matches every triple with the bound predicate. -/
theorem C34_forgets (x : CanonicalTriplePattern T) (p : T)
    (hx : x.subject = .any ∧ x.predicate = .any ∧ x.object = .sameAsSubject) (t : Triple T) :
    matchesTriple (x.setPredicate p).2 t ↔ t.p = p := by
  have : x = .anySubject (.anyPredicate .sameAsSubject) :=
    Proof.triple_parts_inj hx.1 hx.2.1 hx.2.2
  subst this
  simp [CanonicalTriplePattern.setPredicate, TPat.AnySubject.setPredicate, matchesTriple]

example : matchesTriple
    ((CanonicalTriplePattern.anySubject (.anyPredicate .sameAsSubject)).setPredicate 7).2
    ⟨1, 7, 2⟩ :=
  (C34_forgets (.anySubject (.anyPredicate .sameAsSubject)) 7 ⟨rfl, rfl, rfl⟩ ⟨1, 7, 2⟩).2 rfl

/-- C34 as stated is false. -/
theorem C34_false : ¬ C34_claim Nat := by
  intro h
  have := h (.fromPattern (⟨.var 0, .var 1, .var 0⟩ : TriplePattern Nat Nat)) 5 nofun ⟨1, 5, 2⟩
  revert this
  decide

example : ∃ x : CanonicalTriplePattern Nat, (∀ p', x.predicate ≠ .given p') ∧
    ¬ (x.subject = .any ∧ x.predicate = .any ∧ x.object = .sameAsSubject) ∧
    matchesTriple (x.setPredicate 5).2 ⟨5, 5, 1⟩ :=
  ⟨.fromPattern (⟨.var 0, .var 0, .var 1⟩ : TriplePattern Nat Nat), nofun, by decide, by decide⟩

/-! ## C35 -/

/-- The full claim C35: binding an unbound object keeps exactly the matched
triples with that object, and the former object part is returned. -/
def C35_claim (T : Type) : Prop :=
  ∀ (x : CanonicalTriplePattern T) (o : T), (∀ o', x.object ≠ .given o') →
    (∀ t, matchesTriple (x.setObject o).2 t ↔ matchesTriple x t ∧ t.o = o) ∧
      (x.setObject o).1 = x.object

/-- C35, proved part: the obtained pattern is right for every pattern except
`?x p ?x` (given predicate, object the subject again), and the returned value for
every pattern whose object part is not `SameAsPredicate`. Missing: those, for
which the claim is false (`C35_false`). -/
theorem C35_set_object_partial (x : CanonicalTriplePattern T) (o : T) :
    ((∀ o', x.object ≠ .given o') →
      ¬ (x.subject = .any ∧ (∃ p, x.predicate = .given p) ∧ x.object = .sameAsSubject) →
      ∀ t, matchesTriple (x.setObject o).2 t ↔ matchesTriple x t ∧ t.o = o) ∧
    (∀ o', x.object = .given o' → ∀ t, matchesTriple (x.setObject o).2 t ↔
      t.o = o ∧ matchesTriple x ⟨t.s, t.p, o'⟩) ∧
    (x.object ≠ .sameAsPredicate → (x.setObject o).1 = x.object) ∧
    x.withObject o = (x.setObject o).2 := by
  refine ⟨fun h hx => Proof.setObject_free x o h ?_, fun o' => Proof.setObject_given x o o',
    Proof.setObject_old x o, rfl⟩
  rintro p rfl
  exact hx ⟨rfl, ⟨p, rfl⟩, rfl⟩

/-- `?x ?y ?x`. -/
example (t : Triple Nat) :
    matchesTriple
      ((CanonicalTriplePattern.anySubject (.anyPredicate .sameAsSubject)).setObject 7).2 t ↔
    t.o = t.s ∧ t.o = 7 :=
  (C35_set_object_partial (.anySubject (.anyPredicate .sameAsSubject)) 7).1
    (fun _ h => by cases h) (fun ⟨_, ⟨_, h⟩, _⟩ => by cases h) t

/-- C35 fails on `?x p ?x`: the obtained pattern forgets that the subject equals
the object. -/
theorem C35_forgets (x : CanonicalTriplePattern T) (p o : T)
    (hx : x.subject = .any ∧ x.predicate = .given p ∧ x.object = .sameAsSubject) (t : Triple T) :
    matchesTriple (x.setObject o).2 t ↔ t.p = p ∧ t.o = o := by
  have : x = .anySubject (.givenPredicate p .sameAsSubject) :=
    Proof.triple_parts_inj hx.1 hx.2.1 hx.2.2
  subst this
  simp [CanonicalTriplePattern.setObject, TPat.AnySubject.setObject,
    TPat.AnySubjectGivenPredicate.setObject, matchesTriple]

example : matchesTriple
    ((CanonicalTriplePattern.anySubject (.givenPredicate 5 .sameAsSubject)).setObject 7).2
    ⟨1, 5, 7⟩ :=
  (C35_forgets (.anySubject (.givenPredicate 5 .sameAsSubject)) 5 7 ⟨rfl, rfl, rfl⟩ ⟨1, 5, 7⟩).2
    ⟨rfl, rfl⟩

/-- C35: a `SameAsPredicate` object is reported as `Any`. -/
theorem C35_wrong_report (x : CanonicalTriplePattern T) (o : T)
    (hx : x.object = .sameAsPredicate) : (x.setObject o).1 = .any := by
  revert hx
  cases_triple x <;>
    simp [CanonicalTriplePattern.setObject, TPat.AnySubject.setObject,
      TPat.GivenSubject.setObject, CanonicalTriplePattern.object, TPat.AnySubject.object,
      TPat.GivenSubject.object, TPat.AnySubjectAnyPredicate.object,
      TPat.AnySubjectGivenPredicate.object, TPat.GivenSubjectAnyPredicate.object,
      TPat.GivenSubjectGivenPredicate.object]

example : ((CanonicalTriplePattern.givenSubject 1 (.anyPredicate .sameAsPredicate)).setObject 7).1
    = .any := C35_wrong_report _ 7 rfl

/-- C35 as stated is false, for the matched triples and for the returned value. -/
theorem C35_false :
    ¬ C35_claim Nat ∧
    (∃ (x : CanonicalTriplePattern Nat) (o : Nat) (t : Triple Nat), (∀ o', x.object ≠ .given o') ∧
      ¬ (matchesTriple (x.setObject o).2 t ↔ matchesTriple x t ∧ t.o = o)) ∧
    (∃ (x : CanonicalTriplePattern Nat) (o : Nat), (x.setObject o).1 ≠ x.object) := by
  have w : ∃ (x : CanonicalTriplePattern Nat) (o : Nat) (t : Triple Nat),
      (∀ o', x.object ≠ .given o') ∧
      ¬ (matchesTriple (x.setObject o).2 t ↔ matchesTriple x t ∧ t.o = o) :=
    ⟨.fromPattern samplePattern, 5, ⟨1, 7, 5⟩, nofun, by decide⟩
  refine ⟨fun h => ?_, w, .fromPattern (⟨.var 0, .var 1, .var 1⟩ : TriplePattern Nat Nat), 5,
    by decide⟩
  obtain ⟨x, o, t, hx, hn⟩ := w
  exact hn ((h x o hx).1 t)

example : ∃ x : CanonicalTriplePattern Nat, (∀ o', x.object ≠ .given o') ∧
    ¬ (x.subject = .any ∧ (∃ p, x.predicate = .given p) ∧ x.object = .sameAsSubject) ∧
    matchesTriple (x.setObject 5).2 ⟨5, 1, 5⟩ :=
  ⟨.fromPattern (⟨.var 0, .var 1, .var 0⟩ : TriplePattern Nat Nat), nofun, by
    rintro ⟨-, ⟨p, h⟩, -⟩
    revert h
    simp [CanonicalTriplePattern.fromPattern, TPat.AnySubject.fromPattern,
      CanonicalTriplePattern.predicate, TPat.AnySubject.predicate], by decide⟩

/-! ## C36 -/

/-- C36: mapping the terms of a quad pattern. -/
theorem C36_map (x : CanonicalQuadPattern T) (f : T → U) :
    (∀ q, matchesQuad x q → matchesQuad (x.map f) (q.map f)) ∧
    ((∀ a b, f a = f b → a = b) → ∀ q, matchesQuad (x.map f) (q.map f) ↔ matchesQuad x q) ∧
    x.map id = x ∧ x.asRef = x ∧
    (∀ g : U → V, (x.map f).map g = x.map (g ∘ f)) ∧
    (∀ h : T → U × V, x.map2 h = (x.map fun t => (h t).1, x.map fun t => (h t).2)) :=
  ⟨Proof.map_matches x f, Proof.map_matches_iff x f, Proof.map_id x, Proof.map_id x,
    Proof.map_map x f, Proof.map2_eq x⟩

example : matchesQuad
    ((CanonicalQuadPattern.anySubject (.givenPredicate 7 (.sameAsSubject (.givenGraph (some 4))))).map
      (· + 1)) ((⟨1, 7, 1, some 4⟩ : Quad Nat).map (· + 1)) :=
  (C36_map (V := Nat) (.anySubject (.givenPredicate 7 (.sameAsSubject (.givenGraph (some 4))))) (· + 1)).1
    ⟨1, 7, 1, some 4⟩ ⟨rfl, rfl, rfl⟩

/-- C36: mapping statements is functorial, commutes with dropping the graph, and
mapping all positions is mapping the positions one after the other, in any
order. -/
theorem C36_map_statements (q : Quad T) (t : Triple T) (f : T → U) (g : U → V)
    (fs fp fo : T → U) (fg : Option T → Option U) :
    q.map id = q ∧ t.map id = t ∧
    (q.map f).map g = q.map (g ∘ f) ∧ (t.map f).map g = t.map (g ∘ f) ∧
    (q.map f).intoTriple = (q.intoTriple.1.map f, q.intoTriple.2.map f) ∧
    (t.map f).intoQuad (q.g.map f) = (t.intoQuad q.g).map f ∧
    q.intoTriple.1.intoQuad q.intoTriple.2 = q ∧
    q.map f = q.mapAll f f f (Option.map f) ∧
    q.mapAll fs fp fo fg = (((q.mapSubject fs).mapPredicate fp).mapObject fo).mapGraph fg ∧
    q.mapAll fs fp fo fg = (((q.mapGraph fg).mapObject fo).mapPredicate fp).mapSubject fs ∧
    t.map f = ((t.mapSubject f).mapPredicate f).mapObject f := by
  obtain ⟨s, p, o, h⟩ := q
  refine ⟨?_, rfl, ?_, rfl, rfl, rfl, rfl, rfl, rfl, rfl, rfl⟩ <;> simp [Quad.map]

example : matchesQuad ((CanonicalQuadPattern.fromPattern sampleQuadPattern).map (· + 1))
    ⟨4, 6, 8, some 6⟩ := by decide

/-- C36: taking a statement apart keeps each part, and the graph can be exchanged alone. -/
theorem C36_parts (q : Quad T) (t : Triple T) (g h : Option T) (s p o : T) :
    (q.intoParts = (s, p, o, g) ↔ q.s = s ∧ q.p = p ∧ q.o = o ∧ q.g = g) ∧
    (q.intoParts = (s, p, o, g) ↔ q.intoTriple.1.intoParts = (s, p, o) ∧ q.intoTriple.2 = g) ∧
    (t.intoParts = (s, p, o) ↔ (t.intoQuad g).intoParts = (s, p, o, g)) ∧
    (q.withGraph g).intoTriple = (q.intoTriple.1, g) ∧ (q.withGraph g).withGraph h = q.withGraph h ∧
    q.withGraph q.g = q := by
  obtain ⟨_, _, _, _⟩ := q
  obtain ⟨_, _, _⟩ := t
  simp [Quad.intoParts, Triple.intoParts, Quad.intoTriple, Triple.intoQuad, Quad.withGraph, and_assoc]

example : (⟨1, 2, 3, some 4⟩ : Quad Nat).intoParts = (1, 2, 3, some 4) ∧
    (⟨1, 2, 3, some 4⟩ : Quad Nat).withGraph none = ⟨1, 2, 3, none⟩ := by decide

/-- C36: mapping the terms of a pattern of terms and variables maps what it stands for, for any
assignment of its variables, and commutes with making it canonical. -/
theorem C36_map_pattern [DecidableEq X] (f : T → U) (pat : QuadPattern T X)
    (tri : TriplePattern T X) (r : ResourceOrVar T X) (σ : X → T) (ok : X → Bool) :
    instantiate (f ∘ σ) (r.map f) = f (instantiate σ r) ∧
    instantiateTriple (f ∘ σ) (tri.map (·.map f)) = (instantiateTriple σ tri).map f ∧
    CanonicalQuadPattern.fromPattern (pat.map (·.map f)) =
      (CanonicalQuadPattern.fromPattern pat).map f ∧
    (r.isIdOr ok = true ↔ ∀ x, r = .var x → ok x = true) := by
  have hi : ∀ r : ResourceOrVar T X, instantiate (f ∘ σ) (r.map f) = f (instantiate σ r) := by
    intro r
    cases r <;> rfl
  refine ⟨hi r, ?_, Proof.fromPattern_map f pat, by cases r <;> simp [ResourceOrVar.isIdOr]⟩
  simp [instantiateTriple, Triple.map, hi]

example : ((⟨.var 0, .resource 5, .var 0⟩ : TriplePattern Nat Nat).map (·.map (· + 1))) =
    ⟨.var 0, .resource 6, .var 0⟩ := by decide

end RdfTypes.Property
