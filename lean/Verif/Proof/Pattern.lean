import Verif.Spec.Pattern

/-!
# Lemmas about canonical patterns
-/

set_option linter.unusedSectionVars false
set_option linter.unusedSimpArgs false
set_option linter.unusedVariables false

namespace RdfTypes.Proof

open Spec QuadMatch

variable {T U V X : Type}

/-- All shapes of a canonical triple pattern. -/
macro "cases_triple " x:ident : tactic => `(tactic|
  rcases $x:ident with (((_ | _ | _ | _) | (_ | _ | _) | ⟨_, (_ | _ | _)⟩) |
    ⟨_, ((_ | _ | _) | ⟨_, (_ | _)⟩)⟩))

/-- All shapes of a canonical quad pattern. -/
macro "cases_quad " x:ident : tactic => `(tactic|
  rcases $x:ident with
    ((((_ | _ | _ | _ | _) | (_ | _ | _ | _) | (_ | _ | _ | _) | ⟨_, (_ | _ | _ | _)⟩) |
      ((_ | _ | _ | _) | (_ | _ | _) | ⟨_, (_ | _ | _)⟩) |
      ⟨_, ((_ | _ | _ | _) | (_ | _ | _) | ⟨_, (_ | _ | _)⟩)⟩) |
    ⟨_, (((_ | _ | _ | _) | (_ | _ | _) | ⟨_, (_ | _ | _)⟩) |
      ⟨_, ((_ | _ | _) | ⟨_, (_ | _)⟩)⟩)⟩))

attribute [local simp] matchesTriple matchesQuad anyAnyAny givenAnyAny anyGivenAny anyAnyGiven
  anyGivenGiven givenAnyGiven givenGivenAny givenGivenGiven
  subjectHolds predicateHolds objectHolds graphHolds optionHolds

section triple

open TPat CanonicalTriplePattern

attribute [local simp] subject predicate object AnySubject.predicate AnySubject.object
  GivenSubject.predicate GivenSubject.object AnySubjectAnyPredicate.object
  AnySubjectGivenPredicate.object GivenSubjectAnyPredicate.object
  GivenSubjectGivenPredicate.object
  setSubject setPredicate setObject AnySubject.setPredicate AnySubject.setObject
  GivenSubject.setPredicate GivenSubject.setObject AnySubjectAnyPredicate.setObject
  AnySubjectGivenPredicate.setObject GivenSubjectAnyPredicate.setObject
  GivenSubjectGivenPredicate.setObject

theorem matchesTriple_iff_parts (x : CanonicalTriplePattern T) (t : Triple T) :
    matchesTriple x t ↔ subjectHolds x.subject t.s ∧ predicateHolds x.predicate t.s t.p ∧
      objectHolds x.object t.s t.p t.o := by
  cases_triple x <;> simp

theorem triple_parts_inj {x y : CanonicalTriplePattern T} (hs : x.subject = y.subject)
    (hp : x.predicate = y.predicate) (ho : x.object = y.object) : x = y := by
  cases_triple x <;> cases_triple y <;> simp_all

theorem setSubject_any (x : CanonicalTriplePattern T) (s : T) (h : x.subject = .any)
    (t : Triple T) : matchesTriple (x.setSubject s).2 t ↔ matchesTriple x t ∧ t.s = s := by
  cases_triple x <;> simp_all <;> grind

theorem setSubject_given (x : CanonicalTriplePattern T) (s s' : T) (h : x.subject = .given s')
    (t : Triple T) :
    matchesTriple (x.setSubject s).2 t ↔ t.s = s ∧ matchesTriple x ⟨s', t.p, t.o⟩ := by
  cases_triple x <;> simp_all

theorem setSubject_old (x : CanonicalTriplePattern T) (s : T) : (x.setSubject s).1 = x.subject := by
  cases_triple x <;> simp

theorem setPredicate_free (x : CanonicalTriplePattern T) (p : T) (h : ∀ p', x.predicate ≠ .given p')
    (hx : x ≠ .anySubject (.anyPredicate .sameAsSubject))
    (t : Triple T) : matchesTriple (x.setPredicate p).2 t ↔ matchesTriple x t ∧ t.p = p := by
  cases_triple x <;> simp_all <;> grind

theorem setPredicate_given (x : CanonicalTriplePattern T) (p p' : T) (h : x.predicate = .given p')
    (t : Triple T) :
    matchesTriple (x.setPredicate p).2 t ↔ t.p = p ∧ matchesTriple x ⟨t.s, p', t.o⟩ := by
  cases_triple x <;> simp_all <;> grind

theorem setPredicate_old (x : CanonicalTriplePattern T) (p : T) :
    (x.setPredicate p).1 = x.predicate := by
  cases_triple x <;> simp

theorem setObject_free (x : CanonicalTriplePattern T) (o : T) (h : ∀ o', x.object ≠ .given o')
    (hx : ∀ p, x ≠ .anySubject (.givenPredicate p .sameAsSubject))
    (t : Triple T) : matchesTriple (x.setObject o).2 t ↔ matchesTriple x t ∧ t.o = o := by
  cases_triple x <;> simp_all <;> grind

theorem setObject_given (x : CanonicalTriplePattern T) (o o' : T) (h : x.object = .given o')
    (t : Triple T) :
    matchesTriple (x.setObject o).2 t ↔ t.o = o ∧ matchesTriple x ⟨t.s, t.p, o'⟩ := by
  cases_triple x <;> simp_all <;> grind

theorem setObject_old (x : CanonicalTriplePattern T) (o : T) (h : x.object ≠ .sameAsPredicate) :
    (x.setObject o).1 = x.object := by
  cases_triple x <;> simp_all

/-- The unknown terms of a pattern can be any given one. -/
theorem triple_witness (d : T) (x : CanonicalTriplePattern T) :
    matchesTriple x ⟨x.subject.id.getD d, x.predicate.id.getD d, x.object.id.getD d⟩ := by
  cases_triple x <;> simp [PatternSubject.id, PatternPredicate.id, PatternObject.id]

theorem only_iff {S : Type} {A : S → Prop} {f : S → T} {i : Option T} {c d : T} (hd : d ≠ c)
    (hs : ∀ a, i = some a → ∀ t, A t → f t = a) (hw : ∃ t, A t ∧ f t = i.getD d) :
    i = some c ↔ ∀ t, A t → f t = c := by
  refine ⟨fun h => hs c h, fun h => ?_⟩
  obtain ⟨t, ht, e⟩ := hw
  have hc := (h t ht).symm.trans e
  cases i with
  | none => exact absurd hc.symm hd
  | some a => exact congrArg some hc.symm

theorem triple_ids {c d : T} (hd : d ≠ c) (x : CanonicalTriplePattern T) :
    (x.subject.id = some c ↔ ∀ t, matchesTriple x t → t.s = c) ∧
    (x.predicate.id = some c ↔ ∀ t, matchesTriple x t → t.p = c) ∧
    (x.object.id = some c ↔ ∀ t, matchesTriple x t → t.o = c) := by
  refine ⟨only_iff (f := Triple.s) hd ?_ ⟨_, triple_witness d x, rfl⟩,
    only_iff (f := Triple.p) hd ?_ ⟨_, triple_witness d x, rfl⟩,
    only_iff (f := Triple.o) hd ?_ ⟨_, triple_witness d x, rfl⟩⟩ <;>
  · intro a h t
    revert h
    cases_triple x <;> simp [PatternSubject.id, PatternPredicate.id, PatternObject.id] <;> grind

end triple

section quad

open QPat CanonicalQuadPattern

attribute [local simp] subject predicate object graph AnySubject.predicate AnySubject.object
  GivenSubject.predicate GivenSubject.object AnySubjectAnyPredicate.object
  AnySubjectGivenPredicate.object GivenSubjectAnyPredicate.object
  GivenSubjectGivenPredicate.object AnySubject.graph GivenSubject.graph
  AnySubjectAnyPredicate.graph AnySubjectGivenPredicate.graph GivenSubjectAnyPredicate.graph
  GivenSubjectGivenPredicate.graph
  AnySubjectAnyPredicateAnyObject.graph GivenSubjectAnyPredicateAnyObject.graph
  AnySubjectGivenPredicateAnyObject.graph AnySubjectAnyPredicateGivenObject.graph
  AnySubjectGivenPredicateGivenObject.graph GivenSubjectAnyPredicateGivenObject.graph
  GivenSubjectGivenPredicateAnyObject.graph GivenSubjectGivenPredicateGivenObject.graph
  intoParts AnySubject.intoParts GivenSubject.intoParts AnySubjectAnyPredicate.intoParts
  AnySubjectGivenPredicate.intoParts GivenSubjectAnyPredicate.intoParts
  GivenSubjectGivenPredicate.intoParts
  intoTriple AnySubject.intoTriple GivenSubject.intoTriple AnySubjectAnyPredicate.intoTriple
  AnySubjectGivenPredicate.intoTriple GivenSubjectAnyPredicate.intoTriple
  GivenSubjectGivenPredicate.intoTriple
  map AnySubject.map GivenSubject.map AnySubjectAnyPredicate.map
  AnySubjectGivenPredicate.map GivenSubjectAnyPredicate.map
  GivenSubjectGivenPredicate.map
  AnySubjectAnyPredicateAnyObject.map GivenSubjectAnyPredicateAnyObject.map
  AnySubjectGivenPredicateAnyObject.map AnySubjectAnyPredicateGivenObject.map
  AnySubjectGivenPredicateGivenObject.map GivenSubjectAnyPredicateGivenObject.map
  GivenSubjectGivenPredicateAnyObject.map GivenSubjectGivenPredicateGivenObject.map
  map2 AnySubject.map2 GivenSubject.map2 AnySubjectAnyPredicate.map2
  AnySubjectGivenPredicate.map2 GivenSubjectAnyPredicate.map2
  GivenSubjectGivenPredicate.map2
  AnySubjectAnyPredicateAnyObject.map2 GivenSubjectAnyPredicateAnyObject.map2
  AnySubjectGivenPredicateAnyObject.map2 AnySubjectAnyPredicateGivenObject.map2
  AnySubjectGivenPredicateGivenObject.map2 GivenSubjectAnyPredicateGivenObject.map2
  GivenSubjectGivenPredicateAnyObject.map2 GivenSubjectGivenPredicateGivenObject.map2

theorem matchesQuad_iff_parts (x : CanonicalQuadPattern T) (q : Quad T) :
    matchesQuad x q ↔ subjectHolds x.subject q.s ∧ predicateHolds x.predicate q.s q.p ∧
      objectHolds x.object q.s q.p q.o ∧ graphHolds x.graph q.s q.p q.o q.g := by
  cases_quad x <;> simp

theorem intoParts_eq (x : CanonicalQuadPattern T) :
    x.intoParts = (x.subject, x.predicate, x.object, x.graph) := by
  cases_quad x <;> simp

theorem intoTriple_parts (x : CanonicalQuadPattern T) :
    x.intoTriple.1.subject = x.subject ∧ x.intoTriple.1.predicate = x.predicate ∧
      x.intoTriple.1.object = x.object ∧ x.intoTriple.2 = x.graph := by
  cases_quad x <;>
  simp [CanonicalTriplePattern.subject, CanonicalTriplePattern.predicate,
    CanonicalTriplePattern.object, TPat.AnySubject.predicate, TPat.AnySubject.object,
    TPat.GivenSubject.predicate, TPat.GivenSubject.object, TPat.AnySubjectAnyPredicate.object,
    TPat.AnySubjectGivenPredicate.object, TPat.GivenSubjectAnyPredicate.object,
    TPat.GivenSubjectGivenPredicate.object]

/-- The graph part determines the innermost enumeration. -/
theorem graph_inj_aaa {x y : AnySubjectAnyPredicateAnyObject T} (h : x.graph = y.graph) : x = y := by
  cases x <;> cases y <;> simp_all
theorem graph_inj_gaa {x y : GivenSubjectAnyPredicateAnyObject T} (h : x.graph = y.graph) :
    x = y := by
  cases x <;> cases y <;> simp_all
theorem graph_inj_aga {x y : AnySubjectGivenPredicateAnyObject T} (h : x.graph = y.graph) :
    x = y := by
  cases x <;> cases y <;> simp_all
theorem graph_inj_aag {x y : AnySubjectAnyPredicateGivenObject T} (h : x.graph = y.graph) :
    x = y := by
  cases x <;> cases y <;> simp_all
theorem graph_inj_agg {x y : AnySubjectGivenPredicateGivenObject T} (h : x.graph = y.graph) :
    x = y := by
  cases x <;> cases y <;> simp_all
theorem graph_inj_gag {x y : GivenSubjectAnyPredicateGivenObject T} (h : x.graph = y.graph) :
    x = y := by
  cases x <;> cases y <;> simp_all
theorem graph_inj_gga {x y : GivenSubjectGivenPredicateAnyObject T} (h : x.graph = y.graph) :
    x = y := by
  cases x <;> cases y <;> simp_all
theorem graph_inj_ggg {x y : GivenSubjectGivenPredicateGivenObject T} (h : x.graph = y.graph) :
    x = y := by
  cases x <;> cases y <;> simp_all

theorem quad_parts_inj {x y : CanonicalQuadPattern T} (hs : x.subject = y.subject)
    (hp : x.predicate = y.predicate) (ho : x.object = y.object) (hg : x.graph = y.graph) :
    x = y := by
  rcases x with (((_ | _ | _ | _) | (_ | _ | _) | ⟨_, (_ | _ | _)⟩) |
      ⟨_, ((_ | _ | _) | ⟨_, (_ | _)⟩)⟩) <;>
    rcases y with (((_ | _ | _ | _) | (_ | _ | _) | ⟨_, (_ | _ | _)⟩) |
      ⟨_, ((_ | _ | _) | ⟨_, (_ | _)⟩)⟩) <;>
    simp_all [-AnySubjectAnyPredicateAnyObject.graph, -GivenSubjectAnyPredicateAnyObject.graph,
      -AnySubjectGivenPredicateAnyObject.graph, -AnySubjectAnyPredicateGivenObject.graph,
      -AnySubjectGivenPredicateGivenObject.graph, -GivenSubjectAnyPredicateGivenObject.graph,
      -GivenSubjectGivenPredicateAnyObject.graph, -GivenSubjectGivenPredicateGivenObject.graph] <;>
    first
      | exact graph_inj_aaa hg
      | exact graph_inj_gaa hg
      | exact graph_inj_aga hg
      | exact graph_inj_aag hg
      | exact graph_inj_agg hg
      | exact graph_inj_gag hg
      | exact graph_inj_gga hg
      | exact graph_inj_ggg hg

theorem map_matches (x : CanonicalQuadPattern T) (f : T → U) (q : Quad T)
    (h : matchesQuad x q) : matchesQuad (x.map f) (q.map f) := by
  obtain ⟨s, p, o, g⟩ := q
  cases_quad x <;> simp_all [Quad.map]

theorem map_matches_iff (x : CanonicalQuadPattern T) (f : T → U)
    (hf : ∀ a b, f a = f b → a = b) (q : Quad T) :
    matchesQuad (x.map f) (q.map f) ↔ matchesQuad x q := by
  obtain ⟨s, p, o, g⟩ := q
  have hf' : ∀ a b, f a = f b ↔ a = b := fun a b => ⟨hf a b, fun h => h ▸ rfl⟩
  have hg : ∀ a b : Option T, a.map f = b.map f ↔ a = b := by
    intro a b; cases a <;> cases b <;> simp [hf']
  have hg' : ∀ (a : Option T) b, a.map f = some (f b) ↔ a = some b := by
    intro a b; cases a <;> simp [hf']
  cases_quad x <;> simp only [matchesQuad, anyAnyAny, givenAnyAny, anyGivenAny, anyAnyGiven,
    anyGivenGiven, givenAnyGiven, givenGivenAny, givenGivenGiven, map, AnySubject.map,
    GivenSubject.map, AnySubjectAnyPredicate.map,
    AnySubjectGivenPredicate.map, GivenSubjectAnyPredicate.map, GivenSubjectGivenPredicate.map,
    AnySubjectAnyPredicateAnyObject.map, GivenSubjectAnyPredicateAnyObject.map,
    AnySubjectGivenPredicateAnyObject.map, AnySubjectAnyPredicateGivenObject.map,
    AnySubjectGivenPredicateGivenObject.map, GivenSubjectAnyPredicateGivenObject.map,
    GivenSubjectGivenPredicateAnyObject.map, GivenSubjectGivenPredicateGivenObject.map,
    Quad.map, hf', hg, hg']

theorem map_id (x : CanonicalQuadPattern T) : x.map id = x := by
  cases_quad x <;> simp

theorem map_map (x : CanonicalQuadPattern T) (f : T → U) (g : U → V) :
    (x.map f).map g = x.map (g ∘ f) := by
  cases_quad x <;> simp

theorem map2_eq (x : CanonicalQuadPattern T) (f : T → U × V) :
    x.map2 f = (x.map fun t => (f t).1, x.map fun t => (f t).2) := by
  have h : ∀ g, QPat.optionMap2 f g = (g.map fun t => (f t).1, g.map fun t => (f t).2) := by
    intro g; cases g <;> simp [QPat.optionMap2]
  cases_quad x <;> simp [h]

theorem withAnyGraph_matches (x : CanonicalTriplePattern T) (q : Quad T) :
    matchesQuad x.withAnyGraph q ↔ matchesTriple x ⟨q.s, q.p, q.o⟩ := by
  cases_triple x <;>
  simp [CanonicalTriplePattern.withAnyGraph, TPat.AnySubject.withAnyGraph,
    TPat.GivenSubject.withAnyGraph, TPat.AnySubjectAnyPredicate.withAnyGraph,
    TPat.AnySubjectGivenPredicate.withAnyGraph, TPat.GivenSubjectAnyPredicate.withAnyGraph,
    TPat.GivenSubjectGivenPredicate.withAnyGraph]

/-- The unknown terms of a pattern can be any given one. -/
theorem quad_witness (d : T) (x : CanonicalQuadPattern T) : ∃ g,
    matchesQuad x ⟨x.subject.id.getD d, x.predicate.id.getD d, x.object.id.getD d, g⟩ := by
  cases_quad x <;> simp [PatternSubject.id, PatternPredicate.id, PatternObject.id]

theorem quad_ids {c d : T} (hd : d ≠ c) (x : CanonicalQuadPattern T) :
    (x.subject.id = some c ↔ ∀ t, matchesQuad x t → t.s = c) ∧
    (x.predicate.id = some c ↔ ∀ t, matchesQuad x t → t.p = c) ∧
    (x.object.id = some c ↔ ∀ t, matchesQuad x t → t.o = c) := by
  obtain ⟨g, hg⟩ := quad_witness d x
  have h := fun q => (matchesQuad_iff_parts x q).1
  refine ⟨only_iff (f := Quad.s) hd ?_ ⟨_, hg, rfl⟩, only_iff (f := Quad.p) hd ?_ ⟨_, hg, rfl⟩,
    only_iff (f := Quad.o) hd ?_ ⟨_, hg, rfl⟩⟩
  · intro a ha t ht
    have := (h t ht).1
    revert ha this
    generalize x.subject = i
    cases i <;> simp only [PatternSubject.id, subjectHolds] <;> grind
  · intro a ha t ht
    have := (h t ht).2.1
    revert ha this
    generalize x.predicate = i
    cases i <;> simp only [PatternPredicate.id, predicateHolds] <;> grind
  · intro a ha t ht
    have := (h t ht).2.2.1
    revert ha this
    generalize x.object = i
    cases i <;> simp only [PatternObject.id, objectHolds] <;> grind

end quad

section build

variable [DecidableEq X]

/-- The assignment read off a statement. -/
def readOff (ps pp po : ResourceOrVar T X) (s p o d : T) (y : X) : T :=
  if is ps then s else if is pp then p else if is po then o else d
where
  /-- Whether a position holds the variable `y`. -/
  is : ResourceOrVar T X → Bool
    | .resource _ => false
    | .var x => x = y

theorem fromPattern_triple (pat : TriplePattern T X) (t : Triple T) :
    matchesTriple (.fromPattern pat) t ↔ instanceOfTriple pat t := by
  obtain ⟨ps, pp, po⟩ := pat
  obtain ⟨s, p, o⟩ := t
  constructor
  · intro h
    refine ⟨readOff ps pp po s p o s, ?_⟩
    rcases ps with _ | x <;> rcases pp with _ | y <;> rcases po with _ | z <;>
      simp only [CanonicalTriplePattern.fromPattern, TPat.AnySubject.fromPattern,
        TPat.GivenSubject.fromPattern, TPat.AnySubjectAnyPredicate.fromPattern,
        TPat.AnySubjectGivenPredicate.fromPattern, TPat.GivenSubjectAnyPredicate.fromPattern,
        TPat.GivenSubjectGivenPredicate.fromPattern] at h <;>
      simp only [instantiateTriple, instantiate, Triple.mk.injEq, readOff, readOff.is] <;>
      grind [matchesTriple]
  · rintro ⟨σ, h⟩
    simp only [instantiateTriple, Triple.mk.injEq] at h
    obtain ⟨rfl, rfl, rfl⟩ := h
    rcases ps with _ | x <;> rcases pp with _ | y <;> rcases po with _ | z <;>
      simp only [CanonicalTriplePattern.fromPattern, TPat.AnySubject.fromPattern,
        TPat.GivenSubject.fromPattern, TPat.AnySubjectAnyPredicate.fromPattern,
        TPat.AnySubjectGivenPredicate.fromPattern, TPat.GivenSubjectAnyPredicate.fromPattern,
        TPat.GivenSubjectGivenPredicate.fromPattern] <;>
      grind [matchesTriple, instantiate]

theorem fromPattern_rename {Y : Type} [DecidableEq Y] (pat : TriplePattern T X) (ρ : X → Y)
    (hρ : ∀ x y, ρ x = ρ y → x = y) :
    CanonicalTriplePattern.fromPattern (renameTriple ρ pat) = .fromPattern pat := by
  have hf' : ∀ a b, ρ a = ρ b ↔ a = b := fun a b => ⟨hρ a b, fun h => h ▸ rfl⟩
  obtain ⟨ps, pp, po⟩ := pat
  rcases ps with _ | x <;> rcases pp with _ | y <;> rcases po with _ | z <;>
    simp only [renameTriple, renameVar, CanonicalTriplePattern.fromPattern,
      TPat.AnySubject.fromPattern,
      TPat.GivenSubject.fromPattern, TPat.AnySubjectAnyPredicate.fromPattern,
      TPat.AnySubjectGivenPredicate.fromPattern, TPat.GivenSubjectAnyPredicate.fromPattern,
      TPat.GivenSubjectGivenPredicate.fromPattern, hf']

theorem fromPattern_quad (pat : QuadPattern T X) (q : Quad T) :
    matchesQuad (.fromPattern pat) q ↔ instanceOfQuad pat q := by
  obtain ⟨ps, pp, po, pg⟩ := pat
  obtain ⟨s, p, o, g⟩ := q
  constructor
  · intro h
    refine ⟨readOff ps pp po s p o (g.getD s), ?_⟩
    rcases ps with _ | x <;> rcases pp with _ | y <;> rcases po with _ | z <;>
      rcases pg with _ | _ | w <;>
      simp only [CanonicalQuadPattern.fromPattern, QPat.AnySubject.fromPattern,
        QPat.GivenSubject.fromPattern, QPat.AnySubjectAnyPredicate.fromPattern,
        QPat.AnySubjectGivenPredicate.fromPattern, QPat.GivenSubjectAnyPredicate.fromPattern,
        QPat.GivenSubjectGivenPredicate.fromPattern,
        QPat.AnySubjectAnyPredicateAnyObject.fromPattern,
        QPat.GivenSubjectAnyPredicateAnyObject.fromPattern,
        QPat.AnySubjectGivenPredicateAnyObject.fromPattern,
        QPat.AnySubjectAnyPredicateGivenObject.fromPattern,
        QPat.AnySubjectGivenPredicateGivenObject.fromPattern,
        QPat.GivenSubjectAnyPredicateGivenObject.fromPattern,
        QPat.GivenSubjectGivenPredicateAnyObject.fromPattern,
        QPat.GivenSubjectGivenPredicateGivenObject.fromPattern] at h <;>
      simp only [instantiate, graphAllowed, readOff, readOff.is] <;>
      (repeat' split at h) <;>
      simp only [matchesQuad, anyAnyAny, givenAnyAny, anyGivenAny, anyAnyGiven,
        anyGivenGiven, givenAnyGiven, givenGivenAny, givenGivenGiven] at h <;>
      cases g <;> simp_all <;> grind
  · rintro ⟨σ, h⟩
    simp only [] at h
    obtain ⟨rfl, rfl, rfl, h⟩ := h
    rcases ps with _ | x <;> rcases pp with _ | y <;> rcases po with _ | z <;>
      rcases pg with _ | _ | w <;>
      simp only [CanonicalQuadPattern.fromPattern, QPat.AnySubject.fromPattern,
        QPat.GivenSubject.fromPattern, QPat.AnySubjectAnyPredicate.fromPattern,
        QPat.AnySubjectGivenPredicate.fromPattern, QPat.GivenSubjectAnyPredicate.fromPattern,
        QPat.GivenSubjectGivenPredicate.fromPattern,
        QPat.AnySubjectAnyPredicateAnyObject.fromPattern,
        QPat.GivenSubjectAnyPredicateAnyObject.fromPattern,
        QPat.AnySubjectGivenPredicateAnyObject.fromPattern,
        QPat.AnySubjectAnyPredicateGivenObject.fromPattern,
        QPat.AnySubjectGivenPredicateGivenObject.fromPattern,
        QPat.GivenSubjectAnyPredicateGivenObject.fromPattern,
        QPat.GivenSubjectGivenPredicateAnyObject.fromPattern,
        QPat.GivenSubjectGivenPredicateGivenObject.fromPattern] <;>
      simp only [instantiate, graphAllowed] at h <;>
      (repeat' split) <;>
      simp only [matchesQuad, anyAnyAny, givenAnyAny, anyGivenAny, anyAnyGiven,
        anyGivenGiven, givenAnyGiven, givenGivenAny, givenGivenGiven, instantiate] <;>
      simp_all

theorem fromPattern_quad_rename {Y : Type} [DecidableEq Y] (pat : QuadPattern T X) (ρ : X → Y)
    (hρ : ∀ x y, ρ x = ρ y → x = y) :
    CanonicalQuadPattern.fromPattern (renameQuad ρ pat) = .fromPattern pat := by
  have hf' : ∀ a b, ρ a = ρ b ↔ a = b := fun a b => ⟨hρ a b, fun h => h ▸ rfl⟩
  obtain ⟨ps, pp, po, pg⟩ := pat
  rcases ps with _ | x <;> rcases pp with _ | y <;> rcases po with _ | z <;>
    rcases pg with _ | _ | w <;>
    simp only [renameQuad, renameVar, Option.map, CanonicalQuadPattern.fromPattern,
      QPat.AnySubject.fromPattern,
      QPat.GivenSubject.fromPattern, QPat.AnySubjectAnyPredicate.fromPattern,
      QPat.AnySubjectGivenPredicate.fromPattern, QPat.GivenSubjectAnyPredicate.fromPattern,
      QPat.GivenSubjectGivenPredicate.fromPattern,
      QPat.AnySubjectAnyPredicateAnyObject.fromPattern,
      QPat.GivenSubjectAnyPredicateAnyObject.fromPattern,
      QPat.AnySubjectGivenPredicateAnyObject.fromPattern,
      QPat.AnySubjectAnyPredicateGivenObject.fromPattern,
      QPat.AnySubjectGivenPredicateGivenObject.fromPattern,
      QPat.GivenSubjectAnyPredicateGivenObject.fromPattern,
      QPat.GivenSubjectGivenPredicateAnyObject.fromPattern,
      QPat.GivenSubjectGivenPredicateGivenObject.fromPattern, hf']

/-- `from_triple_pattern` is `from_pattern` with the default graph. -/
theorem fromTriplePattern_eq (pat : TriplePattern T X) :
    CanonicalQuadPattern.fromTriplePattern pat = .fromPattern ⟨pat.s, pat.p, pat.o, none⟩ := rfl

theorem fromTriplePattern_matches (pat : TriplePattern T X) (q : Quad T) :
    matchesQuad (.fromTriplePattern pat) q ↔
      q.g = none ∧ instanceOfTriple pat ⟨q.s, q.p, q.o⟩ := by
  rw [fromTriplePattern_eq, fromPattern_quad]
  simp only [instanceOfQuad, instanceOfTriple, graphAllowed, instantiateTriple, Triple.mk.injEq]
  constructor
  · rintro ⟨σ, h1, h2, h3, h4⟩
    exact ⟨h4, σ, h1, h2, h3⟩
  · rintro ⟨h4, σ, h1, h2, h3⟩
    exact ⟨σ, h1, h2, h3, h4⟩

theorem fromPattern_map (f : T → U) (pat : QuadPattern T X) :
    CanonicalQuadPattern.fromPattern (pat.map (·.map f)) =
      (CanonicalQuadPattern.fromPattern pat).map f := by
  obtain ⟨ps, pp, po, pg⟩ := pat
  rcases ps with _ | x <;> rcases pp with _ | y <;> rcases po with _ | z <;>
    rcases pg with _ | _ | w <;>
    simp only [Quad.map, ResourceOrVar.map, Option.map, CanonicalQuadPattern.fromPattern,
      QPat.AnySubject.fromPattern,
      QPat.GivenSubject.fromPattern, QPat.AnySubjectAnyPredicate.fromPattern,
      QPat.AnySubjectGivenPredicate.fromPattern, QPat.GivenSubjectAnyPredicate.fromPattern,
      QPat.GivenSubjectGivenPredicate.fromPattern,
      QPat.AnySubjectAnyPredicateAnyObject.fromPattern,
      QPat.GivenSubjectAnyPredicateAnyObject.fromPattern,
      QPat.AnySubjectGivenPredicateAnyObject.fromPattern,
      QPat.AnySubjectAnyPredicateGivenObject.fromPattern,
      QPat.AnySubjectGivenPredicateGivenObject.fromPattern,
      QPat.GivenSubjectAnyPredicateGivenObject.fromPattern,
      QPat.GivenSubjectGivenPredicateAnyObject.fromPattern,
      QPat.GivenSubjectGivenPredicateGivenObject.fromPattern] <;>
    (repeat' split) <;>
    simp only [CanonicalQuadPattern.map, QPat.AnySubject.map, QPat.GivenSubject.map,
      QPat.AnySubjectAnyPredicate.map, QPat.AnySubjectGivenPredicate.map,
      QPat.GivenSubjectAnyPredicate.map, QPat.GivenSubjectGivenPredicate.map,
      QPat.AnySubjectAnyPredicateAnyObject.map, QPat.GivenSubjectAnyPredicateAnyObject.map,
      QPat.AnySubjectGivenPredicateAnyObject.map, QPat.AnySubjectAnyPredicateGivenObject.map,
      QPat.AnySubjectGivenPredicateGivenObject.map, QPat.GivenSubjectAnyPredicateGivenObject.map,
      QPat.GivenSubjectGivenPredicateAnyObject.map, QPat.GivenSubjectGivenPredicateGivenObject.map,
      Option.map]

end build

section options

theorem fromTriple_matches (t u : Triple T) : matchesTriple (.fromTriple t) u ↔ u = t := by
  obtain ⟨s, p, o⟩ := t
  obtain ⟨s', p', o'⟩ := u
  simp [CanonicalTriplePattern.fromTriple]

theorem fromOptionTriple_matches (t : Triple (Option T)) (u : Triple T) :
    matchesTriple (.fromOptionTriple t) u ↔
      optionHolds t.s u.s ∧ optionHolds t.p u.p ∧ optionHolds t.o u.o := by
  obtain ⟨_ | _, _ | _, _ | _⟩ := t <;>
    simp [CanonicalTriplePattern.fromOptionTriple, TPat.AnySubject.fromOptionTriple,
      TPat.GivenSubject.fromOptionTriple, TPat.AnySubjectAnyPredicate.fromOption,
      TPat.AnySubjectGivenPredicate.fromOption, TPat.GivenSubjectAnyPredicate.fromOption,
      TPat.GivenSubjectGivenPredicate.fromOption]

theorem quad_fromTriple_matches (t : Triple T) (q : Quad T) :
    matchesQuad (.fromTriple t) q ↔ (⟨q.s, q.p, q.o⟩ : Triple T) = t := by
  obtain ⟨s, p, o⟩ := t
  simp [CanonicalQuadPattern.fromTriple]

theorem quad_fromQuad_matches (q r : Quad T) : matchesQuad (.fromQuad q) r ↔ r = q := by
  obtain ⟨s, p, o, g⟩ := q
  obtain ⟨s', p', o', g'⟩ := r
  simp [CanonicalQuadPattern.fromQuad]

theorem quad_fromOptionQuad_matches (x : Quad (Option T)) (q : Quad T) :
    matchesQuad (.fromOptionQuad x) q ↔
      optionHolds x.s q.s ∧ optionHolds x.p q.p ∧ optionHolds x.o q.o ∧
        optionHolds x.g q.g := by
  obtain ⟨_ | _, _ | _, _ | _, _ | _⟩ := x <;>
    simp [CanonicalQuadPattern.fromOptionQuad, QPat.AnySubject.fromOptionQuad,
      QPat.GivenSubject.fromOptionQuad, QPat.AnySubjectAnyPredicate.fromOption,
      QPat.AnySubjectGivenPredicate.fromOption, QPat.GivenSubjectAnyPredicate.fromOption,
      QPat.GivenSubjectGivenPredicate.fromOption,
        QPat.AnySubjectAnyPredicateAnyObject.fromOption,
        QPat.GivenSubjectAnyPredicateAnyObject.fromOption,
        QPat.AnySubjectGivenPredicateAnyObject.fromOption,
        QPat.AnySubjectAnyPredicateGivenObject.fromOption,
        QPat.AnySubjectGivenPredicateGivenObject.fromOption,
        QPat.GivenSubjectAnyPredicateGivenObject.fromOption,
        QPat.GivenSubjectGivenPredicateAnyObject.fromOption,
        QPat.GivenSubjectGivenPredicateGivenObject.fromOption]

theorem quad_fromOptionTriple_eq (x : Triple (Option T)) :
    CanonicalQuadPattern.fromOptionTriple x = .fromOptionQuad ⟨x.s, x.p, x.o, none⟩ := rfl

end options

end RdfTypes.Proof
