import Verif.Proof.Pattern

/-!
# Canonical patterns that match the same statements

A canonical pattern can be rebuilt from the statements it matches, if there are two terms.
-/

set_option linter.unusedSectionVars false
set_option linter.unusedSimpArgs false
set_option linter.unusedVariables false

namespace RdfTypes.Proof

open Spec

variable {T X Y : Type}

/-! ## The statements a pattern matches, from free choices of terms -/

/-- The subject of a matched statement, with `a` where it is free. -/
def pickS : PatternSubject T → T → T
  | .any, a => a
  | .given s, _ => s

def pickP : PatternPredicate T → (s b : T) → T
  | .any, _, b => b
  | .sameAsSubject, s, _ => s
  | .given p, _, _ => p

def pickO : PatternObject T → (s p c : T) → T
  | .any, _, _, c => c
  | .sameAsSubject, s, _, _ => s
  | .sameAsPredicate, _, p, _ => p
  | .given o, _, _, _ => o

def pickG : PatternGraph T → (s p o : T) → Option T → Option T
  | .any, _, _, _, g => g
  | .sameAsSubject, s, _, _, _ => some s
  | .sameAsPredicate, _, p, _, _ => some p
  | .sameAsObject, _, _, o, _ => some o
  | .given g, _, _, _, _ => g

/-- The parts of a pattern of which a coreference names a free position. -/
structure WellFormed (s : PatternSubject T) (p : PatternPredicate T) (o : PatternObject T)
    (g : PatternGraph T) : Prop where
  ps : p = .sameAsSubject → s = .any
  os : o = .sameAsSubject → s = .any
  op : o = .sameAsPredicate → p = .any
  gs : g = .sameAsSubject → s = .any
  gp : g = .sameAsPredicate → p = .any
  go : g = .sameAsObject → o = .any

/-- What parts match. -/
def PartsHold (s : PatternSubject T) (p : PatternPredicate T) (o : PatternObject T)
    (g : PatternGraph T) (q : Quad T) : Prop :=
  subjectHolds s q.s ∧ predicateHolds p q.s q.p ∧ objectHolds o q.s q.p q.o ∧
    graphHolds g q.s q.p q.o q.g

theorem pick_holds (s : PatternSubject T) (p : PatternPredicate T) (o : PatternObject T)
    (g : PatternGraph T) (a b c : T) (d : Option T) :
    let s' := pickS s a
    let p' := pickP p s' b
    let o' := pickO o s' p' c
    PartsHold s p o g ⟨s', p', o', pickG g s' p' o' d⟩ := by
  refine ⟨?_, ?_, ?_, ?_⟩
  · cases s <;> simp [pickS, subjectHolds]
  · cases p <;> simp [pickP, predicateHolds]
  · cases o <;> simp [pickO, objectHolds]
  · cases g <;> simp [pickG, graphHolds]

section

variable {u v : T} (huv : u ≠ v)

include huv in
theorem parts_eq {s s' : PatternSubject T} {p p' : PatternPredicate T} {o o' : PatternObject T}
    {g g' : PatternGraph T} (w : WellFormed s p o g) (w' : WellFormed s' p' o' g')
    (h : ∀ q, PartsHold s p o g q ↔ PartsHold s' p' o' g' q) :
    s = s' ∧ p = p' ∧ o = o' ∧ g = g' := by
  have k := fun a b c d => (h _).1 (pick_holds s p o g a b c d)
  have k' := fun a b c d => (h _).2 (pick_holds s' p' o' g' a b c d)
  have hs : s = s' := by
    have a1 := (k u u u none).1
    have a2 := (k v u u none).1
    have b1 := (k' u u u none).1
    have b2 := (k' v u u none).1
    clear k k' h w w'
    cases s <;> cases s' <;> simp_all only [subjectHolds, pickS, reduceCtorEq]
    all_goals grind
  subst hs
  have hp : p = p' := by
    have a1 := (k u u u none).2.1
    have a2 := (k u v u none).2.1
    have a3 := (k v u u none).2.1
    have b1 := (k' u u u none).2.1
    have b2 := (k' u v u none).2.1
    have b3 := (k' v u u none).2.1
    have w1 := w.ps
    have w2 := w'.ps
    clear k k' h w w'
    cases s <;> cases p <;> cases p' <;>
      simp_all only [predicateHolds, pickS, pickP, reduceCtorEq] <;> grind
  subst hp
  have ho : o = o' := by
    have a1 := (k u u u none).2.2.1
    have a2 := (k u u v none).2.2.1
    have a3 := (k u v u none).2.2.1
    have a4 := (k v u u none).2.2.1
    have b1 := (k' u u u none).2.2.1
    have b2 := (k' u u v none).2.2.1
    have b3 := (k' u v u none).2.2.1
    have b4 := (k' v u u none).2.2.1
    have w1 := w.os
    have w2 := w'.os
    have w3 := w.op
    have w4 := w'.op
    clear k k' h w w'
    cases s <;> cases p <;> cases o <;> cases o' <;>
      simp_all only [objectHolds, pickS, pickP, pickO, reduceCtorEq] <;> grind
  subst ho
  refine ⟨rfl, rfl, rfl, ?_⟩
  have a0 := (k u u u (some u)).2.2.2
  have a1 := (k u u u none).2.2.2
  have a2 := (k u u v none).2.2.2
  have a3 := (k u v u none).2.2.2
  have a4 := (k v u u none).2.2.2
  have b0 := (k' u u u (some u)).2.2.2
  have b1 := (k' u u u none).2.2.2
  have b2 := (k' u u v none).2.2.2
  have b3 := (k' u v u none).2.2.2
  have b4 := (k' v u u none).2.2.2
  have w1 := w.gs
  have w2 := w'.gs
  have w3 := w.gp
  have w4 := w'.gp
  have w5 := w.go
  have w6 := w'.go
  clear k k' h w w'
  cases g <;> cases g' <;> simp only [graphHolds, pickG] at a0 a1 a2 a3 a4 b0 b1 b2 b3 b4 <;>
    grind [pickS, pickP, pickO]

end

/-! ## Triple and quad patterns -/

section

open QPat CanonicalQuadPattern

theorem quad_wellFormed (x : CanonicalQuadPattern T) :
    WellFormed x.subject x.predicate x.object x.graph := by
  constructor <;> cases_quad x <;>
    simp [subject, predicate, object, graph, AnySubject.predicate, AnySubject.object,
      GivenSubject.predicate, GivenSubject.object, AnySubjectAnyPredicate.object,
      AnySubjectGivenPredicate.object, GivenSubjectAnyPredicate.object,
      GivenSubjectGivenPredicate.object, AnySubject.graph, GivenSubject.graph,
      AnySubjectAnyPredicate.graph, AnySubjectGivenPredicate.graph,
      GivenSubjectAnyPredicate.graph, GivenSubjectGivenPredicate.graph,
      AnySubjectAnyPredicateAnyObject.graph, GivenSubjectAnyPredicateAnyObject.graph,
      AnySubjectGivenPredicateAnyObject.graph, AnySubjectAnyPredicateGivenObject.graph,
      AnySubjectGivenPredicateGivenObject.graph, GivenSubjectAnyPredicateGivenObject.graph,
      GivenSubjectGivenPredicateAnyObject.graph, GivenSubjectGivenPredicateGivenObject.graph]

end

section

open TPat CanonicalTriplePattern

theorem triple_wellFormed (x : CanonicalTriplePattern T) :
    WellFormed x.subject x.predicate x.object .any := by
  constructor <;> cases_triple x <;>
    simp [subject, predicate, object, AnySubject.predicate, AnySubject.object,
      GivenSubject.predicate, GivenSubject.object, AnySubjectAnyPredicate.object,
      AnySubjectGivenPredicate.object, GivenSubjectAnyPredicate.object,
      GivenSubjectGivenPredicate.object]

end

theorem quad_form_eq {u v : T} (huv : u ≠ v) {x y : CanonicalQuadPattern T}
    (h : ∀ q, matchesQuad x q ↔ matchesQuad y q) : x = y := by
  obtain ⟨h1, h2, h3, h4⟩ := parts_eq huv (quad_wellFormed x) (quad_wellFormed y) fun q => by
    have := h q
    rwa [matchesQuad_iff_parts, matchesQuad_iff_parts] at this
  exact quad_parts_inj h1 h2 h3 h4

theorem triple_form_eq {u v : T} (huv : u ≠ v) {x y : CanonicalTriplePattern T}
    (h : ∀ t, matchesTriple x t ↔ matchesTriple y t) : x = y := by
  obtain ⟨h1, h2, h3, -⟩ := parts_eq huv (triple_wellFormed x) (triple_wellFormed y) fun q => by
    have := h ⟨q.s, q.p, q.o⟩
    rw [matchesTriple_iff_parts, matchesTriple_iff_parts] at this
    simpa [PartsHold, graphHolds] using this
  exact triple_parts_inj h1 h2 h3

/-! ## Patterns equal up to the names of their variables -/

section quad

open QPat CanonicalQuadPattern

/-- A pattern of which a canonical pattern is the form: the variables are the positions. -/
def writeQuad (x : CanonicalQuadPattern T) : QuadPattern T Nat where
  s := match x.subject with | .any => .var 0 | .given t => .resource t
  p := match x.predicate with | .any => .var 1 | .sameAsSubject => .var 0 | .given t => .resource t
  o := match x.object with
    | .any => .var 2 | .sameAsSubject => .var 0 | .sameAsPredicate => .var 1
    | .given t => .resource t
  g := match x.graph with
    | .any => some (.var 3) | .sameAsSubject => some (.var 0) | .sameAsPredicate => some (.var 1)
    | .sameAsObject => some (.var 2) | .given t => t.map .resource

theorem fromPattern_writeQuad (x : CanonicalQuadPattern T) : fromPattern (writeQuad x) = x := by
  cases_quad x <;> first | rfl | (rename_i t; cases t <;> rfl)

/-- The variable at a position. -/
def variableAt (pat : QuadPattern T X) (x : X) : Nat → X
  | 0 => get pat.s
  | 1 => get pat.p
  | 2 => get pat.o
  | _ => match pat.g with | some g => get g | none => x
where
  get : ResourceOrVar T X → X
    | .resource _ => x
    | .var y => y

/-- A term or variable is the variable `x`. -/
def isVar [DecidableEq X] (x : X) : ResourceOrVar T X → Bool
  | .resource _ => false
  | .var y => x = y

/-- The parts of the form of a pattern. -/
def partS : ResourceOrVar T X → PatternSubject T
  | .resource t => .given t
  | .var _ => .any

def partP [DecidableEq X] (s : ResourceOrVar T X) : ResourceOrVar T X → PatternPredicate T
  | .resource t => .given t
  | .var x => if isVar x s then .sameAsSubject else .any

def partO [DecidableEq X] (s p : ResourceOrVar T X) : ResourceOrVar T X → PatternObject T
  | .resource t => .given t
  | .var x => if isVar x s then .sameAsSubject else if isVar x p then .sameAsPredicate else .any

def partG [DecidableEq X] (s p o : ResourceOrVar T X) : Option (ResourceOrVar T X) → PatternGraph T
  | none => .given none
  | some (.resource t) => .given (some t)
  | some (.var x) =>
    if isVar x s then .sameAsSubject else if isVar x p then .sameAsPredicate
    else if isVar x o then .sameAsObject else .any

theorem fromPattern_parts [DecidableEq X] (pat : QuadPattern T X) :
    (fromPattern pat).subject = partS pat.s ∧ (fromPattern pat).predicate = partP pat.s pat.p ∧
      (fromPattern pat).object = partO pat.s pat.p pat.o ∧
      (fromPattern pat).graph = partG pat.s pat.p pat.o pat.g := by
  obtain ⟨ps, pp, po, pg⟩ := pat
  rcases ps with _ | x <;> rcases pp with _ | y <;> rcases po with _ | z <;>
    rcases pg with _ | _ | w <;>
    simp only [fromPattern,  QPat.AnySubject.fromPattern,
        QPat.GivenSubject.fromPattern, QPat.AnySubjectAnyPredicate.fromPattern,
        QPat.AnySubjectGivenPredicate.fromPattern, QPat.GivenSubjectAnyPredicate.fromPattern,
        QPat.GivenSubjectGivenPredicate.fromPattern,
        QPat.AnySubjectAnyPredicateAnyObject.fromPattern,
        QPat.GivenSubjectAnyPredicateAnyObject.fromPattern,
        QPat.AnySubjectGivenPredicateAnyObject.fromPattern,
        QPat.AnySubjectAnyPredicateGivenObject.fromPattern,
        QPat.AnySubjectGivenPredicateGivenObject.fromPattern,
        QPat.GivenSubjectAnyPredicateGivenObject.fromPattern,
        QPat.GivenSubjectGivenPredicateAnyObject.fromPattern,
        QPat.GivenSubjectGivenPredicateGivenObject.fromPattern,
        partS, partP, partO, partG, isVar, decide_eq_true_eq, Bool.false_eq_true, if_false] <;>
    (repeat' split) <;>
    first
    | exact ⟨rfl, rfl, rfl, rfl⟩
    | (subst_vars; simp_all; done)

/-- The position where a variable occurs first. -/
def position [DecidableEq X] (pat : QuadPattern T X) (x : X) : Nat :=
  if isVar x pat.s then 0 else if isVar x pat.p then 1 else if isVar x pat.o then 2 else 3

theorem isVar_iff [DecidableEq X] {x : X} {e : ResourceOrVar T X} :
    isVar x e = true ↔ e = .var x := by
  cases e <;> simp [isVar, eq_comm]

theorem isVar_self [DecidableEq X] {x : X} : isVar x (.var x : ResourceOrVar T X) = true := by
  simp [isVar]

theorem rename_position [DecidableEq X] (pat : QuadPattern T X) :
    renameQuad (position pat) pat = writeQuad (.fromPattern pat) := by
  obtain ⟨h1, h2, h3, h4⟩ := fromPattern_parts pat
  simp only [renameQuad, writeQuad, h1, h2, h3, h4, Quad.mk.injEq]
  obtain ⟨ps, pp, po, pg⟩ := pat
  refine ⟨?_, ?_, ?_, ?_⟩
  · cases ps <;> simp [renameVar, partS, position, isVar]
  · cases pp with
    | resource => rfl
    | var y => by_cases e1 : isVar y ps <;> simp [renameVar, partP, position, isVar_self, e1]
  · cases po with
    | resource => rfl
    | var y =>
      by_cases e1 : isVar y ps <;> by_cases e2 : isVar y pp <;>
        simp [renameVar, partO, position, isVar_self, e1, e2]
  · rcases pg with _ | _ | w
    · rfl
    · rfl
    · by_cases e1 : isVar w ps <;> by_cases e2 : isVar w pp <;> by_cases e3 : isVar w po <;>
        simp [renameVar, partG, position, e1, e2, e3]

theorem rename_variableAt [DecidableEq X] (pat : QuadPattern T X) (x : X) :
    renameQuad (variableAt pat x) (writeQuad (.fromPattern pat)) = pat := by
  obtain ⟨h1, h2, h3, h4⟩ := fromPattern_parts pat
  simp only [renameQuad, writeQuad, h1, h2, h3, h4]
  obtain ⟨ps, pp, po, pg⟩ := pat
  simp only [Quad.mk.injEq]
  refine ⟨?_, ?_, ?_, ?_⟩
  · cases ps <;> simp [renameVar, partS, variableAt, variableAt.get]
  · cases pp with
    | resource => rfl
    | var y =>
      by_cases e1 : ps = .var y <;>
        simp [partP, isVar_iff, renameVar, variableAt, variableAt.get, e1]
  · cases po with
    | resource => rfl
    | var y =>
      by_cases e1 : ps = .var y <;> by_cases e2 : pp = .var y <;>
        simp [partO, isVar_iff, renameVar, variableAt, variableAt.get, e1, e2]
  · rcases pg with _ | _ | w
    · rfl
    · rfl
    · by_cases e1 : ps = .var w <;> by_cases e2 : pp = .var w <;> by_cases e3 : po = .var w <;>
        simp [partG, isVar_iff, renameVar, variableAt, variableAt.get, e1, e2, e3]

theorem renameVar_comp {Z : Type} (ρ : X → Y) (τ : Y → Z) (e : ResourceOrVar T X) :
    renameVar τ (renameVar ρ e) = renameVar (τ ∘ ρ) e := by
  cases e <;> rfl

theorem renameQuad_comp {Z : Type} (ρ : X → Y) (τ : Y → Z) (pat : QuadPattern T X) :
    renameQuad τ (renameQuad ρ pat) = renameQuad (τ ∘ ρ) pat := by
  obtain ⟨s, p, o, g⟩ := pat
  cases g <;> simp [renameQuad, renameVar_comp]

/-- One renaming of patterns of equal forms. -/
theorem rename_of_forms [DecidableEq X] [DecidableEq Y] {pat : QuadPattern T X}
    {pat' : QuadPattern T Y} (y : Y)
    (h : CanonicalQuadPattern.fromPattern pat = .fromPattern pat') :
    ∃ ρ : X → Y, renameQuad ρ pat = pat' := by
  refine ⟨variableAt pat' y ∘ position pat, ?_⟩
  rw [← renameQuad_comp, rename_position, h, rename_variableAt]

theorem isVar_rename [DecidableEq X] [DecidableEq Y] {ρ : X → Y} {τ : Y → X} {x : X}
    {e : ResourceOrVar T X} (hx : τ (ρ x) = x) (he : renameVar τ (renameVar ρ e) = e) :
    isVar (ρ x) (renameVar ρ e) = isVar x e := by
  cases e with
  | resource => rfl
  | var y =>
    simp only [renameVar, ResourceOrVar.var.injEq] at he
    simp only [isVar, renameVar, decide_eq_decide]
    constructor
    · intro h; rw [← hx, h, he]
    · rintro rfl; rfl

/-- Renaming back and forth does not change the form. -/
theorem forms_of_rename [DecidableEq X] [DecidableEq Y] {pat : QuadPattern T X} {ρ : X → Y}
    {τ : Y → X} (h : renameQuad τ (renameQuad ρ pat) = pat) :
    CanonicalQuadPattern.fromPattern (renameQuad ρ pat) = .fromPattern pat := by
  obtain ⟨h1, h2, h3, h4⟩ := fromPattern_parts pat
  obtain ⟨k1, k2, k3, k4⟩ := fromPattern_parts (renameQuad ρ pat)
  obtain ⟨ps, pp, po, pg⟩ := pat
  simp only [renameQuad, Quad.mk.injEq] at h
  obtain ⟨e1, e2, e3, e4⟩ := h
  refine quad_parts_inj (k1.trans (.trans ?_ h1.symm)) (k2.trans (.trans ?_ h2.symm))
    (k3.trans (.trans ?_ h3.symm)) (k4.trans (.trans ?_ h4.symm)) <;> simp only [renameQuad]
  · cases ps <;> rfl
  · cases pp with
    | resource => rfl
    | var y =>
      have hy : τ (ρ y) = y := by simpa [renameVar] using e2
      show (if isVar (ρ y) _ = true then _ else _) = _
      rw [isVar_rename hy e1]
      rfl
  · cases po with
    | resource => rfl
    | var y =>
      have hy : τ (ρ y) = y := by simpa [renameVar] using e3
      show (if isVar (ρ y) _ = true then _ else if isVar (ρ y) _ = true then _ else _) = _
      rw [isVar_rename hy e1, isVar_rename hy e2]
      rfl
  · rcases pg with _ | _ | y
    · rfl
    · rfl
    · have hy : τ (ρ y) = y := by simpa [renameVar] using e4
      show (if isVar (ρ y) _ = true then _ else if isVar (ρ y) _ = true then _ else
        if isVar (ρ y) _ = true then _ else _) = _
      rw [isVar_rename hy e1, isVar_rename hy e2, isVar_rename hy e3]
      rfl

end quad

section triple

open TPat CanonicalTriplePattern

/-- A pattern of which a canonical pattern is the form. -/
def writeTriple (x : CanonicalTriplePattern T) : TriplePattern T Nat where
  s := match x.subject with | .any => .var 0 | .given t => .resource t
  p := match x.predicate with | .any => .var 1 | .sameAsSubject => .var 0 | .given t => .resource t
  o := match x.object with
    | .any => .var 2 | .sameAsSubject => .var 0 | .sameAsPredicate => .var 1
    | .given t => .resource t

theorem fromPattern_writeTriple (x : CanonicalTriplePattern T) : fromPattern (writeTriple x) = x := by
  cases_triple x <;> rfl

theorem fromPattern_triple_parts [DecidableEq X] (pat : TriplePattern T X) :
    (fromPattern pat).subject = partS pat.s ∧ (fromPattern pat).predicate = partP pat.s pat.p ∧
      (fromPattern pat).object = partO pat.s pat.p pat.o := by
  obtain ⟨ps, pp, po⟩ := pat
  rcases ps with _ | x <;> rcases pp with _ | y <;> rcases po with _ | z <;>
    simp only [fromPattern, TPat.AnySubject.fromPattern,
        TPat.GivenSubject.fromPattern, TPat.AnySubjectAnyPredicate.fromPattern,
        TPat.AnySubjectGivenPredicate.fromPattern, TPat.GivenSubjectAnyPredicate.fromPattern,
        TPat.GivenSubjectGivenPredicate.fromPattern,
        partS, partP, partO, isVar, decide_eq_true_eq, Bool.false_eq_true, if_false] <;>
    (repeat' split) <;>
    first
    | exact ⟨rfl, rfl, rfl⟩
    | (subst_vars; simp_all; done)

/-- The form of a triple pattern, seen in the default graph. -/
theorem forms_default [DecidableEq X] [DecidableEq Y] {pat : TriplePattern T X}
    {pat' : TriplePattern T Y} :
    CanonicalTriplePattern.fromPattern pat = .fromPattern pat' ↔
    CanonicalQuadPattern.fromPattern (⟨pat.s, pat.p, pat.o, none⟩ : QuadPattern T X) =
      .fromPattern (⟨pat'.s, pat'.p, pat'.o, none⟩ : QuadPattern T Y) := by
  obtain ⟨h1, h2, h3⟩ := fromPattern_triple_parts pat
  obtain ⟨k1, k2, k3⟩ := fromPattern_triple_parts pat'
  obtain ⟨l1, l2, l3, l4⟩ := fromPattern_parts (⟨pat.s, pat.p, pat.o, none⟩ : QuadPattern T X)
  obtain ⟨m1, m2, m3, m4⟩ := fromPattern_parts (⟨pat'.s, pat'.p, pat'.o, none⟩ : QuadPattern T Y)
  constructor
  · intro h
    rw [h] at h1 h2 h3
    exact quad_parts_inj (l1.trans (h1.symm.trans (k1.trans m1.symm)))
      (l2.trans (h2.symm.trans (k2.trans m2.symm)))
      (l3.trans (h3.symm.trans (k3.trans m3.symm))) (l4.trans m4.symm)
  · intro h
    rw [h] at l1 l2 l3
    exact triple_parts_inj (h1.trans (l1.symm.trans (m1.trans k1.symm)))
      (h2.trans (l2.symm.trans (m2.trans k2.symm)))
      (h3.trans (l3.symm.trans (m3.trans k3.symm)))

end triple

end RdfTypes.Proof
