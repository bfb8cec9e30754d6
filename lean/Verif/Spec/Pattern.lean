import Verif.Model.QuadPattern

/-!
# What patterns mean

A specification of the statements a pattern stands for. It reads the
constructors of the pattern types by their names and uses none of the functions
of the model.
-/

namespace RdfTypes.Spec

variable {T U X : Type}

/-! ## Patterns made of terms and variables -/

/-- The term a term or variable stands for under an assignment of terms to
variables. -/
def instantiate (σ : X → T) : ResourceOrVar T X → T
  | .resource t => t
  | .var x => σ x

/-- The triple a triple pattern stands for under an assignment. -/
def instantiateTriple (σ : X → T) (pat : TriplePattern T X) : Triple T :=
  ⟨instantiate σ pat.s, instantiate σ pat.p, instantiate σ pat.o⟩

/-- The triples a triple pattern stands for. -/
def instanceOfTriple (pat : TriplePattern T X) (t : Triple T) : Prop :=
  ∃ σ : X → T, t = instantiateTriple σ pat

/-- The graph names allowed by the graph part of a quad pattern under an
assignment; `used` tells which variables occur in the other positions. -/
def graphAllowed (σ : X → T) (used : X → Prop) :
    Option (ResourceOrVar T X) → Option T → Prop
  | none, g => g = none
  | some (.resource t), g => g = some t
  | some (.var x), g => g = some (σ x) ∨ (g = none ∧ ¬ used x)

/-- The quads a quad pattern stands for: no graph means the default graph, a
variable that occurs only as graph stands for any graph, the default graph
included, and a variable that also occurs elsewhere for the graph named by its
term. -/
def instanceOfQuad (pat : QuadPattern T X) (q : Quad T) : Prop :=
  ∃ σ : X → T, q.s = instantiate σ pat.s ∧ q.p = instantiate σ pat.p ∧
    q.o = instantiate σ pat.o ∧
    graphAllowed σ (fun x => pat.s = .var x ∨ pat.p = .var x ∨ pat.o = .var x) pat.g q.g

/-- Renaming the variables of a term or variable. -/
def renameVar {Y : Type} (ρ : X → Y) : ResourceOrVar T X → ResourceOrVar T Y
  | .resource t => .resource t
  | .var x => .var (ρ x)

/-- Renaming the variables of a triple pattern. -/
def renameTriple {Y : Type} (ρ : X → Y) (pat : TriplePattern T X) : TriplePattern T Y :=
  ⟨renameVar ρ pat.s, renameVar ρ pat.p, renameVar ρ pat.o⟩

/-- Renaming the variables of a quad pattern. -/
def renameQuad {Y : Type} (ρ : X → Y) (pat : QuadPattern T X) : QuadPattern T Y :=
  ⟨renameVar ρ pat.s, renameVar ρ pat.p, renameVar ρ pat.o, pat.g.map (renameVar ρ)⟩

/-- A term in the place of a variable. -/
def substitute [DecidableEq X] (y : X) (t : T) : ResourceOrVar T X → ResourceOrVar T X
  | .resource r => .resource r
  | .var x => if x = y then .resource t else .var x

/-- A term in all the places of a variable. -/
def substituteTriple [DecidableEq X] (y : X) (t : T) (pat : TriplePattern T X) :
    TriplePattern T X :=
  ⟨substitute y t pat.s, substitute y t pat.p, substitute y t pat.o⟩

/-! ## Canonical triple patterns -/

/-- The triples matched by a canonical triple pattern, by the names of the
constructors. -/
def matchesTriple : CanonicalTriplePattern T → Triple T → Prop
  | .anySubject (.anyPredicate o), t =>
    match o with
    | .anyObject => True
    | .sameAsSubject => t.o = t.s
    | .sameAsPredicate => t.o = t.p
    | .givenObject x => t.o = x
  | .anySubject (.sameAsSubject o), t =>
    t.p = t.s ∧
    match o with
    | .anyObject => True
    | .sameAsSubject => t.o = t.s
    | .givenObject x => t.o = x
  | .anySubject (.givenPredicate p o), t =>
    t.p = p ∧
    match o with
    | .anyObject => True
    | .sameAsSubject => t.o = t.s
    | .givenObject x => t.o = x
  | .givenSubject s (.anyPredicate o), t =>
    t.s = s ∧
    match o with
    | .anyObject => True
    | .sameAsPredicate => t.o = t.p
    | .givenObject x => t.o = x
  | .givenSubject s (.givenPredicate p o), t =>
    t.s = s ∧ t.p = p ∧
    match o with
    | .anyObject => True
    | .givenObject x => t.o = x

/-! ## Canonical quad patterns -/

namespace QuadMatch

open QPat

/-- Graph part when subject, predicate and object are variables of their own. -/
def anyAnyAny : AnySubjectAnyPredicateAnyObject T → Quad T → Prop
  | .anyGraph, _ => True
  | .sameAsSubject, q => q.g = some q.s
  | .sameAsPredicate, q => q.g = some q.p
  | .sameAsObject, q => q.g = some q.o
  | .givenGraph g, q => q.g = g

/-- Graph part when only the predicate and object are variables of their own. -/
def givenAnyAny : GivenSubjectAnyPredicateAnyObject T → Quad T → Prop
  | .anyGraph, _ => True
  | .sameAsPredicate, q => q.g = some q.p
  | .sameAsObject, q => q.g = some q.o
  | .givenGraph g, q => q.g = g

/-- Graph part when only the subject and object are variables of their own. -/
def anyGivenAny : AnySubjectGivenPredicateAnyObject T → Quad T → Prop
  | .anyGraph, _ => True
  | .sameAsSubject, q => q.g = some q.s
  | .sameAsObject, q => q.g = some q.o
  | .givenGraph g, q => q.g = g

/-- Graph part when only the subject and predicate are variables of their own. -/
def anyAnyGiven : AnySubjectAnyPredicateGivenObject T → Quad T → Prop
  | .anyGraph, _ => True
  | .sameAsSubject, q => q.g = some q.s
  | .sameAsPredicate, q => q.g = some q.p
  | .givenGraph g, q => q.g = g

/-- Graph part when only the subject is a variable of its own. -/
def anyGivenGiven : AnySubjectGivenPredicateGivenObject T → Quad T → Prop
  | .anyGraph, _ => True
  | .sameAsSubject, q => q.g = some q.s
  | .givenGraph g, q => q.g = g

/-- Graph part when only the predicate is a variable of its own. -/
def givenAnyGiven : GivenSubjectAnyPredicateGivenObject T → Quad T → Prop
  | .anyGraph, _ => True
  | .sameAsPredicate, q => q.g = some q.p
  | .givenGraph g, q => q.g = g

/-- Graph part when only the object is a variable of its own. -/
def givenGivenAny : GivenSubjectGivenPredicateAnyObject T → Quad T → Prop
  | .anyGraph, _ => True
  | .sameAsObject, q => q.g = some q.o
  | .givenGraph g, q => q.g = g

/-- Graph part when no other position is a variable of its own. -/
def givenGivenGiven : GivenSubjectGivenPredicateGivenObject T → Quad T → Prop
  | .anyGraph, _ => True
  | .givenGraph g, q => q.g = g

end QuadMatch

open QuadMatch

/-- The quads matched by a canonical quad pattern, by the names of the
constructors. `SameAs...` in graph position demands a named graph. -/
def matchesQuad : CanonicalQuadPattern T → Quad T → Prop
  | .anySubject (.anyPredicate o), q =>
    match o with
    | .anyObject g => anyAnyAny g q
    | .sameAsSubject g => q.o = q.s ∧ anyAnyGiven g q
    | .sameAsPredicate g => q.o = q.p ∧ anyAnyGiven g q
    | .givenObject x g => q.o = x ∧ anyAnyGiven g q
  | .anySubject (.sameAsSubject o), q =>
    q.p = q.s ∧
    match o with
    | .anyObject g => anyGivenAny g q
    | .sameAsSubject g => q.o = q.s ∧ anyGivenGiven g q
    | .givenObject x g => q.o = x ∧ anyGivenGiven g q
  | .anySubject (.givenPredicate p o), q =>
    q.p = p ∧
    match o with
    | .anyObject g => anyGivenAny g q
    | .sameAsSubject g => q.o = q.s ∧ anyGivenGiven g q
    | .givenObject x g => q.o = x ∧ anyGivenGiven g q
  | .givenSubject s (.anyPredicate o), q =>
    q.s = s ∧
    match o with
    | .anyObject g => givenAnyAny g q
    | .sameAsPredicate g => q.o = q.p ∧ givenAnyGiven g q
    | .givenObject x g => q.o = x ∧ givenAnyGiven g q
  | .givenSubject s (.givenPredicate p o), q =>
    q.s = s ∧ q.p = p ∧
    match o with
    | .anyObject g => givenGivenAny g q
    | .givenObject x g => q.o = x ∧ givenGivenGiven g q

/-! ## Parts of patterns -/

/-- What a subject part demands of the subject. -/
def subjectHolds : PatternSubject T → T → Prop
  | .any, _ => True
  | .given x, s => s = x

/-- What a predicate part demands. -/
def predicateHolds : PatternPredicate T → (s p : T) → Prop
  | .any, _, _ => True
  | .sameAsSubject, s, p => p = s
  | .given x, _, p => p = x

/-- What an object part demands. -/
def objectHolds : PatternObject T → (s p o : T) → Prop
  | .any, _, _, _ => True
  | .sameAsSubject, s, _, o => o = s
  | .sameAsPredicate, _, p, o => o = p
  | .given x, _, _, o => o = x

/-- What a graph part demands. -/
def graphHolds : PatternGraph T → (s p o : T) → Option T → Prop
  | .any, _, _, _, _ => True
  | .sameAsSubject, s, _, _, g => g = some s
  | .sameAsPredicate, _, p, _, g => g = some p
  | .sameAsObject, _, _, o, g => g = some o
  | .given x, _, _, _, g => g = x

/-- An optional term demands equality when present. -/
def optionHolds : Option T → T → Prop
  | none, _ => True
  | some x, t => t = x

/-! ## Decidability, used by concrete cases -/

instance [DecidableEq T] (x : CanonicalTriplePattern T) (t : Triple T) :
    Decidable (matchesTriple x t) := by
  unfold matchesTriple
  split <;> split <;> infer_instance

namespace QuadMatch
open QPat
variable [DecidableEq T] (q : Quad T)
instance (g : AnySubjectAnyPredicateAnyObject T) : Decidable (anyAnyAny g q) := by
  unfold anyAnyAny; split <;> infer_instance
instance (g : GivenSubjectAnyPredicateAnyObject T) : Decidable (givenAnyAny g q) := by
  unfold givenAnyAny; split <;> infer_instance
instance (g : AnySubjectGivenPredicateAnyObject T) : Decidable (anyGivenAny g q) := by
  unfold anyGivenAny; split <;> infer_instance
instance (g : AnySubjectAnyPredicateGivenObject T) : Decidable (anyAnyGiven g q) := by
  unfold anyAnyGiven; split <;> infer_instance
instance (g : AnySubjectGivenPredicateGivenObject T) : Decidable (anyGivenGiven g q) := by
  unfold anyGivenGiven; split <;> infer_instance
instance (g : GivenSubjectAnyPredicateGivenObject T) : Decidable (givenAnyGiven g q) := by
  unfold givenAnyGiven; split <;> infer_instance
instance (g : GivenSubjectGivenPredicateAnyObject T) : Decidable (givenGivenAny g q) := by
  unfold givenGivenAny; split <;> infer_instance
instance (g : GivenSubjectGivenPredicateGivenObject T) : Decidable (givenGivenGiven g q) := by
  unfold givenGivenGiven; split <;> infer_instance
end QuadMatch

instance [DecidableEq T] (x : CanonicalQuadPattern T) (q : Quad T) :
    Decidable (matchesQuad x q) := by
  unfold matchesQuad
  split <;> split <;> infer_instance

end RdfTypes.Spec
