import Verif.Model.Generative
import Verif.Spec.Term

/-!
# What an interpretation is

An interpretation says at each time which resource a term denotes, if any. Inserting a
term makes it denote something and changes no other answer already given.
-/

namespace RdfTypes.Spec

open RdfTerm

variable {σ γ R I L : Type}

/-- Repeated calls of `next` give these items and then the end. -/
inductive Items {S A : Type} (next : S → Option A × S) : S → List A → Prop where
  | done {s s'} : next s = (none, s') → Items next s []
  | more {s s' a l} : next s = (some a, s') → Items next s' l → Items next s (a :: l)

/-- What the terms denote, at each state. -/
abbrev Denotation (σ R I L : Type) := σ → RdfTerm I L → Option R

/-- From `s` to `s'`, `t` has been made to denote `r`, and no answer has been changed. -/
def Adds (den : Denotation σ R I L) (s : σ) (t : RdfTerm I L) (r : R) (s' : σ) : Prop :=
  den s' t = some r ∧ ∀ u r', den s u = some r' → den s' u = some r'

/-- A mutable interpretation of IRIs and literals follows a denotation. -/
structure Follows (m : InterpretationMut σ R I L) (den : Denotation σ R I L) : Prop where
  iri : ∀ s i, m.iri s i = den s (.iri i)
  literal : ∀ s l, m.literal s l = den s (ofLiteralRef l)
  insertIri : ∀ s c, ∃ r s', m.insertIri s c = .ok (r, s') ∧ Adds den s (.iri (content c)) r s'
  insertLiteral : ∀ s c, ∃ r s', m.insertLiteral s c = .ok (r, s') ∧
    Adds den s (ofCowLiteral c) r s'

/-- The same with blank nodes. -/
structure FollowsLocal (m : LocalInterpretationMut σ R I L) (den : Denotation σ R I L) : Prop
    extends Follows m.toInterpretationMut den where
  insertBlankId : ∀ s c, ∃ r s', m.insertBlankId s c = .ok (r, s') ∧
    Adds den s (.blank (cowLabel c)) r s'

/-- No resource is denoted by two terms. -/
def NoSynonyms (den : Denotation σ R I L) : Prop :=
  ∀ s t u r, den s t = some r → den s u = some r → t = u

/-- Calls of the methods of an interpretation, other than `new_resource`. -/
inductive Access (R I L : Type) where
  | iri (i : I)
  | literal (l : LiteralRef I L)
  | term (t : TermRef I L)
  | blankId (b : BlankId)
  | localTerm (t : LocalTermRef I L)
  | id (i : IdRef I)
  | insertIri (i : Cow I I)
  | insertLiteral (l : CowLiteral I L)
  | insertTerm (t : CowTerm I L)
  | insertBlankId (b : Cow BlankId BlankIdBuf)
  | insertLocalTerm (t : CowLocalTerm I L)
  | insertId (i : CowId I)
  | irisOf (r : R)
  | literalsOf (r : R)
  | blankIdsOf (r : R)
  | isAnonymous (r : R)

/-- Their results. -/
inductive Answer (R I L : Type) where
  | maybe (r : Option R)
  | resource (r : R)
  | iris (l : List (Cow I I))
  | literals (l : List (CowLiteral I L))
  | blankIds (l : List (Cow BlankId BlankIdBuf))
  | bool (b : Bool)

/-- A type with the traits of interpretations of IRIs and literals. -/
structure Basics (σ R I L : Type) where
  insert : InterpretationMut σ R I L
  list : ReverseLookup σ R I L

/-- The result of one call; those of the other traits are not available. -/
def Basics.call (m : Basics σ R I L) (s : σ) : Access R I L → Res (Answer R I L × σ)
  | .iri i => .ok (.maybe (m.insert.iri s i), s)
  | .literal l => .ok (.maybe (m.insert.literal s l), s)
  | .term t => .ok (.maybe (m.insert.term s t), s)
  | .insertIri i => (m.insert.insertIri s i).map fun (r, s) => (.resource r, s)
  | .insertLiteral l => (m.insert.insertLiteral s l).map fun (r, s) => (.resource r, s)
  | .insertTerm t => (m.insert.insertTerm s t).map fun (r, s) => (.resource r, s)
  | .irisOf r => .ok (.iris (m.list.irisOf s r), s)
  | .literalsOf r => .ok (.literals (m.list.literalsOf s r), s)
  | .isAnonymous r => .ok (.bool (m.list.isAnonymous s r), s)
  | _ => .ok (.maybe none, s)

/-- A type that also interprets blank nodes, without inserting them. -/
structure Locals (σ R I L : Type) where
  look : LocalInterpretation σ R I L
  insert : InterpretationMut σ R I L
  list : ReverseLocalLookup σ R I L

def Locals.call (m : Locals σ R I L) (s : σ) : Access R I L → Res (Answer R I L × σ)
  | .iri i => .ok (.maybe (m.look.iri s i), s)
  | .literal l => .ok (.maybe (m.look.literal s l), s)
  | .term t => .ok (.maybe (m.look.term s t), s)
  | .blankId b => .ok (.maybe (m.look.blankId s b), s)
  | .localTerm t => .ok (.maybe (m.look.localTerm s t), s)
  | .id i => .ok (.maybe (m.look.id s i), s)
  | .insertIri i => (m.insert.insertIri s i).map fun (r, s) => (.resource r, s)
  | .insertLiteral l => (m.insert.insertLiteral s l).map fun (r, s) => (.resource r, s)
  | .insertTerm t => (m.insert.insertTerm s t).map fun (r, s) => (.resource r, s)
  | .irisOf r => .ok (.iris (m.list.irisOf s r), s)
  | .literalsOf r => .ok (.literals (m.list.literalsOf s r), s)
  | .blankIdsOf r => .ok (.blankIds (m.list.blankIdsOf s r), s)
  | .isAnonymous r => .ok (.bool (m.list.isAnonymous s r), s)
  | _ => .ok (.maybe none, s)

/-- A type with all the traits of local interpretations. -/
structure Everything (σ R I L : Type) where
  look : LocalInterpretation σ R I L
  insert : LocalInterpretationMut σ R I L
  list : ReverseLocalLookup σ R I L

def Everything.call (m : Everything σ R I L) (s : σ) : Access R I L → Res (Answer R I L × σ)
  | .insertBlankId b => (m.insert.insertBlankId s b).map fun (r, s) => (.resource r, s)
  | .insertLocalTerm t => (m.insert.insertLocalTerm s t).map fun (r, s) => (.resource r, s)
  | .insertId i => (m.insert.insertId s i).map fun (r, s) => (.resource r, s)
  | a => Locals.call ⟨m.look, m.insert.toInterpretationMut, m.list⟩ s a

/-- A sequence of calls, in which `none` is `new_resource`. -/
def calls (call : σ → Access R I L → Res (Answer R I L × σ)) (new : σ → Res (R × σ)) :
    List (Option (Access R I L)) → σ → Res (List (Answer R I L) × σ)
  | [], s => .ok ([], s)
  | some a :: l, s => do
    let (x, s) ← call s a
    let (xs, s) ← calls call new l s
    .ok (x :: xs, s)
  | none :: l, s => do
    let (r, s) ← new s
    let (xs, s) ← calls call new l s
    .ok (.resource r :: xs, s)

/-- The same calls on an interpretation without a generator, each `new_resource` replaced
by the insertion of the next generated term; with the generator after it. -/
def scripted {T : Type} (next : Generator γ T) (insert : T → Access R I L) :
    List (Option (Access R I L)) → γ → Res (List (Access R I L) × γ)
  | [], g => .ok ([], g)
  | some a :: l, g => do
    let (as, g) ← scripted next insert l g
    .ok (a :: as, g)
  | none :: l, g => do
    let (t, g) ← next g
    let (as, g) ← scripted next insert l g
    .ok (insert t :: as, g)

/-- Calls without `new_resource`. -/
def accesses (call : σ → Access R I L → Res (Answer R I L × σ)) :
    List (Access R I L) → σ → Res (List (Answer R I L) × σ)
  | [], s => .ok ([], s)
  | a :: l, s => do
    let (x, s) ← call s a
    let (xs, s) ← accesses call l s
    .ok (x :: xs, s)

/-- That many calls in a row. -/
def times {A : Type} (f : σ → Res (A × σ)) : Nat → σ → Res (List A × σ)
  | 0, s => .ok ([], s)
  | n + 1, s => do
    let (a, s) ← f s
    let (as, s) ← times f n s
    .ok (a :: as, s)

/-- What the calls of `new_resource` among these returned. -/
def created : List (Option (Access R I L)) → List (Answer R I L) → List R
  | none :: l, .resource r :: xs => r :: created l xs
  | _ :: l, _ :: xs => created l xs
  | _, _ => []

end RdfTypes.Spec
