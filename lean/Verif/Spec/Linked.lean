import Verif.Base.LinkedSlab

/-!
# Slabs that answer alike
-/

namespace RdfTypes.Spec

variable {α : Type}

/-- The calls on a slab that the crate makes. -/
inductive SlabCall (α : Type) where
  | insert (v : α)
  | remove (k : Nat)
  | index (k : Nat)
  | modify (k : Nat) (f : α → α)
  | vacantKey
  | len

/-- What a call returns. -/
inductive SlabAnswer (α : Type) where
  | value (v : α)
  | number (n : Nat)
  | done
  | panic
  deriving DecidableEq

/-- A call on the slab with a stack. A slab that panics is left as it was. -/
def askStack (s : Slab α) : SlabCall α → SlabAnswer α × Slab α
  | .insert v => (.number s.vacantKey, s.insert v)
  | .remove k =>
    match s.remove k with
    | .ok (s', v) => (.value v, s')
    | .error _ => (.panic, s)
  | .index k =>
    match s.index k with
    | .ok v => (.value v, s)
    | .error _ => (.panic, s)
  | .modify k f =>
    match s.modify k (fun v => .ok (f v)) with
    | .ok s' => (.done, s')
    | .error _ => (.panic, s)
  | .vacantKey => (.number s.vacantKey, s)
  | .len => (.number s.len, s)

/-- A call on the slab with a linked list. -/
def askLinked (t : LinkedSlab α) : SlabCall α → SlabAnswer α × LinkedSlab α
  | .insert v =>
    match t.insert v with
    | .ok t' => (.number t.next, t')
    | .error _ => (.panic, t)
  | .remove k =>
    match t.remove k with
    | .ok (t', v) => (.value v, t')
    | .error _ => (.panic, t)
  | .index k =>
    match t.index k with
    | .ok v => (.value v, t)
    | .error _ => (.panic, t)
  | .modify k f =>
    match t.modify k f with
    | .ok t' => (.done, t')
    | .error _ => (.panic, t)
  | .vacantKey => (.number t.vacantKey, t)
  | .len => (.number t.len, t)

/-- The answers to a list of calls, and the state after them. -/
def askAll {D C B : Type} (ask : D → C → B × D) : D → List C → List B × D
  | d, [] => ([], d)
  | d, c :: l =>
    let (b, d') := ask d c
    let (bs, d'') := askAll ask d' l
    (b :: bs, d'')

/-- Both slabs answer all calls alike. -/
def AnswerAlike (t : LinkedSlab α) (s : Slab α) : Prop :=
  ∀ l, (askAll askLinked t l).1 = (askAll askStack s l).1

end RdfTypes.Spec
