import Verif.Model.Container

/-!
# What a container of statements means

A container stands for a set of statements; sets are predicates. Nothing here
refers to slabs, indexes or any other part of the implementation.
-/

namespace RdfTypes.Spec

/-- The empty set. -/
def nothing {S : Type} : S → Prop := fun _ => False

/-- The set `A` after one call. -/
def apply {S : Type} (A : S → Prop) : Op S → S → Prop
  | .insert x => fun y => A y ∨ y = x
  | .remove x => fun y => A y ∧ y ≠ x
  | .extend l => fun y => A y ∨ y ∈ l

/-- The set `A` after a sequence of calls. -/
def after {S : Type} (A : S → Prop) : List (Op S) → S → Prop
  | [] => A
  | op :: l => after (apply A op) l

/-- `l` lists the set `A` in strictly ascending order. -/
structure Lists {S : Type} [Ord S] (l : List S) (A : S → Prop) : Prop where
  ascending : l.Pairwise (fun x y => compare x y = .lt)
  exact : ∀ x, x ∈ l ↔ A x

/-- A comparison that is a total order in which `eq` means equality. -/
structure TotalOrder {A : Type} (same : A → A → Prop) (cmp : A → A → Ordering → Prop) : Prop where
  total : ∀ a b, ∃ o, cmp a b o
  unique : ∀ a b o o', cmp a b o → cmp a b o' → o = o'
  eq_iff : ∀ a b, cmp a b .eq ↔ same a b
  swap : ∀ a b o, cmp a b o → cmp b a o.swap
  trans : ∀ a b c, cmp a b .lt → cmp b c .lt → cmp a c .lt

end RdfTypes.Spec
