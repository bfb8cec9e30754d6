import Verif.Spec.Found
import Verif.Spec.Marks

/-!
# What the iterators over objects yield after any history

The objects of a subject and a predicate are looked up through the current records of the
two (and of the graph name); the predicates come from the list of predicates.
-/

namespace RdfTypes.Spec

variable {R S D X : Type} [DecidableEq R] [DecidableEq S]

/-- Statement `y` is within reach of a search that gives the positions in `given`: each
of its terms there has that occurrence in its current record. -/
def InReach (rep : Bool) (at_ : S → Pos → Option R) (l : List (Event S)) (given : List Pos)
    (y : S) : Prop :=
  ∀ p ∈ given, ∀ r, at_ y p = some r → (y, p) ∈ (recordsOf rep at_ r l).current

/-- An iterator over objects yields, in the order of the places, the objects of exactly
the statements `build x o` that are within reach. -/
def YieldsReached (Shelved : D → Shelf S → Prop) (Past : D → List (Event S) → Prop) (rep : Bool)
    (at_ : S → Pos → Option R) (slots : D → Nat) (object : S → R) (build : X → R → S)
    (run : Nat → Nat → D → X → Res (List R)) : Prop :=
  ∀ d h l, Shelved d h → Past d l → ∀ cap, slots d ≤ cap → ∀ fuel, cap < fuel → ∀ x, ∃ xs,
    run cap fuel d x = .ok (xs.map object) ∧
    Picks (fun y => y = build x (object y) ∧ InReach rep at_ l [.subj, .pred, .graph] y) h.places xs

/-- An iterator over predicates with their objects yields the predicates in the order of
the list of predicates. Each comes with the objects that the iterator above yields, at
least one, and as often as it has records listed as predicate. -/
def PairsReached (Shelved : D → Shelf S → Prop) (Past : D → List (Event S) → List (Event S) → Prop)
    (rep : Bool) (at_ : S → Pos → Option R) (slots : D → Nat) (predicates : D → Res (List R))
    (object : S → R) (build : X → R → R → S)
    (run : Nat → Nat → D → X → Res (List (R × List R))) : Prop :=
  ∀ d h l₀ l, Shelved d h → Past d l₀ l → ∀ cap, slots d ≤ cap → ∀ fuel, cap < fuel → ∀ x,
    ∃ out ps, run cap fuel d x = .ok out ∧ predicates d = .ok ps ∧
    (out.map (·.1)).Sublist ps ∧
    (∀ p os, (p, os) ∈ out → os ≠ [] ∧ ∃ xs, os = xs.map object ∧
      Picks (fun y => y = build x p (object y) ∧
        InReach rep at_ (l ++ l₀) [.subj, .pred, .graph] y) h.places xs) ∧
    ∀ p o, h.has (build x p o) → InReach rep at_ (l ++ l₀) [.subj, .pred, .graph] (build x p o) →
      (out.map (·.1)).count p =
        (recordsOf rep at_ p (l ++ l₀)).groups.countP (listedAt rep at_ p l₀ .pred l)

/-- A membership query answers true exactly when a statement wanted is within reach. -/
def AnswersReached (Shelved : D → Shelf S → Prop) (Past : D → List (Event S) → Prop) (rep : Bool)
    (at_ : S → Pos → Option R) (slots : D → Nat) (given : List Pos) (wanted : X → S → Prop)
    (method : Nat → D → X → Res Bool) : Prop :=
  ∀ d h l, Shelved d h → Past d l → ∀ cap, slots d ≤ cap → ∀ x, ∃ b, method cap d x = .ok b ∧
    (b = true ↔ ∃ y, h.has y ∧ wanted x y ∧ InReach rep at_ l given y)

end RdfTypes.Spec
