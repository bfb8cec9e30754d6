import Verif.Base.BTree

/-!
# Searching in a tree

A search in an ordered tree compares items one after another, each between the greatest
one found smaller and the least one found greater so far. In which order depends on the
shape of the tree, and, in a B-tree, on how a node is searched.
-/

namespace RdfTypes.Spec

/-- Some search for what `cmp` looks for, among the items of `l` from `lo` and before `hi`,
ends with this result: the place of an equal item, or the place where it would be. -/
inductive Probe (cmp : Nat → Res Ordering) (l : List Nat) : Nat → Nat → Res (Nat × Bool) → Prop
  | absent {lo : Nat} : Probe cmp l lo lo (.ok (lo, false))
  | smaller {lo hi m i : Nat} {r : Res (Nat × Bool)} : lo ≤ m → m < hi → l[m]? = some i →
    cmp i = .ok .lt → Probe cmp l (m + 1) hi r → Probe cmp l lo hi r
  | greater {lo hi m i : Nat} {r : Res (Nat × Bool)} : lo ≤ m → m < hi → l[m]? = some i →
    cmp i = .ok .gt → Probe cmp l lo m r → Probe cmp l lo hi r
  | equal {lo hi m i : Nat} : lo ≤ m → m < hi → l[m]? = some i → cmp i = .ok .eq →
    Probe cmp l lo hi (.ok (m, true))
  | panics {lo hi m i : Nat} {e : Panic} : lo ≤ m → m < hi → l[m]? = some i → cmp i = .error e →
    Probe cmp l lo hi (.error e)

/-- The answers of a comparator on the items of an index: no panic, `Less` before
anything else, and nothing but `Greater` after that. -/
def InOrder (cmp : Nat → Res Ordering) (l : List Nat) : Prop :=
  ∃ os, l.mapM cmp = .ok os ∧ os.Pairwise fun a b => a ≠ .lt → b = .gt

end RdfTypes.Spec
