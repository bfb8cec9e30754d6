import Verif.Spec.Resources

/-!
# What the lists of terms contain, after which history

The lists of subjects, predicates, objects and graph names of the indexed
containers are not functions of the statements. They depend on the successive
contents of the container, of which the latest comes first below.
-/

namespace RdfTypes.Spec

variable {R S : Type}

/-! ## Successive contents -/

/-- A call changes the content of an `IndexedBTreeDataset`. A quad is inserted only
when every resource it repeats already occurs. -/
inductive DatasetStep [Ord R] (rep : Bool) :
    IndexedBTreeDataset R → (Quad R → Prop) → IndexedBTreeDataset R → (Quad R → Prop) → Prop
  | insert {d d' : IndexedBTreeDataset R} {A : Quad R → Prop} {x : Quad R} {b : Bool} :
    knownRepeats A (.insert x) → d.insert rep x = .ok (d', b) →
    DatasetStep rep d A d' (fun y => A y ∨ y = x)
  | remove {d d' : IndexedBTreeDataset R} {A : Quad R → Prop} {x : Quad R} {b : Bool} :
    d.remove x = .ok (d', b) → DatasetStep rep d A d' (fun y => A y ∧ y ≠ x)
  | removeGraph {d d' : IndexedBTreeDataset R} {A : Quad R → Prop} {g : Option R}
      {out : Option (BTreeGraph R)} :
    d.removeGraph rep g = .ok (d', out) → DatasetStep rep d A d' (fun y => A y ∧ ¬ returned g out y)
  | extract {d d' : IndexedBTreeDataset R} {A : Quad R → Prop} {pat : CanonicalQuadPattern R}
      {cap n : Nat} {out : List (Quad R)} {ended : Bool} :
    d.quads.entries.length ≤ cap → d.extractPatternMatching cap pat n = .ok (d', out, ended) →
    DatasetStep rep d A d' (fun y => A y ∧ y ∉ out)

/-- States of an `IndexedBTreeDataset` with the contents it has had. -/
inductive DatasetPast [Ord R] (rep : Bool) :
    IndexedBTreeDataset R → List (Quad R → Prop) → Prop
  | new : DatasetPast rep IndexedBTreeDataset.new [nothing]
  | convert {g : BTreeDataset R} {A : Quad R → Prop} {d : IndexedBTreeDataset R} :
    Reach (BTreeDataset.container rep R) knownRepeats g A →
    IndexedBTreeDataset.fromNonIndexed g = .ok d → DatasetPast rep d [A]
  | step {d d' : IndexedBTreeDataset R} {A A' : Quad R → Prop} {l : List (Quad R → Prop)} :
    DatasetPast rep d (A :: l) → DatasetStep rep d A d' A' → DatasetPast rep d' (A' :: A :: l)

/-- The same for an `IndexedBTreeGraph`. -/
inductive GraphPast [Ord R] (rep : Bool) : IndexedBTreeGraph R → List (Triple R → Prop) → Prop
  | new : GraphPast rep IndexedBTreeGraph.new [nothing]
  | convert {g : BTreeGraph R} {A : Triple R → Prop} {d : IndexedBTreeGraph R} :
    Reach (BTreeGraph.container rep R) knownTripleRepeats g A →
    IndexedBTreeGraph.fromNonIndexed g = .ok d → GraphPast rep d [A]
  | insert {d d' : IndexedBTreeGraph R} {A : Triple R → Prop} {l : List (Triple R → Prop)}
      {x : Triple R} {b : Bool} :
    GraphPast rep d (A :: l) → knownTripleRepeats A (.insert x) → d.insert rep x = .ok (d', b) →
    GraphPast rep d' ((fun y => A y ∨ y = x) :: A :: l)
  | remove {d d' : IndexedBTreeGraph R} {A : Triple R → Prop} {l : List (Triple R → Prop)}
      {x : Triple R} {b : Bool} :
    GraphPast rep d (A :: l) → d.remove x = .ok (d', b) →
    GraphPast rep d' ((fun y => A y ∧ y ≠ x) :: A :: l)

/-! ## Subjects, predicates and objects -/

/-- The latest call that added or took out a statement with `r` at position `f` added
it. (A container obtained by conversion starts with all its statements added.) -/
def lastAdded (f : S → R) : List (S → Prop) → R → Prop
  | [], _ => False
  | [A], r => ∃ y, A y ∧ f y = r
  | A' :: A :: l, r => (∃ y, A' y ∧ ¬ A y ∧ f y = r) ∨
    (lastAdded f (A :: l) r ∧ ¬ ∃ y, A y ∧ ¬ A' y ∧ f y = r)

/-- `list` lists each term described by `listed` once, and nothing else, and `count`
counts them. -/
def ListsByPast {D : Type} (Past : D → List (S → Prop) → Prop)
    (listed : List (S → Prop) → R → Prop) (list : D → Res (List R)) (count : D → Nat) : Prop :=
  ∀ d l, Past d l → ∃ rs, list d = .ok rs ∧ rs.Nodup ∧ (∀ r, r ∈ rs ↔ listed l r) ∧
    count d = rs.length

/-! ## Graph names -/

/-- `r` occurs in the content. -/
def occursIn (A : Quad R → Prop) (r : R) : Prop := ∃ y, A y ∧ quadHas y r

/-- `r` has been the name of a graph with a quad, and has occurred somewhere in the
dataset ever since. -/
def onceNamed : List (Quad R → Prop) → R → Prop
  | [], _ => False
  | [A], r => ∃ y, A y ∧ y.g = some r
  | A' :: A :: l, r => (∃ y, A' y ∧ y.g = some r) ∨ (onceNamed (A :: l) r ∧ occursIn A' r)

/-- Whenever a term that has been a graph name stops occurring, the quads taken out
that had it had it as graph name. -/
def LeavesAsName : List (Quad R → Prop) → Prop
  | [] => True
  | [_] => True
  | A' :: A :: l => LeavesAsName (A :: l) ∧
    ∀ r, onceNamed (A :: l) r → ¬ occursIn A' r → ∀ y, A y → ¬ A' y → quadHas y r → y.g = some r

/-- In the latest call, a term that has been a graph name has stopped occurring,
although no quad of its graph was taken out. -/
def LeftOtherwise : List (Quad R → Prop) → Prop
  | A' :: A :: l => ∃ r, onceNamed (A :: l) r ∧ ¬ occursIn A' r ∧
    ∀ y, A y → ¬ A' y → y.g ≠ some r
  | _ => False

/-- `remove_graph(Some(g))` returns a graph exactly when `g` has been a graph name
and has occurred ever since; the graph has exactly the triples of the quads of graph
`g`, and the other quads remain. -/
def TakesOnceNamed [Ord R] (rep : Bool) (d : IndexedBTreeDataset R) (l : List (Quad R → Prop)) :
    Prop :=
  ∀ A, l.head? = some A → ∀ g, ∃ d' out, d.removeGraph rep (some g) = .ok (d', out) ∧
    (out.isSome = true ↔ onceNamed l g) ∧
    (∀ gr, out = some gr → ∀ t, ∃ b, gr.contains t = .ok b ∧ (b = true ↔ A (t.intoQuad (some g)))) ∧
    ∀ y, ∃ b, d'.contains y = .ok b ∧ (b = true ↔ A y ∧ y.g ≠ some g)

end RdfTypes.Spec
