import Verif.Spec.Container
import Verif.Model.PatternMatching

/-!
# Histories of the indexed containers

Besides `insert` and `remove`, an indexed container can be obtained by converting
a plain one, and an indexed dataset has calls that take quads out. `cap` is the
capacity of the slab of quads, at least the number of its slots.
-/

namespace RdfTypes.Spec

variable {R : Type} [Ord R]

/-- States of an `IndexedBTreeGraph`. `P₀` restricts the calls made before a
conversion, `P` the calls made on the indexed graph itself. -/
inductive GraphReach (rep : Bool) (P₀ P : (Triple R → Prop) → Op (Triple R) → Prop) :
    IndexedBTreeGraph R → (Triple R → Prop) → Prop
  | new : GraphReach rep P₀ P IndexedBTreeGraph.new nothing
  | convert {g : BTreeGraph R} {A : Triple R → Prop} {d : IndexedBTreeGraph R} :
    Reach (BTreeGraph.container rep R) P₀ g A → IndexedBTreeGraph.fromNonIndexed g = .ok d →
    GraphReach rep P₀ P d A
  | insert {d : IndexedBTreeGraph R} {A : Triple R → Prop} {x : Triple R}
      {d' : IndexedBTreeGraph R} {b : Bool} :
    GraphReach rep P₀ P d A → P A (.insert x) → d.insert rep x = .ok (d', b) →
    GraphReach rep P₀ P d' (fun y => A y ∨ y = x)
  | remove {d : IndexedBTreeGraph R} {A : Triple R → Prop} {x : Triple R}
      {d' : IndexedBTreeGraph R} {b : Bool} :
    GraphReach rep P₀ P d A → P A (.remove x) → d.remove x = .ok (d', b) →
    GraphReach rep P₀ P d' (fun y => A y ∧ y ≠ x)

/-- The quads of graph `g` whose triple is in the returned graph. -/
def returned (g : Option R) (out : Option (BTreeGraph R)) : Quad R → Prop :=
  fun q => q.g = g ∧ ∃ gr, out = some gr ∧ gr.contains q.intoTriple.1 = .ok true

/-- States of an `IndexedBTreeDataset`. `P₀` restricts the calls made before a
conversion, `P` the insertions and removals made on the indexed dataset, and
`takes` says whether the calls that take quads out are allowed. -/
inductive DatasetReach (rep : Bool) (P₀ P : (Quad R → Prop) → Op (Quad R) → Prop) (takes : Prop) :
    IndexedBTreeDataset R → (Quad R → Prop) → Prop
  | new : DatasetReach rep P₀ P takes IndexedBTreeDataset.new nothing
  | convert {g : BTreeDataset R} {A : Quad R → Prop} {d : IndexedBTreeDataset R} :
    Reach (BTreeDataset.container rep R) P₀ g A → IndexedBTreeDataset.fromNonIndexed g = .ok d →
    DatasetReach rep P₀ P takes d A
  | insert {d : IndexedBTreeDataset R} {A : Quad R → Prop} {x : Quad R}
      {d' : IndexedBTreeDataset R} {b : Bool} :
    DatasetReach rep P₀ P takes d A → P A (.insert x) → d.insert rep x = .ok (d', b) →
    DatasetReach rep P₀ P takes d' (fun y => A y ∨ y = x)
  | remove {d : IndexedBTreeDataset R} {A : Quad R → Prop} {x : Quad R}
      {d' : IndexedBTreeDataset R} {b : Bool} :
    DatasetReach rep P₀ P takes d A → P A (.remove x) → d.remove x = .ok (d', b) →
    DatasetReach rep P₀ P takes d' (fun y => A y ∧ y ≠ x)
  | removeGraph {d : IndexedBTreeDataset R} {A : Quad R → Prop} {g : Option R}
      {d' : IndexedBTreeDataset R} {out : Option (BTreeGraph R)} :
    DatasetReach rep P₀ P takes d A → takes → d.removeGraph rep g = .ok (d', out) →
    DatasetReach rep P₀ P takes d' (fun y => A y ∧ ¬ returned g out y)
  | extract {d : IndexedBTreeDataset R} {A : Quad R → Prop} {pat : CanonicalQuadPattern R}
      {cap n : Nat} {d' : IndexedBTreeDataset R} {out : List (Quad R)} {ended : Bool} :
    DatasetReach rep P₀ P takes d A → takes → d.quads.entries.length ≤ cap →
    d.extractPatternMatching cap pat n = .ok (d', out, ended) →
    DatasetReach rep P₀ P takes d' (fun y => A y ∧ y ∉ out)

end RdfTypes.Spec
