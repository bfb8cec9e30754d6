import Verif.Model.BTreeDataset
import Verif.Model.BTreeGraph
import Verif.Model.IndexedBTreeDataset
import Verif.Model.IndexedBTreeGraph
import Verif.Model.Isomorphism

/-!
# The containers as datasets to compare

Paths are relative to `/repo/src`, with the folders left out when the name is unique.
-/

namespace RdfTypes

/-- The implementations of `TraversableDataset` (`dataset/mod.rs` 30-42) in the crate: the two
datasets, and the two graphs through `dataset/mod.rs` 44-57. -/
inductive AnyContainer (R : Type)
  | dataset (d : BTreeDataset R)
  | graph (d : BTreeGraph R)
  | indexedDataset (d : IndexedBTreeDataset R)
  | indexedGraph (d : IndexedBTreeGraph R)

namespace AnyContainer

variable {R : Type} [Ord R]

/-- `quads`, run to the end: `btree_dataset.rs` 295-297, `indexed_btree_dataset.rs`
523-525; for graphs `dataset/mod.rs` 50-52 with `triples` of `btree_graph.rs` 269-271 or
`indexed_btree_graph.rs` 374-376 and `TripleToQuadIterator::next`,
`utils.rs` 26-28. -/
def quads : AnyContainer R → Res (List (Quad R))
  | .dataset d => d.iter
  | .graph d => return (← d.iter).map (·.intoQuad none)
  | .indexedDataset d => d.iter
  | .indexedGraph d => return (← d.iter).map (·.intoQuad none)

end AnyContainer

section

variable {R I L : Type} [Ord R] [DecidableEq R] [DecidableEq I] [DecidableEq L]

/-- `find_bijection_with`, `isomorphism.rs` 49-124, called with two containers. It calls
`quads_count` (60), which counts the items of `quads` (`dataset/mod.rs` 39-41; for graphs
`dataset/mod.rs` 54-56 with `dataset/graph/mod.rs` 21-23), and `quads` several times (64-65, 199);
here `quads` is run once, since it gives the same each time. -/
def findBijectionIn (i : ReverseInterpretation R I L) (a b : AnyContainer R) :
    Res (Option (Isomorphism.Bijection R)) := do
  Isomorphism.findBijectionWith i (← a.quads) (← b.quads)

/-- `are_isomorphic_with`, `isomorphism.rs` 25-33, called with two containers. -/
def areIsomorphicIn (i : ReverseInterpretation R I L) (a b : AnyContainer R) : Res Bool :=
  return (← findBijectionIn i a b).isSome

end

end RdfTypes
