import Verif.Model.Traits
import Verif.Model.Generative

/-!
# Fallible views

`/repo/src/dataset/fallible.rs`, `/repo/src/dataset/graph/fallible.rs`,
`/repo/src/interpretation/fallible.rs` and `InfallibleIterator` of `/repo/src/utils.rs`.

The error type of the views is `std::convert::Infallible`, which has no value: `Empty`.
-/

namespace RdfTypes

/-- `InfallibleIterator::next`, `utils.rs` 10-12, over the `next` of the inner iterator. -/
def infallibleNext {M X : Type} (next : M → Res (Option X × M)) (m : M) :
    Res (Option (Except Empty X) × M) := do
  let (o, m) ← next m
  pure (o.map .ok, m)

/-- `try_quads`, `dataset/fallible.rs` 35-37, and `try_triples`, `dataset/graph/fallible.rs`
30-32, run to the end; `items` is what `quads` or `triples` yields. -/
def tryItems {X : Type} (items : Res (List X)) : Res (List (Except Empty X)) := do
  let l ← items
  pure (l.map .ok)

/-- An implementation of `try_quad_pattern_matching` (`dataset/fallible.rs` 49-52) or of
`try_triple_pattern_matching` (`dataset/graph/fallible.rs` 44-47) with errors `E`. -/
abbrev TryMatching (E P X M : Type) := Matching P (Except E X) M

/-- `….next().transpose()?.is_some()` with the answer or the error, `dataset/fallible.rs` 57-59,
`dataset/graph/fallible.rs` 52-54. -/
def TryMatching.any {E P X M : Type} (mt : TryMatching E P X M) (pat : P) : Res (Except E Bool) := do
  let m ← mt.start pat
  match ← mt.next m with
  | (none, _) => pure (.ok false)
  | (some (.ok _), _) => pure (.ok true)
  | (some (.error e), _) => pure (.error e)

/-- `try_contains_triple` of `FalliblePatternMatchingDataset`, `dataset/fallible.rs` 54-60. The
triple becomes a pattern by `From<Triple>`. -/
def TryMatching.datasetContainsTriple {E R M : Type}
    (mt : TryMatching E (CanonicalQuadPattern R) (Quad R) M) (t : Triple R) : Res (Except E Bool) :=
  TryMatching.any mt (.fromTriple t)

/-- `try_contains_triple` of `FalliblePatternMatchingGraph`, `dataset/graph/fallible.rs` 49-55. -/
def TryMatching.graphContainsTriple {E R M : Type}
    (mt : TryMatching E (CanonicalTriplePattern R) (Triple R) M) (t : Triple R) :
    Res (Except E Bool) :=
  TryMatching.any mt (.fromTriple t)

/-- The views of infallible implementations, `dataset/fallible.rs` 63-76 and
`dataset/graph/fallible.rs` 58-71. -/
def Matching.infallible {P X M : Type} (mt : Matching P X M) : TryMatching Empty P X M where
  start := mt.start
  next := infallibleNext mt.next

/-- `try_insert`, `dataset/fallible.rs` 84-87 and `dataset/graph/fallible.rs` 79-82, over `insert`
of `DatasetMut` or `GraphMut`, which drops the result. -/
def Container.tryInsert {S D : Type} (c : Container S D) (d : D) (x : S) :
    Res (D × Except Empty Unit) := do
  let (d', _) ← c.insert d x
  pure (d', .ok ())

/-- `try_new_resource`, `interpretation/fallible.rs` 37-41. -/
def tryNewResource {σ R : Type} (new : σ → Res (R × σ)) (s : σ) : Res (Except Empty R × σ) := do
  let (r, s) ← new s
  pure (.ok r, s)

end RdfTypes
