import Verif.Spec.Alike

/-!
# The spelling of what a container holds

When the order does not tell some terms apart, a statement can be written in several ways. This
says which of them a container returns, letter for letter.
-/

namespace RdfTypes.Spec

variable {R S D : Type}

/-! ## States -/

/-- Some session on a new dataset ends in the state `d`. -/
def ReachedDataset [Ord R] (rep : Bool) (d : BTreeDataset R) : Prop :=
  ∃ l, sessionEnd (answerDataset rep) BTreeDataset.new l = .ok d

/-- Some session on a new graph ends in the state `d`. -/
def ReachedGraph [Ord R] (rep : Bool) (d : BTreeGraph R) : Prop :=
  ∃ l, sessionEnd (answerGraph rep) BTreeGraph.new l = .ok d

/-- Some session on a new indexed dataset, or on one that was made from a dataset, ends in the
state `d`. -/
def ReachedIndexed [Ord R] (rep : Bool) (d : IndexedBTreeDataset R) : Prop :=
  ∃ e l, (e = IndexedBTreeDataset.new ∨
      ∃ b, ReachedDataset rep b ∧ IndexedBTreeDataset.fromNonIndexed b = .ok e) ∧
    sessionEnd (answerIndexed rep) e l = .ok d

/-- Some session on a new indexed graph, or on one that was made from a graph, ends in the
state `d`. -/
def ReachedIndexedGraph [Ord R] (rep : Bool) (d : IndexedBTreeGraph R) : Prop :=
  ∃ e l, (e = IndexedBTreeGraph.new ∨
      ∃ b, ReachedGraph rep b ∧ IndexedBTreeGraph.fromNonIndexed b = .ok e) ∧
    sessionEnd (answerIndexedGraph rep) e l = .ok d

/-! ## Insertions and removals -/

/-- The way `rs` lists the term `r`, or `r` itself if no like term is listed. -/
def spell [Ord R] (rs : List R) (r : R) : R :=
  match rs with
  | [] => r
  | a :: l => if compare a r = .eq then a else spell l r

/-- In every state that is `Reached`:
* an insertion reports a change if no like statement is held, and otherwise changes nothing;
* when it reports a change, it adds one statement, made of the terms of its argument as `resources`
  listed them before the call, or as in the argument if they were not listed; the statements that
  were held stay, letter for letter, and so do the terms listed; terms newly listed are spelled as
  in the argument;
* a removal reports whether a like statement is held, and takes it away; the others stay, letter for
  letter, and no term gets another spelling. -/
def KeepsSpelling [Ord R] (Reached : D → Prop) (c : Container S D) (like : S → S → Prop)
    (respell : (R → R) → S → S) (terms : S → List R) (resources : D → Res (List R)) : Prop :=
  ∀ d, Reached d →
    ∃ xs rs, c.iter d = .ok xs ∧ resources d = .ok rs ∧
      (∀ x, ∃ d' b, c.insert d x = .ok (d', b) ∧ (b = true ↔ ∀ z ∈ xs, ¬ like x z) ∧
        (b = false → d' = d) ∧
        (b = true → ∃ ys rs', c.iter d' = .ok ys ∧ resources d' = .ok rs' ∧
          (∀ z, z ∈ ys ↔ z ∈ xs ∨ z = respell (spell rs) x) ∧
          (∀ r ∈ rs, r ∈ rs') ∧ ∀ r ∈ rs', r ∈ rs ∨ r ∈ terms x)) ∧
      (∀ x, ∃ d' b, c.remove d x = .ok (d', b) ∧ (b = true ↔ ∃ z ∈ xs, like x z) ∧
        ∃ ys rs', c.iter d' = .ok ys ∧ resources d' = .ok rs' ∧
          (∀ z, z ∈ ys ↔ z ∈ xs ∧ ¬ like x z) ∧ ∀ r ∈ rs', r ∈ rs)

/-! ## Other calls -/

/-- The graph names are like, or both absent. -/
def AlikeGraph [Ord R] (x y : Option R) : Prop :=
  (x = none ∧ y = none) ∨ ∃ a b, x = some a ∧ y = some b ∧ Like a b

/-- In every state of an indexed dataset that can be reached:
* the quads that match a pattern are among those listed, letter for letter;
* an extraction splits the quads listed into those that it returns and those that stay;
* `remove_graph` takes away quads of that graph only, and the others stay, letter for letter;
* neither gives a term another spelling. -/
def ReturnsListed [Ord R] (rep : Bool) : Prop :=
  ∀ d : IndexedBTreeDataset R, ReachedIndexed rep d →
    ∃ xs rs, d.iter = .ok xs ∧ d.resourceList = .ok rs ∧
      (∀ cap pat ms, d.patternMatching cap pat = .ok ms → ∀ z ∈ ms, z ∈ xs) ∧
      (∀ cap pat ms, d.multiPatternMatching cap pat = .ok ms → ∀ z ∈ ms, z ∈ xs) ∧
      (∀ cap pat n d' ms b, d.extractPatternMatching cap pat n = .ok (d', ms, b) →
        ∃ ys rs', d'.iter = .ok ys ∧ d'.resourceList = .ok rs' ∧
          (∀ z, z ∈ xs ↔ z ∈ ys ∨ z ∈ ms) ∧ (∀ z ∈ ms, z ∉ ys) ∧ ∀ r ∈ rs', r ∈ rs) ∧
      (∀ g d' out, d.removeGraph rep g = .ok (d', out) →
        ∃ ys rs', d'.iter = .ok ys ∧ d'.resourceList = .ok rs' ∧
          (∀ z ∈ ys, z ∈ xs) ∧ (∀ z ∈ xs, z ∉ ys → AlikeGraph z.g g) ∧ ∀ r ∈ rs', r ∈ rs)

/-- In every state of an indexed graph that can be reached, the triples that match a pattern are
among those listed, letter for letter. -/
def ReturnsListedTriples [Ord R] (rep : Bool) : Prop :=
  ∀ d : IndexedBTreeGraph R, ReachedIndexedGraph rep d →
    ∃ xs, d.iter = .ok xs ∧
      ∀ cap pat ms, d.patternMatching cap pat = .ok ms → ∀ z ∈ ms, z ∈ xs

/-- A conversion to the indexed containers keeps the statements and the terms listed, letter for
letter and in order. -/
def ConversionKeepsSpelling [Ord R] (rep : Bool) : Prop :=
  (∀ b : BTreeDataset R, ReachedDataset rep b →
    ∃ e, IndexedBTreeDataset.fromNonIndexed b = .ok e ∧ e.iter = b.iter ∧
      e.resourceList = b.resourceList) ∧
  ∀ b : BTreeGraph R, ReachedGraph rep b →
    ∃ e, IndexedBTreeGraph.fromNonIndexed b = .ok e ∧ e.iter = b.iter ∧
      e.resourceList = b.resourceList

end RdfTypes.Spec
