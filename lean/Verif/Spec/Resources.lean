import Verif.Spec.Indexed

/-!
# What users rely on about resources and positions

Claims about the methods that list the resources of a container, or the terms
that occur at a position of its statements, and restrictions on histories.
-/

namespace RdfTypes.Spec

variable {R S D : Type}

/-! ## Occurrences -/

/-- `r` occurs in the quad. -/
def quadHas (q : Quad R) (r : R) : Prop := q.s = r ∨ q.p = r ∨ q.o = r ∨ q.g = some r

/-- `r` occurs in the triple. -/
def tripleHas (t : Triple R) (r : R) : Prop := t.s = r ∨ t.p = r ∨ t.o = r

/-- `r` occurs at two positions of the quad. -/
def quadRepeats (q : Quad R) (r : R) : Prop :=
  (q.s = r ∧ q.p = r) ∨ (q.s = r ∧ q.o = r) ∨ (q.p = r ∧ q.o = r) ∨
  (q.g = some r ∧ (q.s = r ∨ q.p = r ∨ q.o = r))

/-- `r` occurs at two positions of the triple. -/
def tripleRepeats (t : Triple R) (r : R) : Prop :=
  (t.s = r ∧ t.p = r) ∨ (t.s = r ∧ t.o = r) ∨ (t.p = r ∧ t.o = r)

/-! ## Restrictions on histories -/

/-- Only insertions. -/
def insertOnly : (S → Prop) → Op S → Prop
  | _, .remove _ => False
  | _, _ => True

/-- Both restrictions. -/
def both (P Q : (S → Prop) → Op S → Prop) : (S → Prop) → Op S → Prop :=
  fun A op => P A op ∧ Q A op

/-- A quad is inserted only when every resource it repeats already occurs in the
dataset. -/
def knownRepeats : (Quad R → Prop) → Op (Quad R) → Prop
  | A, .insert x => ∀ r, quadRepeats x r → ∃ y, A y ∧ quadHas y r
  | _, _ => True

/-- The same for triples. -/
def knownTripleRepeats : (Triple R → Prop) → Op (Triple R) → Prop
  | A, .insert x => ∀ r, tripleRepeats x r → ∃ y, A y ∧ tripleHas y r
  | _, _ => True

/-- A statement is removed only when no other statement shares its `f`. -/
def lastWith {T : Type} (f : S → T) : (S → Prop) → Op S → Prop
  | A, .remove x => A x → ∀ y, A y → f y = f x → y = x
  | _, _ => True

/-- Quads are inserted only as long as graph names occur in no other position. -/
def graphNamesApart : (Quad R → Prop) → Op (Quad R) → Prop
  | A, .insert x => ∀ y z r, (A y ∨ y = x) → (A z ∨ z = x) → y.g = some r →
    z.s ≠ r ∧ z.p ≠ r ∧ z.o ≠ r
  | _, _ => True

/-- Every call of the list satisfies the restriction, starting from the set `A`. -/
def Allowed (P : (S → Prop) → Op S → Prop) : (S → Prop) → List (Op S) → Prop
  | _, [] => True
  | A, .insert x :: l => P A (.insert x) ∧ Allowed P (apply A (.insert x)) l
  | A, .remove x :: l => P A (.remove x) ∧ Allowed P (apply A (.remove x)) l
  | _, .extend _ :: _ => False

/-! ## Claims -/

section claims

variable (Reach : D → (S → Prop) → Prop) (has : S → R → Prop)

/-- `resources` lists, in strictly ascending order, only resources that occur, and
`contains_resource` agrees with it. -/
def ListsResources [Ord R] (resources : D → Res (List R)) (contains : D → R → Res Bool) : Prop :=
  ∀ d A, Reach d A → ∃ rs, resources d = .ok rs ∧
    rs.Pairwise (fun a b => compare a b = .lt) ∧ (∀ r ∈ rs, ∃ y, A y ∧ has y r) ∧
    ∀ r, ∃ b, contains d r = .ok b ∧ (b = true ↔ r ∈ rs)

/-- `resources` and `contains_resource` report every resource that occurs. -/
def ListsAllResources (resources : D → Res (List R)) (contains : D → R → Res Bool) : Prop :=
  ∀ d A, Reach d A → ∀ y r, A y → has y r →
    (∃ rs, resources d = .ok rs ∧ r ∈ rs) ∧ contains d r = .ok true

/-- `count` is the number of listed items. -/
def CountsListed (count : D → Nat) (list : D → Res (List R)) : Prop :=
  ∀ d A, Reach d A → ∃ rs, list d = .ok rs ∧ count d = rs.length

/-- `list` lists only terms that occur at position `f`. -/
def ListsOnly (f : S → Option R) (list : D → Res (List R)) : Prop :=
  ∀ d A, Reach d A → ∃ rs, list d = .ok rs ∧ ∀ r ∈ rs, ∃ y, A y ∧ f y = some r

/-- `list` lists all the terms that occur at position `f`. -/
def ListsAll (f : S → Option R) (list : D → Res (List R)) : Prop :=
  ∀ d A, Reach d A → ∀ y r, A y → f y = some r → ∃ rs, list d = .ok rs ∧ r ∈ rs

/-- `list` lists exactly the terms that occur at position `f`, each once, and
`count` counts them. -/
def ListsEachOnce (f : S → Option R) (list : D → Res (List R)) (count : D → Nat) : Prop :=
  ∀ d A, Reach d A → ∃ rs, list d = .ok rs ∧ rs.Nodup ∧
    (∀ r, r ∈ rs ↔ ∃ y, A y ∧ f y = some r) ∧ count d = rs.length

end claims

/-- `remove_graph` returns a graph exactly when there is a quad in that graph, the
returned graph holds exactly the triples of these quads, and the other quads
remain. `G` restricts the graph names. -/
def RemovesGraph [Ord R] (rep : Bool) (Reach : IndexedBTreeDataset R → (Quad R → Prop) → Prop)
    (G : Option R → Prop) : Prop :=
  ∀ d A, Reach d A → ∀ g, G g → ∃ d' out, d.removeGraph rep g = .ok (d', out) ∧
    (out.isSome = true ↔ ∃ y, A y ∧ y.g = g) ∧
    (∀ gr, out = some gr → ∀ t, ∃ b, gr.contains t = .ok b ∧ (b = true ↔ A (t.intoQuad g))) ∧
    ∀ y, ∃ b, d'.contains y = .ok b ∧ (b = true ↔ A y ∧ y.g ≠ g)

/-- What always holds of `remove_graph`: no panic, the returned triples come from
quads of that graph, and the quads that remain are exactly those not returned. -/
def TakesGraph [Ord R] (rep : Bool) (Reach : IndexedBTreeDataset R → (Quad R → Prop) → Prop) :
    Prop :=
  ∀ d A, Reach d A → ∀ g, ∃ d' out, d.removeGraph rep g = .ok (d', out) ∧
    (∀ gr, out = some gr → ∀ t, ∃ b, gr.contains t = .ok b ∧ (b = true → A (t.intoQuad g))) ∧
    ∀ y, ∃ b, d'.contains y = .ok b ∧ (b = true ↔ A y ∧ ¬ returned g out y)

/-- `remove_graph` on the default graph: always returns a graph, with exactly the
triples of the default graph, and the other quads remain. -/
def RemovesDefaultGraph [Ord R] (rep : Bool)
    (Reach : IndexedBTreeDataset R → (Quad R → Prop) → Prop) : Prop :=
  ∀ d A, Reach d A → ∃ d' gr, d.removeGraph rep none = .ok (d', some gr) ∧
    (∀ t, ∃ b, gr.contains t = .ok b ∧ (b = true ↔ A (t.intoQuad none))) ∧
    ∀ y, ∃ b, d'.contains y = .ok b ∧ (b = true ↔ A y ∧ y.g ≠ none)

/-! ## Largest size so far -/

variable [Ord R]

/-- States of an `IndexedBTreeDataset` with the largest size reached so far; the
history starts with insertions only. -/
inductive DatasetPeak (rep : Bool) (P : (Quad R → Prop) → Op (Quad R) → Prop) :
    IndexedBTreeDataset R → (Quad R → Prop) → Nat → Prop
  | start {d : IndexedBTreeDataset R} {A : Quad R → Prop} :
    DatasetReach rep (both insertOnly P) (both insertOnly P) False d A → DatasetPeak rep P d A d.len
  | insert {d : IndexedBTreeDataset R} {A : Quad R → Prop} {m : Nat} {x : Quad R}
      {d' : IndexedBTreeDataset R} {b : Bool} :
    DatasetPeak rep P d A m → P A (.insert x) → d.insert rep x = .ok (d', b) →
    DatasetPeak rep P d' (fun y => A y ∨ y = x) (max m d'.len)
  | remove {d : IndexedBTreeDataset R} {A : Quad R → Prop} {m : Nat} {x : Quad R}
      {d' : IndexedBTreeDataset R} {b : Bool} :
    DatasetPeak rep P d A m → P A (.remove x) → d.remove x = .ok (d', b) →
    DatasetPeak rep P d' (fun y => A y ∧ y ≠ x) m
  | removeGraph {d : IndexedBTreeDataset R} {A : Quad R → Prop} {m : Nat} {g : Option R}
      {d' : IndexedBTreeDataset R} {out : Option (BTreeGraph R)} :
    DatasetPeak rep P d A m → d.removeGraph rep g = .ok (d', out) →
    DatasetPeak rep P d' (fun y => A y ∧ ¬ returned g out y) m
  | extract {d : IndexedBTreeDataset R} {A : Quad R → Prop} {m : Nat} {pat : CanonicalQuadPattern R}
      {cap n : Nat} {d' : IndexedBTreeDataset R} {out : List (Quad R)} {ended : Bool} :
    DatasetPeak rep P d A m → d.quads.entries.length ≤ cap →
    d.extractPatternMatching cap pat n = .ok (d', out, ended) →
    DatasetPeak rep P d' (fun y => A y ∧ y ∉ out) m

/-- States of an `IndexedBTreeGraph` with the largest size reached so far. -/
inductive GraphPeak (rep : Bool) (P : (Triple R → Prop) → Op (Triple R) → Prop) :
    IndexedBTreeGraph R → (Triple R → Prop) → Nat → Prop
  | start {d : IndexedBTreeGraph R} {A : Triple R → Prop} :
    GraphReach rep (both insertOnly P) (both insertOnly P) d A → GraphPeak rep P d A d.len
  | insert {d : IndexedBTreeGraph R} {A : Triple R → Prop} {m : Nat} {x : Triple R}
      {d' : IndexedBTreeGraph R} {b : Bool} :
    GraphPeak rep P d A m → P A (.insert x) → d.insert rep x = .ok (d', b) →
    GraphPeak rep P d' (fun y => A y ∨ y = x) (max m d'.len)
  | remove {d : IndexedBTreeGraph R} {A : Triple R → Prop} {m : Nat} {x : Triple R}
      {d' : IndexedBTreeGraph R} {b : Bool} :
    GraphPeak rep P d A m → P A (.remove x) → d.remove x = .ok (d', b) →
    GraphPeak rep P d' (fun y => A y ∧ y ≠ x) m

end RdfTypes.Spec
