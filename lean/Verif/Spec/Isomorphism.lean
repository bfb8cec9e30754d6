import Verif.Model.Isomorphism

/-!
# Isomorphic datasets
-/

namespace RdfTypes.Spec

/-- The terms of a quad. -/
def positions {R : Type} (q : Quad R) : List R := q.s :: q.p :: q.o :: q.g.toList

variable {B I L : Type}

/-- A blank node that occurs in a dataset. -/
def BlankIn (ds : List (Quad (LocalTerm B I L))) (x : LocalTerm B I L) : Prop :=
  (∃ b, x = .anonymous b) ∧ ∃ q ∈ ds, x ∈ positions q

/-- Renames blank nodes. -/
def relabel (f : B → B) : LocalTerm B I L → LocalTerm B I L
  | .anonymous b => .anonymous (f b)
  | .named t => .named t

/-- A renaming of blank nodes, one to one on the first dataset, gives the second. -/
def RelatedBy (f : B → B) (ds ds' : List (Quad (LocalTerm B I L))) : Prop :=
  (∀ b b', BlankIn ds (.anonymous b) → BlankIn ds (.anonymous b') → f b = f b' → b = b') ∧
  ∀ q, q ∈ ds' ↔ ∃ q₀ ∈ ds, q = q₀.map (relabel f)

def Isomorphic (ds ds' : List (Quad (LocalTerm B I L))) : Prop := ∃ f, RelatedBy f ds ds'

/-- The number of positions at which a term occurs. -/
def occurrences [DecidableEq B] [DecidableEq I] [DecidableEq L]
    (ds : List (Quad (LocalTerm B I L))) (x : LocalTerm B I L) : Nat :=
  (ds.flatMap positions).count x

/-- What is left of a term when the names of blank nodes are erased. -/
def erase : LocalTerm B I L → Option (Term I L)
  | .anonymous _ => none
  | .named t => some t

/-- The quads around a term, once for each position of it, without the names of blank
nodes. -/
def surroundings [DecidableEq B] [DecidableEq I] [DecidableEq L]
    (ds : List (Quad (LocalTerm B I L))) (x : LocalTerm B I L) : List (Quad (Option (Term I L))) :=
  ds.flatMap (fun q => ((positions q).filter (· = x)).map (fun _ => q.map erase))

/-- The two maps are inverse functions between the given sets. -/
def InverseMaps {R : Type} (forward backward : List (R × R)) (dom cod : R → Prop) : Prop :=
  (∀ x y, (x, y) ∈ forward ↔ (y, x) ∈ backward) ∧
  (∀ x y y', (x, y) ∈ forward → (x, y') ∈ forward → y = y') ∧
  (∀ y x x', (y, x) ∈ backward → (y, x') ∈ backward → x = x') ∧
  (∀ x, dom x ↔ ∃ y, (x, y) ∈ forward) ∧ ∀ y, cod y ↔ ∃ x, (y, x) ∈ backward

/-- Every quad has at most one blank node, at any number of positions. -/
def OneBlankEach (ds : List (Quad (LocalTerm B I L))) : Prop :=
  ∀ q ∈ ds, ∀ b b', LocalTerm.anonymous b ∈ positions q → LocalTerm.anonymous b' ∈ positions q →
    b = b'

/-- Quads without blank nodes. -/
def Ground (q : Quad (LocalTerm B I L)) : Prop := ∀ b, LocalTerm.anonymous b ∉ positions q

/-! ## What the search compares -/

/-- The quads around a term, once for each position of it. -/
def around [DecidableEq B] [DecidableEq I] [DecidableEq L]
    (ds : List (Quad (LocalTerm B I L))) (x : LocalTerm B I L) : List (Quad (LocalTerm B I L)) :=
  ds.flatMap (fun q => ((positions q).filter (· = x)).map (fun _ => q))

/-- Two quads whose terms are related position by position. -/
def EachPosition {R : Type} (r : R → R → Prop) (q q' : Quad R) : Prop :=
  r q.s q'.s ∧ r q.p q'.p ∧ r q.o q'.o ∧
    match q.g, q'.g with
    | none, none => True
    | some g, some g' => r g g'
    | _, _ => False

/-- The elements of two lists can be paired such that each pair is related. -/
def Paired {A : Type} (r : A → A → Prop) (l l' : List A) : Prop :=
  ∃ z : List (A × A), (z.map (·.1)).Perm l ∧ (z.map (·.2)).Perm l' ∧ ∀ p ∈ z, r p.1 p.2

/-- Two terms that are the same one of the blank nodes in `T`, after renaming, or none of
them. -/
def AgreeOn (f : B → B) (T : B → Prop) (r r' : LocalTerm B I L) : Prop :=
  ∀ b, T b → (r = .anonymous b ↔ r' = .anonymous (f b))

/-- What the search requires of a renaming of blank nodes: the datasets have the same
number of quads; the renaming is one to one between their blank nodes; the quads around a
blank node and those around its image can be paired such that paired quads are equal up to
the names of blank nodes; and they can be paired, maybe differently, such that paired quads
have the same blank nodes up to this one at the same positions. -/
structure Accepted [Ord B] [DecidableEq B] [DecidableEq I] [DecidableEq L] (f : B → B)
    (ds ds' : List (Quad (LocalTerm B I L))) : Prop where
  length : ds.length = ds'.length
  injective : ∀ b b', BlankIn ds (.anonymous b) → BlankIn ds (.anonymous b') → f b = f b' → b = b'
  range : ∀ c, BlankIn ds' (.anonymous c) ↔ ∃ b, BlankIn ds (.anonymous b) ∧ f b = c
  shapes : ∀ b, BlankIn ds (.anonymous b) → Paired (EachPosition fun r r' => erase r = erase r')
    (around ds (.anonymous b)) (around ds' (.anonymous (f b)))
  names : ∀ b, BlankIn ds (.anonymous b) →
    Paired (EachPosition (AgreeOn f fun b' => BlankIn ds (.anonymous b') ∧ compare b' b ≠ .gt))
      (around ds (.anonymous b)) (around ds' (.anonymous (f b)))

/-- Two quads with a blank node in common, of which one has two blank nodes, are equal up
to the names of blank nodes. -/
def AlikeWhenShared (ds : List (Quad (LocalTerm B I L))) : Prop :=
  ∀ q ∈ ds, ∀ q' ∈ ds, ∀ b c, b ≠ c → LocalTerm.anonymous b ∈ positions q →
    LocalTerm.anonymous c ∈ positions q →
    (∃ d, LocalTerm.anonymous d ∈ positions q ∧ LocalTerm.anonymous d ∈ positions q') →
    q.map erase = q'.map erase

end RdfTypes.Spec
