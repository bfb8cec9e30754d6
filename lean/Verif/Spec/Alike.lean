import Verif.Spec.Set
import Verif.Model.PatternMatching

/-!
# Terms that the order does not tell apart

The order of terms may call two terms equal that are not identical, such as two spellings of a
language tag. A container only compares terms: it cannot see the difference, but what it returns
is spelled in one way or the other.
-/

namespace RdfTypes.Spec

variable {R Q S S' D A : Type}

/-- `π` renames terms without changing how any two of them compare. It may merge terms that
compare as equal, and no others. -/
def KeepsOrder [Ord R] [Ord Q] (π : R → Q) : Prop := ∀ a b, compare (π a) (π b) = compare a b

/-! ## Sets of statements up to spelling -/

/-- The order does not tell the terms apart. -/
def Like [Ord R] (a b : R) : Prop := compare a b = .eq

/-- The quads have like terms at each position. -/
def AlikeQuad [Ord R] (x y : Quad R) : Prop :=
  Like x.s y.s ∧ Like x.p y.p ∧ Like x.o y.o ∧
  ((x.g = none ∧ y.g = none) ∨ ∃ a b, x.g = some a ∧ y.g = some b ∧ Like a b)

/-- The triples have like terms at each position. -/
def AlikeTriple [Ord R] (x y : Triple R) : Prop :=
  Like x.s y.s ∧ Like x.p y.p ∧ Like x.o y.o

/-- The set `A` after one call, when `like` statements count as one. -/
def applyUpTo (like : S → S → Prop) (A : S → Prop) : Op S → S → Prop
  | .insert x => fun y => A y ∨ like x y
  | .remove x => fun y => A y ∧ ¬ like x y
  | .extend l => fun y => A y ∨ ∃ x ∈ l, like x y

/-- The set `A` after a sequence of calls, when `like` statements count as one. -/
def afterUpTo (like : S → S → Prop) (A : S → Prop) : List (Op S) → S → Prop
  | [] => A
  | op :: l => afterUpTo like (applyUpTo like A op) l

/-- `l` lists one of the like statements of the set `A`, in strictly ascending order. -/
structure ListsUpTo [Ord S] (like : S → S → Prop) (l : List S) (A : S → Prop) : Prop where
  ascending : l.Pairwise (fun x y => compare x y = .lt)
  sound : ∀ x ∈ l, A x
  complete : ∀ x, A x → ∃ y ∈ l, like y x

/-- After any calls, the container `c` holds a set of statements up to spelling: no call panics,
`contains` finds a statement under any spelling, iteration lists one spelling of each statement,
`len` counts them, and `insert` and `remove` tell whether some spelling was there. -/
def IsSetUpTo [Ord S] (c : Container S D) (like : S → S → Prop) : Prop :=
  ∀ h : List (Op S), ∃ d, c.run c.empty h = .ok d ∧
    (∀ x, ∃ b, c.contains d x = .ok b ∧ (b = true ↔ afterUpTo like nothing h x)) ∧
    (∃ xs, c.iter d = .ok xs ∧ c.intoIter d = .ok xs ∧
      ListsUpTo like xs (afterUpTo like nothing h) ∧
      c.len d = xs.length ∧ (c.isEmpty d = true ↔ xs = [])) ∧
    (∀ x, ∃ d' b, c.insert d x = .ok (d', b) ∧ (b = true ↔ ¬ afterUpTo like nothing h x)) ∧
    (∀ x, ∃ d' b, c.remove d x = .ok (d', b) ∧ (b = true ↔ afterUpTo like nothing h x))

/-! ## Sessions

A session is a sequence of calls; its transcript is the sequence of what they returned. -/

/-- What a call returns: statements of type `S` and terms of type `R`. -/
inductive Reply (S R : Type) where
  | done
  | flag (b : Bool)
  | number (n : Nat)
  | terms (l : List R)
  | statements (l : List S)
  | taken (l : List S) (ended : Bool)
  | graph (g : Option (List (Triple R)))
  deriving DecidableEq, Repr

/-- The answer with all terms renamed. -/
def Reply.map (σ : S → S') (π : R → Q) : Reply S R → Reply S' Q
  | .done => .done
  | .flag b => .flag b
  | .number n => .number n
  | .terms l => .terms (l.map π)
  | .statements l => .statements (l.map σ)
  | .taken l ended => .taken (l.map σ) ended
  | .graph g => .graph (g.map (fun l => l.map (fun t => t.map π)))

/-- A transcript with all terms renamed. -/
def renamed (σ : S → S') (π : R → Q) : List (Res (Reply S R)) → List (Res (Reply S' Q)) :=
  List.map (fun r => match r with
    | .ok a => .ok (a.map σ π)
    | .error e => .error e)

/-- The calls that the four containers have. -/
inductive Call (S R : Type) where
  | insert (x : S)
  | remove (x : S)
  | extend (l : List S)
  | contains (x : S)
  | iter
  | intoIter
  | len
  | isEmpty
  | resources
  | containsResource (r : R)

/-- The call with all terms renamed. -/
def Call.map (σ : S → S') (π : R → Q) : Call S R → Call S' Q
  | .insert x => .insert (σ x)
  | .remove x => .remove (σ x)
  | .extend l => .extend (l.map σ)
  | .contains x => .contains (σ x)
  | .iter => .iter
  | .intoIter => .intoIter
  | .len => .len
  | .isEmpty => .isEmpty
  | .resources => .resources
  | .containsResource r => .containsResource (π r)

/-- A call on a container: its state afterwards and the answer. -/
def answer (c : Container S D) (resources : D → Res (List R)) (containsResource : D → R → Res Bool)
    (d : D) : Call S R → Res (D × Reply S R)
  | .insert x => do
    let (d', b) ← c.insert d x
    pure (d', .flag b)
  | .remove x => do
    let (d', b) ← c.remove d x
    pure (d', .flag b)
  | .extend l => do
    let d' ← c.extend d l
    pure (d', .done)
  | .contains x => do
    let b ← c.contains d x
    pure (d, .flag b)
  | .iter => do
    let l ← c.iter d
    pure (d, .statements l)
  | .intoIter => do
    let l ← c.intoIter d
    pure (d, .statements l)
  | .len => pure (d, .number (c.len d))
  | .isEmpty => pure (d, .flag (c.isEmpty d))
  | .resources => do
    let l ← resources d
    pure (d, .terms l)
  | .containsResource r => do
    let b ← containsResource d r
    pure (d, .flag b)

/-- A call on a `BTreeDataset`. -/
def answerDataset [Ord R] (rep : Bool) :
    BTreeDataset R → Call (Quad R) R → Res (BTreeDataset R × Reply (Quad R) R) :=
  answer (BTreeDataset.container rep R) BTreeDataset.resourceList BTreeDataset.containsResource

/-- A call on a `BTreeGraph`. -/
def answerGraph [Ord R] (rep : Bool) :
    BTreeGraph R → Call (Triple R) R → Res (BTreeGraph R × Reply (Triple R) R) :=
  answer (BTreeGraph.container rep R) BTreeGraph.resourceList BTreeGraph.containsResource

/-- The lists of terms that the indexed containers keep by position. -/
inductive ListedAs where
  | subjects | predicates | objects | namedGraphs
  deriving DecidableEq, Repr

/-- The calls of an `IndexedBTreeDataset`; `cap` is the capacity of the slab of quads. -/
inductive IndexedCall (R : Type) where
  | common (a : Call (Quad R) R)
  | list (p : ListedAs)
  | count (p : ListedAs)
  | resourceCount
  | removeGraph (g : Option R)
  | matching (cap : Nat) (pat : CanonicalQuadPattern R)
  | multiMatching (cap : Nat) (pat : CanonicalQuadPattern (List R))
  | extract (cap : Nat) (pat : CanonicalQuadPattern R) (n : Nat)

/-- The call with all terms renamed. -/
def IndexedCall.map (π : R → Q) : IndexedCall R → IndexedCall Q
  | .common a => .common (a.map (fun q => q.map π) π)
  | .list p => .list p
  | .count p => .count p
  | .resourceCount => .resourceCount
  | .removeGraph g => .removeGraph (g.map π)
  | .matching cap pat => .matching cap (pat.map π)
  | .multiMatching cap pat => .multiMatching cap (pat.map (List.map π))
  | .extract cap pat n => .extract cap (pat.map π) n

/-- A call on an `IndexedBTreeDataset`. The graph that `remove_graph` returns is iterated over. -/
def answerIndexed [Ord R] (rep : Bool) (d : IndexedBTreeDataset R) :
    IndexedCall R → Res (IndexedBTreeDataset R × Reply (Quad R) R)
  | .common a => answer (IndexedBTreeDataset.container rep R) IndexedBTreeDataset.resourceList
      IndexedBTreeDataset.containsResource d a
  | .list p => do
    let l ← match p with
      | .subjects => d.subjectList
      | .predicates => d.predicateList
      | .objects => d.objectList
      | .namedGraphs => d.namedGraphList
    pure (d, .terms l)
  | .count p => pure (d, .number (match p with
      | .subjects => d.subjectCount
      | .predicates => d.predicateCount
      | .objects => d.objectCount
      | .namedGraphs => d.namedGraphCount))
  | .resourceCount => pure (d, .number d.resourceCount)
  | .removeGraph g => do
    let (d', out) ← d.removeGraph rep g
    match out with
    | none => pure (d', .graph none)
    | some gr => do
      let l ← gr.iter
      pure (d', .graph (some l))
  | .matching cap pat => do
    let l ← d.patternMatching cap pat
    pure (d, .statements l)
  | .multiMatching cap pat => do
    let l ← d.multiPatternMatching cap pat
    pure (d, .statements l)
  | .extract cap pat n => do
    let (d', l, ended) ← d.extractPatternMatching cap pat n
    pure (d', .taken l ended)

/-- The calls of an `IndexedBTreeGraph`. -/
inductive IndexedGraphCall (R : Type) where
  | common (a : Call (Triple R) R)
  | subjects
  | predicates
  | objects
  | resourceCount
  | subjectCount
  | predicateCount
  | objectCount
  | matching (cap : Nat) (pat : CanonicalTriplePattern R)

/-- The triple pattern with all terms renamed. -/
def renamedPattern (π : R → Q) : CanonicalTriplePattern R → CanonicalTriplePattern Q
  | .anySubject (.anyPredicate o) => .anySubject (.anyPredicate (match o with
    | .anyObject => .anyObject
    | .sameAsSubject => .sameAsSubject
    | .sameAsPredicate => .sameAsPredicate
    | .givenObject x => .givenObject (π x)))
  | .anySubject (.sameAsSubject o) => .anySubject (.sameAsSubject (match o with
    | .anyObject => .anyObject
    | .sameAsSubject => .sameAsSubject
    | .givenObject x => .givenObject (π x)))
  | .anySubject (.givenPredicate p o) => .anySubject (.givenPredicate (π p) (match o with
    | .anyObject => .anyObject
    | .sameAsSubject => .sameAsSubject
    | .givenObject x => .givenObject (π x)))
  | .givenSubject s (.anyPredicate o) => .givenSubject (π s) (.anyPredicate (match o with
    | .anyObject => .anyObject
    | .sameAsPredicate => .sameAsPredicate
    | .givenObject x => .givenObject (π x)))
  | .givenSubject s (.givenPredicate p o) => .givenSubject (π s) (.givenPredicate (π p) (match o with
    | .anyObject => .anyObject
    | .givenObject x => .givenObject (π x)))

/-- The call with all terms renamed. -/
def IndexedGraphCall.map (π : R → Q) : IndexedGraphCall R → IndexedGraphCall Q
  | .common a => .common (a.map (fun t => t.map π) π)
  | .subjects => .subjects
  | .predicates => .predicates
  | .objects => .objects
  | .resourceCount => .resourceCount
  | .subjectCount => .subjectCount
  | .predicateCount => .predicateCount
  | .objectCount => .objectCount
  | .matching cap pat => .matching cap (renamedPattern π pat)

/-- A call on an `IndexedBTreeGraph`. -/
def answerIndexedGraph [Ord R] (rep : Bool) (d : IndexedBTreeGraph R) :
    IndexedGraphCall R → Res (IndexedBTreeGraph R × Reply (Triple R) R)
  | .common a => answer (IndexedBTreeGraph.container rep R) IndexedBTreeGraph.resourceList
      IndexedBTreeGraph.containsResource d a
  | .subjects => do
    let l ← d.subjectList
    pure (d, .terms l)
  | .predicates => do
    let l ← d.predicateList
    pure (d, .terms l)
  | .objects => do
    let l ← d.objectList
    pure (d, .terms l)
  | .resourceCount => pure (d, .number d.resourceCount)
  | .subjectCount => pure (d, .number d.subjectCount)
  | .predicateCount => pure (d, .number d.predicateCount)
  | .objectCount => pure (d, .number d.objectCount)
  | .matching cap pat => do
    let l ← d.patternMatching cap pat
    pure (d, .statements l)

/-- The transcript of a session that starts in state `d`. A panic ends it. -/
def session {X : Type} (ask : D → A → Res (D × X)) (d : D) : List A → List (Res X)
  | [] => []
  | a :: l =>
    match ask d a with
    | .error e => [.error e]
    | .ok (d', x) => .ok x :: session ask d' l

/-- The state at the end of a session. -/
def sessionEnd {X : Type} (ask : D → A → Res (D × X)) (d : D) : List A → Res D
  | [] => .ok d
  | a :: l => do
    let (d', _) ← ask d a
    sessionEnd ask d' l

/-- The transcript of a session that goes on after a conversion of the container. -/
def sessionThrough {X D' A' : Type} (ask : D → A → Res (D × X)) (convert : D → Res D')
    (ask' : D' → A' → Res (D' × X)) (d : D) (l : List A) (l' : List A') : List (Res X) :=
  session ask d l ++
    match sessionEnd ask d l with
    | .error _ => []
    | .ok d' =>
      match convert d' with
      | .error e => [.error e]
      | .ok d'' => session ask' d'' l'

/-! ## Whose spelling is returned -/

/-- The terms of a quad. -/
def quadTerms (q : Quad R) : List R := [q.s, q.p, q.o] ++ q.g.toList

/-- The terms of a triple. -/
def tripleTerms (t : Triple R) : List R := [t.s, t.p, t.o]

/-- The terms of an answer. -/
def Reply.allTerms (terms : S → List R) : Reply S R → List R
  | .done => []
  | .flag _ => []
  | .number _ => []
  | .terms l => l
  | .statements l => l.flatMap terms
  | .taken l _ => l.flatMap terms
  | .graph none => []
  | .graph (some l) => l.flatMap tripleTerms

/-- The terms that a call hands over for insertion. -/
def Call.inserted (terms : S → List R) : Call S R → List R
  | .insert x => terms x
  | .extend l => l.flatMap terms
  | _ => []

/-- The terms that a call on an indexed dataset hands over for insertion. -/
def IndexedCall.inserted : IndexedCall R → List R
  | .common a => a.inserted quadTerms
  | _ => []

/-- The terms that a call on an indexed graph hands over for insertion. -/
def IndexedGraphCall.inserted : IndexedGraphCall R → List R
  | .common a => a.inserted tripleTerms
  | _ => []

/-- Every term returned is one of `given`, letter for letter. -/
def Repeats (terms : S → List R) (transcript : List (Res (Reply S R))) (given : List R) : Prop :=
  ∀ a, .ok a ∈ transcript → ∀ r ∈ a.allTerms terms, r ∈ given

/-- Every term returned by the call number `i` is one of `given i`, letter for letter. -/
def RepeatsEarlier (terms : S → List R) (transcript : List (Res (Reply S R)))
    (given : Nat → List R) : Prop :=
  ∀ i a, transcript[i]? = some (.ok a) → ∀ r ∈ a.allTerms terms, r ∈ given i

end RdfTypes.Spec
