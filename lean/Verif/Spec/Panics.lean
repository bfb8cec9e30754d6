import Verif.Spec.Matching
import Verif.Model.Serde
import Verif.Model.Display
import Verif.Model.Fallible

/-!
# Calls that return, and iterators that have ended

Each structure lists the public methods of a container; its fields say that they return, that is,
neither panic nor loop forever. `cap` is the capacity of the slab of statements and `fuel` bounds
the number of items taken from an iterator over objects.
-/

namespace RdfTypes.Spec

variable {R S D : Type}

/-- The call does not panic and ends. -/
def Returns {α : Type} (call : Res α) : Prop := ∃ v, call = .ok v

/-- What the four containers have: the methods that read or change the container `d`, comparison
with any other container that can be traversed, and the views of the fallible traits. -/
structure CommonReturn [Ord S] (c : Container S D) (d : D) : Prop where
  insert : ∀ x, Returns (c.insert d x)
  remove : ∀ x, Returns (c.remove d x)
  extend : ∀ l, Returns (c.extend d l)
  contains : ∀ x, Returns (c.contains d x)
  iter : Returns (c.iter d)
  intoIter : Returns (c.intoIter d)
  eq : ∀ {S' D' : Type} (c' : Container S' D') (d' : D') (e : S → S' → Bool),
    Returns (c'.iter d') → Returns (c.eq c' e d d')
  cmp : ∀ d', Returns (c.iter d') → Returns (c.cmp d d')
  partialCmp : ∀ pc d', Returns (c.iter d') → Returns (c.partialCmp pc d d')
  hash : ∀ hw, Returns (c.hash hw d)
  serialize : ∀ write, Returns (c.serialize write d)
  rdfFmt : ∀ f, Returns (c.rdfFmt f d)
  tryItems : Returns (tryItems (c.iter d))
  tryInsert : ∀ x, Returns (c.tryInsert d x)

/-- The ways to make a container, from any statements or from any document, whatever is read from
it. -/
structure MakingReturns (c : Container S D) : Prop where
  fromIter : ∀ l, Returns (c.fromIter l)
  deserialize : ∀ read v, Returns (c.deserialize read v)

/-- Calls of an iterator, one after the other and also after its end: their results, and the
iterator afterwards. -/
def nextCalls {M X : Type} (next : M → Res (Option X × M)) : Nat → M → Res (List (Option X) × M)
  | 0, m => .ok ([], m)
  | n + 1, m =>
    match next m with
    | .error e => .error e
    | .ok (x, m') =>
      match nextCalls next n m' with
      | .error e => .error e
      | .ok (l, m'') => .ok (x :: l, m'')

/-- What `n` calls of an iterator over `xs` should return: items until the end, then nothing any
more. -/
def thenNothing {X : Type} (xs : List X) (n : Nat) : List (Option X) :=
  (xs.map some ++ List.replicate n none).take n

/-- Any number of calls of the iterator over the matches of any pattern returns. -/
def MatchingReturns {P X M : Type} (mt : Matching P X M) : Prop :=
  ∀ pat n, ∃ m, mt.start pat = .ok m ∧ Returns (nextCalls mt.next n m)

/-- The methods of a dataset that search. -/
structure SearchReturns {M : Type} (fuel : Nat) (mt : QuadMatching R M) : Prop where
  matching : MatchingReturns mt
  containsQuad : ∀ q, Returns (mt.containsQuad q)
  containsQuadSubject : ∀ r, Returns (mt.containsQuadSubject r)
  containsQuadPredicate : ∀ r, Returns (mt.containsQuadPredicate r)
  containsQuadObject : ∀ r, Returns (mt.containsQuadObject r)
  containsNamedGraph : ∀ r, Returns (mt.containsNamedGraph r)
  quadObjects : ∀ g s p, Returns (mt.quadObjects fuel g s p)
  quadPredicatesObjects : ∀ ps g s, Returns (mt.quadPredicatesObjects fuel ps g s)
  tryMatching : MatchingReturns mt.infallible
  tryContainsTriple : ∀ t, Returns (TryMatching.datasetContainsTriple mt.infallible t)

/-- The methods of a graph that search. -/
structure GraphSearchReturns {M : Type} (fuel : Nat) (mt : TripleMatching R M) : Prop where
  matching : MatchingReturns mt
  containsTriple : ∀ t, Returns (mt.containsTriple t)
  containsTripleSubject : ∀ r, Returns (mt.containsTripleSubject r)
  containsTriplePredicate : ∀ r, Returns (mt.containsTriplePredicate r)
  containsTripleObject : ∀ r, Returns (mt.containsTripleObject r)
  tripleObjects : ∀ s p, Returns (mt.tripleObjects fuel s p)
  triplePredicatesObjects : ∀ ps s, Returns (mt.triplePredicatesObjects fuel ps s)
  tryMatching : MatchingReturns mt.infallible
  tryContainsTriple : ∀ t, Returns (TryMatching.graphContainsTriple mt.infallible t)

/-- The further methods of an `IndexedBTreeDataset`. `named_graphs` is not among those that
return: it may read a vacant slot. -/
structure DatasetReturns [Ord R] (rep : Bool) (cap fuel : Nat) (d : IndexedBTreeDataset R) : Prop where
  resources : Returns d.resourceList
  containsResource : ∀ r, Returns (d.containsResource r)
  subjects : Returns d.subjectList
  predicates : Returns d.predicateList
  objects : Returns d.objectList
  namedGraphs : Returns d.namedGraphList ∨ d.namedGraphList = .error .invalidKey
  removeGraph : ∀ g, Returns (d.removeGraph rep g)
  patternMatching : ∀ pat, Returns (d.patternMatching cap pat)
  multiPatternMatching : ∀ pat, Returns (d.multiPatternMatching cap pat)
  extractPatternMatching : ∀ pat n, Returns (d.extractPatternMatching cap pat n)
  quadPredicatesObjects : ∀ g s, Returns (d.quadPredicatesObjects cap fuel g s)
  search : SearchReturns fuel (d.matching cap)

/-- The further methods of an `IndexedBTreeGraph`, and those that it has as a dataset. -/
structure GraphReturns [Ord R] (cap fuel : Nat) (d : IndexedBTreeGraph R) : Prop where
  resources : Returns d.resourceList
  containsResource : ∀ r, Returns (d.containsResource r)
  subjects : Returns d.subjectList
  predicates : Returns d.predicateList
  objects : Returns d.objectList
  patternMatching : ∀ pat, Returns (d.patternMatching cap pat)
  triplePredicatesObjects : ∀ s, Returns (d.triplePredicatesObjects cap fuel s)
  search : GraphSearchReturns fuel (d.matching cap)
  asDataset : ∃ gr, d.impl cap = .ok gr ∧ SearchReturns fuel gr.quadMatching

end RdfTypes.Spec
