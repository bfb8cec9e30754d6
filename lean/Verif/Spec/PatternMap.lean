import Verif.Spec.Matching
import Verif.Model.PatternMap

/-!
# What users rely on about pattern maps
-/

namespace RdfTypes.Spec

/-- The public functions of one kind of pattern map. -/
structure MapImpl (P V T : Type) where
  Map : Type
  State : Type
  empty : Map
  insert : Map → P → V → Map × Bool
  get : Map → Triple T → State
  next : Next State V

namespace MapImpl

variable {P V T : Type} (i : MapImpl P V T)

/-- The map after a sequence of insertions in an empty map. -/
def fill (l : List (P × V)) : i.Map := l.foldl (fun m x => (i.insert m x.1 x.2).1) i.empty

/-- What the lookup of a triple yields. -/
def Returns (m : i.Map) (t : Triple T) (xs : List V) : Prop :=
  Yields (fun s => .ok (i.next s)) (i.get m t) xs

/-- The number of occurrences of each value is the number of distinct patterns it is
listed with that satisfy `matching`. -/
def Counts [DecidableEq V] (l : List (P × V)) (matching : P → Prop) (xs : List V) : Prop :=
  ∀ v, ∃ ps : List P, ps.Nodup ∧ (∀ p, p ∈ ps ↔ (p, v) ∈ l ∧ matching p) ∧ xs.count v = ps.length

/-- Lookup yields the values inserted with a matching pattern, once for each, and
insertion reports whether the pair is new. -/
def Maps [DecidableEq V] (matching : Triple T → P → Prop) : Prop :=
  (∀ l t, ∃ xs, i.Returns (i.fill l) t xs ∧ Counts l (matching t) xs) ∧
  ∀ l p v, (i.insert (i.fill l) p v).2 = true ↔ (p, v) ∉ l

variable (union : i.Map → i.Map → i.Map)

/-- After a union, lookup yields the values yielded for either map. -/
def Merges (apart : List (P × V) → List (P × V) → Prop) : Prop :=
  ∀ l l', apart l l' → ∀ t, ∃ xs ys zs, i.Returns (i.fill l) t xs ∧ i.Returns (i.fill l') t ys ∧
    i.Returns (union (i.fill l) (i.fill l')) t zs ∧ ∀ v, v ∈ zs ↔ v ∈ xs ∨ v ∈ ys

/-- After a union, lookup counts patterns as if all the pairs had been inserted. -/
def MergesCounts [DecidableEq V] (matching : Triple T → P → Prop)
    (apart : List (P × V) → List (P × V) → Prop) : Prop :=
  ∀ l l', apart l l' → ∀ t, ∃ zs, i.Returns (union (i.fill l) (i.fill l')) t zs ∧
    Counts (l ++ l') (matching t) zs

/-- After a union, lookup yields all the values of the second map, and otherwise only
values of the first one. -/
def MergesSome : Prop :=
  ∀ l l' t, ∃ xs ys zs, i.Returns (i.fill l) t xs ∧ i.Returns (i.fill l') t ys ∧
    i.Returns (union (i.fill l) (i.fill l')) t zs ∧ (∀ v ∈ ys, v ∈ zs) ∧
    ∀ v ∈ zs, v ∈ xs ∨ v ∈ ys

/-- After a union, lookup loses a value of the first map. -/
def Loses : Prop :=
  ∃ l l' t v xs zs, i.Returns (i.fill l) t xs ∧ v ∈ xs ∧
    i.Returns (union (i.fill l) (i.fill l')) t zs ∧ v ∉ zs

end MapImpl

/-- A way to build a map with insertions and unions. -/
inductive Steps (P V : Type) where
  | empty
  | insert (s : Steps P V) (p : P) (v : V)
  | union (s s' : Steps P V)

namespace Steps

variable {P V : Type}

/-- All the pairs that are inserted on the way. -/
def inserted : Steps P V → List (P × V)
  | empty => []
  | insert s p v => s.inserted ++ [(p, v)]
  | union s s' => s.inserted ++ s'.inserted

/-- The pairs that are in the map in the end: those of the first map of a union are lost
when their pattern meets one inserted on the way to the second map. -/
def Holds (meet : P → P → Prop) : Steps P V → P → V → Prop
  | empty, _, _ => False
  | insert s p v, q, w => s.Holds meet q w ∨ q = p ∧ w = v
  | union s s', q, w =>
    s'.Holds meet q w ∨ s.Holds meet q w ∧ ∀ x ∈ s'.inserted, ¬ meet q x.1

end Steps

namespace MapImpl

variable {P V T : Type} (i : MapImpl P V T) (union : i.Map → i.Map → i.Map)

/-- The map built by some steps. -/
def build : Steps P V → i.Map
  | .empty => i.empty
  | .insert s p v => (i.insert (build s) p v).1
  | .union s s' => union (build s) (build s')

/-- However a map was built, lookup yields the values it holds with a matching pattern,
once for each, and insertion reports whether the pair is new. -/
def MapsUnions [DecidableEq V] (matching : Triple T → P → Prop) (meet : P → P → Prop) : Prop :=
  (∀ s t, ∃ xs, i.Returns (i.build union s) t xs ∧ ∀ v, ∃ ps : List P, ps.Nodup ∧
    (∀ p, p ∈ ps ↔ s.Holds meet p v ∧ matching t p) ∧ xs.count v = ps.length) ∧
  ∀ s p v, (i.insert (i.build union s) p v).2 = true ↔ ¬ s.Holds meet p v

end MapImpl

/-! ## The kinds of maps -/

section kinds

open PatternMap

variable (V T : Type) [DecidableEq V] [DecidableEq T]

abbrev triplePatternMap : MapImpl (CanonicalTriplePattern T) V T :=
  ⟨_, _, {}, TriplePatternMap.insert, TriplePatternMap.get, TriplePatternMap.next⟩

abbrev givenSubjectMap : MapImpl (TPat.GivenSubject T) V T :=
  ⟨_, _, {}, GivenSubjectMap.insert, GivenSubjectMap.get, GivenSubjectMap.next⟩

abbrev givenSubjectAnyPredicateMap : MapImpl (TPat.GivenSubjectAnyPredicate T) V T :=
  ⟨_, _, {}, GivenSubjectAnyPredicateMap.insert, GivenSubjectAnyPredicateMap.get,
    GivenSubjectAnyPredicateMap.next⟩

abbrev givenSubjectGivenPredicateMap : MapImpl (TPat.GivenSubjectGivenPredicate T) V T :=
  ⟨_, _, {}, GivenSubjectGivenPredicateMap.insert, GivenSubjectGivenPredicateMap.get,
    GivenSubjectGivenPredicateMap.next⟩

abbrev anySubjectMap : MapImpl (TPat.AnySubject T) V T :=
  ⟨_, _, {}, AnySubjectMap.insert, AnySubjectMap.get, AnySubjectMap.next⟩

abbrev anySubjectAnyPredicateMap : MapImpl (TPat.AnySubjectAnyPredicate T) V T :=
  ⟨_, _, {}, AnySubjectAnyPredicateMap.insert, AnySubjectAnyPredicateMap.get,
    AnySubjectAnyPredicateMap.next⟩

abbrev anySubjectGivenPredicateMap : MapImpl (TPat.AnySubjectGivenPredicate T) V T :=
  ⟨_, _, {}, AnySubjectGivenPredicateMap.insert, AnySubjectGivenPredicateMap.get,
    AnySubjectGivenPredicateMap.next⟩

end kinds

/-! ## The partial patterns that are their keys

A partial pattern matches a triple when a full pattern with it does, the positions
left out being those of the triple. -/

section partialPatterns

open TPat

variable {T : Type}

abbrev inGivenSubject (t : Triple T) (x : GivenSubject T) : Prop :=
  matchesTriple (.givenSubject t.s x) t

abbrev inGivenSubjectAnyPredicate (t : Triple T) (x : GivenSubjectAnyPredicate T) : Prop :=
  matchesTriple (.givenSubject t.s (.anyPredicate x)) t

abbrev inGivenSubjectGivenPredicate (t : Triple T) (x : GivenSubjectGivenPredicate T) : Prop :=
  matchesTriple (.givenSubject t.s (.givenPredicate t.p x)) t

abbrev inAnySubject (t : Triple T) (x : AnySubject T) : Prop := matchesTriple (.anySubject x) t

abbrev inAnySubjectAnyPredicate (t : Triple T) (x : AnySubjectAnyPredicate T) : Prop :=
  matchesTriple (.anySubject (.anyPredicate x)) t

abbrev inAnySubjectGivenPredicate (t : Triple T) (x : AnySubjectGivenPredicate T) : Prop :=
  matchesTriple (.anySubject (.givenPredicate t.p x)) t

/-! Two partial patterns meet when their first given terms are at the same place and
equal. -/

def meetGivenSubjectGivenPredicate : GivenSubjectGivenPredicate T → GivenSubjectGivenPredicate T → Prop
  | .givenObject o, .givenObject o' => o = o'
  | _, _ => False

def meetGivenSubjectAnyPredicate : GivenSubjectAnyPredicate T → GivenSubjectAnyPredicate T → Prop
  | .givenObject o, .givenObject o' => o = o'
  | _, _ => False

def meetGivenSubject : GivenSubject T → GivenSubject T → Prop
  | .anyPredicate x, .anyPredicate x' => meetGivenSubjectAnyPredicate x x'
  | .givenPredicate p _, .givenPredicate p' _ => p = p'
  | _, _ => False

def meetAnySubjectAnyPredicate : AnySubjectAnyPredicate T → AnySubjectAnyPredicate T → Prop
  | .givenObject o, .givenObject o' => o = o'
  | _, _ => False

def meetAnySubjectGivenPredicate : AnySubjectGivenPredicate T → AnySubjectGivenPredicate T → Prop
  | .givenObject o, .givenObject o' => o = o'
  | _, _ => False

def meetAnySubject : AnySubject T → AnySubject T → Prop
  | .anyPredicate x, .anyPredicate x' => meetAnySubjectAnyPredicate x x'
  | .sameAsSubject x, .sameAsSubject x' => meetAnySubjectGivenPredicate x x'
  | .givenPredicate p _, .givenPredicate p' _ => p = p'
  | _, _ => False

/-- No pattern of the first list meets one of the second. -/
def Apart {P V : Type} (meet : P → P → Prop) (l l' : List (P × V)) : Prop :=
  ∀ x ∈ l, ∀ y ∈ l', ¬ meet x.1 y.1

end partialPatterns

end RdfTypes.Spec
