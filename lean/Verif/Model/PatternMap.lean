import Verif.Model.TriplePattern

/-!
# Maps from triple patterns to values

`/repo/src/pattern/triple/map.rs`; line numbers refer to it.

Simplifications. `Eq` is equality and `Hash` is consistent with it. A
`std::collections::HashMap` is a partial function: the code only uses `entry`, `get`
and `extend` on it. A `HashSet` is a list without repetition; the order in which the
standard iterator yields its elements is unspecified and here that of insertion, so
that only the numbers of occurrences in what iterators yield mean something.
-/

namespace RdfTypes

/-! ## The standard collections -/

/-- A `HashSet` (std), as the list of its elements; the fields of `map.rs` 113-114 and the like. -/
abbrev HashSet (V : Type) := List V

/-- `HashSet::insert` (std), called in `map.rs` 121-124 and the like: whether the value is new. -/
def HashSet.insert {V : Type} [DecidableEq V] (v : V) (l : HashSet V) : HashSet V × Bool :=
  if v ∈ l then (l, false) else (l ++ [v], true)

/-- `HashSet::extend` (std), called in `map.rs` 154-155 and the like. -/
def HashSet.extend {V : Type} [DecidableEq V] (l l' : HashSet V) : HashSet V :=
  l'.foldl (fun l v => (HashSet.insert v l).1) l

/-- A `HashMap` (std), as a partial function; the fields of `map.rs` 16, 58, 115 and the like. -/
abbrev HashMap (T X : Type) := T → Option X

/-- `HashMap::default` (std), from the derived `Default` of `map.rs` 13 and the like. -/
def HashMap.empty {T X : Type} : HashMap T X := fun _ => none

/-- `self.entry(k).or_default()` followed by a call that changes the entry and returns a
value, as in `map.rs` 24, 66, 124; `x` is the default. -/
def HashMap.entry {T X : Type} [DecidableEq T] (m : HashMap T X) (k : T) (x : X)
    (f : X → X × Bool) : HashMap T X × Bool :=
  let (x', b) := f ((m k).getD x)
  (fun k' => if k' = k then some x' else m k', b)

/-- `HashMap::extend` (std), called in `map.rs` 84, 156, 214 and the like: the entries of `other`
replace those with the same key. -/
def HashMap.extend {T X : Type} (m other : HashMap T X) : HashMap T X :=
  fun k => (other k).or (m k)

/-! ## Iterators -/

/-- `Iterator::next` of an iterator whose states are in `S`, as in `map.rs` 47-51 and the like. -/
abbrev Next (S V : Type) := S → Option V × S

/-- `hash_set::Iter::next` (std), called in `map.rs` 171-173 and the like: the state is the list of
the
items left. -/
def setNext {V : Type} : Next (List V) V
  | [] => (none, [])
  | v :: l => (some v, l)

/-- `self.x.as_mut().and_then(|i| i.next())`, as in `map.rs` 50, 106, 172-173 and the like. -/
def optionNext {S V : Type} (next : Next S V) : Next (Option S) V
  | none => (none, none)
  | some s => let (v, s') := next s; (v, some s')

/-- `self.x.next().or_else(|| self.y.next())`, as in `map.rs` 48-50 and the like. -/
def orNext {S S' V : Type} (next : Next S V) (next' : Next S' V) : Next (S × S') V :=
  fun (s, s') =>
    match next s with
    | (some v, s₁) => (some v, (s₁, s'))
    | (none, s₁) => let (v, s₂) := next' s'; (v, (s₁, s₂))

namespace PatternMap

open TPat

variable {V T : Type} [DecidableEq V] [DecidableEq T]

/-! ## Given subject, given predicate -/

/-- `GivenSubjectGivenPredicateMap`, `map.rs` 179-182. -/
structure GivenSubjectGivenPredicateMap (V T : Type) where
  any : HashSet V := []
  given : HashMap T (HashSet V) := .empty

namespace GivenSubjectGivenPredicateMap

/-- `insert`, `map.rs` 185-192. -/
def insert (m : GivenSubjectGivenPredicateMap V T) (pattern : GivenSubjectGivenPredicate T)
    (value : V) : GivenSubjectGivenPredicateMap V T × Bool :=
  match pattern with
  | .anyObject => let (x, b) := m.any.insert value; ({ m with any := x }, b)
  | .givenObject id =>
    let (x, b) := m.given.entry id [] (·.insert value); ({ m with given := x }, b)

/-- The state of `GivenSubjectGivenPredicateValues`, `map.rs` 218-221. -/
abbrev Values (V : Type) := List V × Option (List V)

/-- `get`, `map.rs` 196-201. -/
def get (m : GivenSubjectGivenPredicateMap V T) (t : Triple T) : Values V := (m.any, m.given t.o)

/-- `GivenSubjectGivenPredicateValues::next`, `map.rs` 226-230. -/
def next : Next (Values V) V := orNext setNext (optionNext setNext)

/-- `union_with`, `map.rs` 212-215. -/
def unionWith (m other : GivenSubjectGivenPredicateMap V T) : GivenSubjectGivenPredicateMap V T :=
  ⟨m.any.extend other.any, m.given.extend other.given⟩

end GivenSubjectGivenPredicateMap

/-! ## Given subject, any predicate -/

/-- `GivenSubjectAnyPredicateMap`, `map.rs` 112-116. -/
structure GivenSubjectAnyPredicateMap (V T : Type) where
  any : HashSet V := []
  sameAsPredicate : HashSet V := []
  given : HashMap T (HashSet V) := .empty

namespace GivenSubjectAnyPredicateMap

/-- `insert`, `map.rs` 119-127. -/
def insert (m : GivenSubjectAnyPredicateMap V T) (pattern : GivenSubjectAnyPredicate T)
    (value : V) : GivenSubjectAnyPredicateMap V T × Bool :=
  match pattern with
  | .anyObject => let (x, b) := m.any.insert value; ({ m with any := x }, b)
  | .sameAsPredicate =>
    let (x, b) := m.sameAsPredicate.insert value; ({ m with sameAsPredicate := x }, b)
  | .givenObject id =>
    let (x, b) := m.given.entry id [] (·.insert value); ({ m with given := x }, b)

/-- The state of `GivenSubjectAnyPredicateValues`, `map.rs` 160-164. -/
abbrev Values (V : Type) := List V × Option (List V) × Option (List V)

/-- `get`, `map.rs` 131-141. -/
def get (m : GivenSubjectAnyPredicateMap V T) (t : Triple T) : Values V :=
  (m.any, if t.p = t.o then some m.sameAsPredicate else none, m.given t.o)

/-- `GivenSubjectAnyPredicateValues::next`, `map.rs` 169-174. -/
def next : Next (Values V) V := orNext setNext (orNext (optionNext setNext) (optionNext setNext))

/-- `union_with`, `map.rs` 153-157. -/
def unionWith (m other : GivenSubjectAnyPredicateMap V T) : GivenSubjectAnyPredicateMap V T :=
  ⟨m.any.extend other.any, m.sameAsPredicate.extend other.sameAsPredicate,
    m.given.extend other.given⟩

end GivenSubjectAnyPredicateMap

/-! ## Given subject -/

/-- `GivenSubjectMap`, `map.rs` 56-59. -/
structure GivenSubjectMap (V T : Type) where
  any : GivenSubjectAnyPredicateMap V T := {}
  given : HashMap T (GivenSubjectGivenPredicateMap V T) := .empty

namespace GivenSubjectMap

/-- `insert`, `map.rs` 62-69. -/
def insert (m : GivenSubjectMap V T) (pattern : GivenSubject T) (value : V) :
    GivenSubjectMap V T × Bool :=
  match pattern with
  | .anyPredicate rest => let (x, b) := m.any.insert rest value; ({ m with any := x }, b)
  | .givenPredicate id rest =>
    let (x, b) := m.given.entry id {} (·.insert rest value); ({ m with given := x }, b)

/-- The state of `GivenSubjectValues`, `map.rs` 95-98. -/
abbrev Values (V : Type) :=
  GivenSubjectAnyPredicateMap.Values V × Option (GivenSubjectGivenPredicateMap.Values V)

/-- `get`, `map.rs` 73-78. -/
def get (m : GivenSubjectMap V T) (t : Triple T) : Values V :=
  (m.any.get t, (m.given t.p).map (·.get t))

/-- `GivenSubjectValues::next`, `map.rs` 103-107. -/
def next : Next (Values V) V :=
  orNext GivenSubjectAnyPredicateMap.next (optionNext GivenSubjectGivenPredicateMap.next)

/-- `union_with`, `map.rs` 82-85. -/
def unionWith (m other : GivenSubjectMap V T) : GivenSubjectMap V T :=
  ⟨m.any.unionWith other.any, m.given.extend other.given⟩

end GivenSubjectMap

/-! ## Any subject, any predicate -/

/-- `AnySubjectAnyPredicateMap`, `map.rs` 302-307. -/
structure AnySubjectAnyPredicateMap (V T : Type) where
  any : HashSet V := []
  sameAsSubject : HashSet V := []
  sameAsPredicate : HashSet V := []
  given : HashMap T (HashSet V) := .empty

namespace AnySubjectAnyPredicateMap

/-- `insert`, `map.rs` 310-319. -/
def insert (m : AnySubjectAnyPredicateMap V T) (pattern : AnySubjectAnyPredicate T) (value : V) :
    AnySubjectAnyPredicateMap V T × Bool :=
  match pattern with
  | .anyObject => let (x, b) := m.any.insert value; ({ m with any := x }, b)
  | .sameAsSubject =>
    let (x, b) := m.sameAsSubject.insert value; ({ m with sameAsSubject := x }, b)
  | .sameAsPredicate =>
    let (x, b) := m.sameAsPredicate.insert value; ({ m with sameAsPredicate := x }, b)
  | .givenObject id =>
    let (x, b) := m.given.entry id [] (·.insert value); ({ m with given := x }, b)

/-- The state of `AnySubjectAnyPredicateValues`, `map.rs` 359-364. -/
abbrev Values (V : Type) := List V × Option (List V) × Option (List V) × Option (List V)

/-- `get`, `map.rs` 323-338. -/
def get (m : AnySubjectAnyPredicateMap V T) (t : Triple T) : Values V :=
  (m.any, if t.s = t.o then some m.sameAsSubject else none,
    if t.p = t.o then some m.sameAsPredicate else none, m.given t.o)

/-- `AnySubjectAnyPredicateValues::next`, `map.rs` 369-375. -/
def next : Next (Values V) V :=
  orNext setNext (orNext (optionNext setNext) (orNext (optionNext setNext) (optionNext setNext)))

/-- `union_with`, `map.rs` 351-356. -/
def unionWith (m other : AnySubjectAnyPredicateMap V T) : AnySubjectAnyPredicateMap V T :=
  ⟨m.any.extend other.any, m.sameAsSubject.extend other.sameAsSubject,
    m.sameAsPredicate.extend other.sameAsPredicate, m.given.extend other.given⟩

end AnySubjectAnyPredicateMap

/-! ## Any subject, given predicate -/

/-- `AnySubjectGivenPredicateMap`, `map.rs` 380-384. -/
structure AnySubjectGivenPredicateMap (V T : Type) where
  any : HashSet V := []
  sameAsSubject : HashSet V := []
  given : HashMap T (HashSet V) := .empty

namespace AnySubjectGivenPredicateMap

/-- `insert`, `map.rs` 387-395. -/
def insert (m : AnySubjectGivenPredicateMap V T) (pattern : AnySubjectGivenPredicate T)
    (value : V) : AnySubjectGivenPredicateMap V T × Bool :=
  match pattern with
  | .anyObject => let (x, b) := m.any.insert value; ({ m with any := x }, b)
  | .sameAsSubject =>
    let (x, b) := m.sameAsSubject.insert value; ({ m with sameAsSubject := x }, b)
  | .givenObject id =>
    let (x, b) := m.given.entry id [] (·.insert value); ({ m with given := x }, b)

/-- The state of `AnySubjectGivenPredicateValues`, `map.rs` 428-432. -/
abbrev Values (V : Type) := List V × Option (List V) × Option (List V)

/-- `get`, `map.rs` 399-409. -/
def get (m : AnySubjectGivenPredicateMap V T) (t : Triple T) : Values V :=
  (m.any, if t.s = t.o then some m.sameAsSubject else none, m.given t.o)

/-- `AnySubjectGivenPredicateValues::next`, `map.rs` 437-442. -/
def next : Next (Values V) V := orNext setNext (orNext (optionNext setNext) (optionNext setNext))

/-- `union_with`, `map.rs` 421-425. -/
def unionWith (m other : AnySubjectGivenPredicateMap V T) : AnySubjectGivenPredicateMap V T :=
  ⟨m.any.extend other.any, m.sameAsSubject.extend other.sameAsSubject,
    m.given.extend other.given⟩

end AnySubjectGivenPredicateMap

/-! ## Any subject -/

/-- `AnySubjectMap`, `map.rs` 235-239. -/
structure AnySubjectMap (V T : Type) where
  any : AnySubjectAnyPredicateMap V T := {}
  sameAsSubject : AnySubjectGivenPredicateMap V T := {}
  given : HashMap T (AnySubjectGivenPredicateMap V T) := .empty

namespace AnySubjectMap

/-- `insert`, `map.rs` 242-250. -/
def insert (m : AnySubjectMap V T) (pattern : AnySubject T) (value : V) :
    AnySubjectMap V T × Bool :=
  match pattern with
  | .anyPredicate rest => let (x, b) := m.any.insert rest value; ({ m with any := x }, b)
  | .sameAsSubject rest =>
    let (x, b) := m.sameAsSubject.insert rest value; ({ m with sameAsSubject := x }, b)
  | .givenPredicate id rest =>
    let (x, b) := m.given.entry id {} (·.insert rest value); ({ m with given := x }, b)

/-- The state of `AnySubjectValues`, `map.rs` 283-287. -/
abbrev Values (V : Type) :=
  AnySubjectAnyPredicateMap.Values V × Option (AnySubjectGivenPredicateMap.Values V) ×
    Option (AnySubjectGivenPredicateMap.Values V)

/-- `get`, `map.rs` 254-264. -/
def get (m : AnySubjectMap V T) (t : Triple T) : Values V :=
  (m.any.get t, if t.s = t.p then some (m.sameAsSubject.get t) else none,
    (m.given t.p).map (·.get t))

/-- `AnySubjectValues::next`, `map.rs` 292-297. -/
def next : Next (Values V) V :=
  orNext AnySubjectAnyPredicateMap.next
    (orNext (optionNext AnySubjectGivenPredicateMap.next)
      (optionNext AnySubjectGivenPredicateMap.next))

/-- `union_with`, `map.rs` 276-280. -/
def unionWith (m other : AnySubjectMap V T) : AnySubjectMap V T :=
  ⟨m.any.unionWith other.any, m.sameAsSubject.unionWith other.sameAsSubject,
    m.given.extend other.given⟩

end AnySubjectMap

/-! ## Patterns -/

/-- `TriplePatternMap`, `map.rs` 14-17. -/
structure TriplePatternMap (V T : Type) where
  any : AnySubjectMap V T := {}
  given : HashMap T (GivenSubjectMap V T) := .empty

namespace TriplePatternMap

/-- `insert`, `map.rs` 20-27. -/
def insert (m : TriplePatternMap V T) (pattern : CanonicalTriplePattern T) (value : V) :
    TriplePatternMap V T × Bool :=
  match pattern with
  | .anySubject rest => let (x, b) := m.any.insert rest value; ({ m with any := x }, b)
  | .givenSubject id rest =>
    let (x, b) := m.given.entry id {} (·.insert rest value); ({ m with given := x }, b)

/-- The state of `Values`, `map.rs` 39-42. -/
abbrev Values (V : Type) := AnySubjectMap.Values V × Option (GivenSubjectMap.Values V)

/-- `get`, `map.rs` 31-36. -/
def get (m : TriplePatternMap V T) (t : Triple T) : Values V :=
  (m.any.get t, (m.given t.s).map (·.get t))

/-- `Values::next`, `map.rs` 47-51. -/
def next : Next (Values V) V := orNext AnySubjectMap.next (optionNext GivenSubjectMap.next)

end TriplePatternMap

end PatternMap

end RdfTypes
