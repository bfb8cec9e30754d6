import Verif.Base.Slab

/-!
# Ordered maps

`std::collections::BTreeMap<K, V>` and `BTreeSet<K>`, as sequences ordered by key.
-/

namespace RdfTypes

/-- `BTreeMap<K, V>`: its entries in order. -/
abbrev OrdMap (K V : Type) := List (K × V)

namespace OrdMap

variable {K V : Type} [Ord K]

/-- `BTreeMap::get`. -/
def get (k : K) : OrdMap K V → Option V
  | [] => none
  | (k', v) :: m => if compare k k' = .eq then some v else get k m

/-- `*map.entry(k).or_insert(x) = f(..)`; the default value is `x`. -/
def entry (k : K) (x : V) (f : V → V) : OrdMap K V → OrdMap K V
  | [] => [(k, f x)]
  | (k', v) :: m =>
    match compare k k' with
    | .lt => (k, f x) :: (k', v) :: m
    | .eq => (k', f v) :: m
    | .gt => (k', v) :: entry k x f m

/-- `BTreeMap::insert`: an existing value is replaced. -/
def insert (k : K) (v : V) (m : OrdMap K V) : OrdMap K V := entry k v (fun _ => v) m

/-- `BTreeMap::contains_key`. -/
def contains (k : K) (m : OrdMap K V) : Bool := (get k m).isSome

end OrdMap

/-- `BTreeSet<K>`: its elements in order. -/
abbrev OrdSet (K : Type) := List K

/-- `BTreeSet::insert`. -/
def OrdSet.insert {K : Type} [Ord K] (k : K) : OrdSet K → OrdSet K
  | [] => [k]
  | k' :: m =>
    match compare k k' with
    | .lt => k :: k' :: m
    | .eq => k' :: m
    | .gt => k' :: OrdSet.insert k m

/-- `Option::unwrap`. -/
def unwrap {α : Type} : Option α → Res α
  | some a => .ok a
  | none => .error .unwrapNone

/-- `slice::sort_unstable`, by insertion. Equal elements being identical, the result
does not depend on the algorithm. -/
def sortUnstable {α : Type} [Ord α] (l : List α) : List α := l.foldr insert []
where
  insert (a : α) : List α → List α
    | [] => [a]
    | b :: l => if (compare a b).isLE then a :: b :: l else b :: insert a l

end RdfTypes
