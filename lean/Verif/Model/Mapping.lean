import Verif.Model.QuadPattern

/-!
# Mapping with a function that has effects

The functions given to `map` and `map2` are `FnMut` and those given to `map_all`
are `FnOnce`: they may keep a state, and they may panic. `Model/Statement.lean`
and `Model/QuadPattern.lean` model them as functions without effects; here the
effects are those of a monad `m`. For a state of type `σ` and panics, `m` is
`StateT σ Res`. The statements of each function are written in the order in which
Rust evaluates them: the operands of a constructor from left to right.
-/

namespace RdfTypes

/-- `Option::map` of the standard library, called in `quad.rs` 233 and
`quad/canonical.rs` 1311 and the other `map` on graphs. -/
def optionMapM {m : Type → Type} [Monad m] {T U : Type} (f : T → m U) : Option T → m (Option U)
  | some g => do return some (← f g)
  | none => pure none

namespace Quad

variable {m : Type → Type} [Monad m] {S P O G S' P' O' G' : Type}

/-- `Quad::map_subject`, `quad.rs` 194-196. -/
def mapSubjectM (q : Quad S P O G) (f : S → m S') : m (Quad S' P O G) := do
  return ⟨← f q.s, q.p, q.o, q.g⟩

/-- `Quad::map_predicate`, `quad.rs` 199-201. -/
def mapPredicateM (q : Quad S P O G) (f : P → m P') : m (Quad S P' O G) := do
  return ⟨q.s, ← f q.p, q.o, q.g⟩

/-- `Quad::map_object`, `quad.rs` 204-206. -/
def mapObjectM (q : Quad S P O G) (f : O → m O') : m (Quad S P O' G) := do
  return ⟨q.s, q.p, ← f q.o, q.g⟩

/-- `Quad::map_graph`, `quad.rs` 209-211. -/
def mapGraphM (q : Quad S P O G) (f : Option G → m (Option G')) : m (Quad S P O G') := do
  return ⟨q.s, q.p, q.o, ← f q.g⟩

/-- `Quad::map_all`, `quad.rs` 219-227. -/
def mapAllM (q : Quad S P O G) (s : S → m S') (p : P → m P') (o : O → m O')
    (g : Option G → m (Option G')) : m (Quad S' P' O' G') := do
  return ⟨← s q.s, ← p q.p, ← o q.o, ← g q.g⟩

/-- `Quad::map`, `quad.rs` 232-234. -/
def mapM {T U : Type} (q : Quad T) (f : T → m U) : m (Quad U) := do
  return ⟨← f q.s, ← f q.p, ← f q.o, ← optionMapM f q.g⟩

end Quad

namespace Triple

variable {m : Type → Type} [Monad m] {S P O S' P' O' : Type}

/-- `Triple::map_subject`, `triple.rs` 109-111. -/
def mapSubjectM (t : Triple S P O) (f : S → m S') : m (Triple S' P O) := do
  return ⟨← f t.s, t.p, t.o⟩

/-- `Triple::map_predicate`, `triple.rs` 114-116. -/
def mapPredicateM (t : Triple S P O) (f : P → m P') : m (Triple S P' O) := do
  return ⟨t.s, ← f t.p, t.o⟩

/-- `Triple::map_object`, `triple.rs` 119-121. -/
def mapObjectM (t : Triple S P O) (f : O → m O') : m (Triple S P O') := do
  return ⟨t.s, t.p, ← f t.o⟩

/-- `Triple::map`, `triple.rs` 171-173. -/
def mapM {T U : Type} (t : Triple T) (f : T → m U) : m (Triple U) := do
  return ⟨← f t.s, ← f t.p, ← f t.o⟩

end Triple

namespace QPat

/-- The `match g { Some(g) => ..., None => (None, None) }` of every `map2` on
graph positions, for instance `quad/canonical.rs` 1340-1346. -/
def optionMap2M {m : Type → Type} [Monad m] {T U V : Type} (f : T → m (U × V)) :
    Option T → m (Option U × Option V)
  | some g => do
    let g ← f g
    return (some g.1, some g.2)
  | none => pure (none, none)

namespace AnySubjectAnyPredicateAnyObject

variable {m : Type → Type} [Monad m] {T U V : Type}

/-- `map`, `quad/canonical.rs` 1305-1313. -/
def mapM (f : T → m U) : AnySubjectAnyPredicateAnyObject T →
    m (AnySubjectAnyPredicateAnyObject U)
  | .anyGraph => pure .anyGraph
  | .sameAsSubject => pure .sameAsSubject
  | .sameAsPredicate => pure .sameAsPredicate
  | .sameAsObject => pure .sameAsObject
  | .givenGraph g => do return .givenGraph (← optionMapM f g)

/-- `map2`, `quad/canonical.rs` 1315-1354. -/
def map2M (f : T → m (U × V)) : AnySubjectAnyPredicateAnyObject T →
    m (AnySubjectAnyPredicateAnyObject U × AnySubjectAnyPredicateAnyObject V)
  | .anyGraph => pure (.anyGraph, .anyGraph)
  | .sameAsSubject => pure (.sameAsSubject, .sameAsSubject)
  | .sameAsPredicate => pure (.sameAsPredicate, .sameAsPredicate)
  | .sameAsObject => pure (.sameAsObject, .sameAsObject)
  | .givenGraph g => do
    let g ← optionMap2M f g
    return (.givenGraph g.1, .givenGraph g.2)

end AnySubjectAnyPredicateAnyObject

namespace GivenSubjectAnyPredicateAnyObject

variable {m : Type → Type} [Monad m] {T U V : Type}

/-- `map`, `quad/canonical.rs` 1415-1422. -/
def mapM (f : T → m U) : GivenSubjectAnyPredicateAnyObject T →
    m (GivenSubjectAnyPredicateAnyObject U)
  | .anyGraph => pure .anyGraph
  | .sameAsPredicate => pure .sameAsPredicate
  | .sameAsObject => pure .sameAsObject
  | .givenGraph g => do return .givenGraph (← optionMapM f g)

/-- `map2`, `quad/canonical.rs` 1424-1459. -/
def map2M (f : T → m (U × V)) : GivenSubjectAnyPredicateAnyObject T →
    m (GivenSubjectAnyPredicateAnyObject U × GivenSubjectAnyPredicateAnyObject V)
  | .anyGraph => pure (.anyGraph, .anyGraph)
  | .sameAsPredicate => pure (.sameAsPredicate, .sameAsPredicate)
  | .sameAsObject => pure (.sameAsObject, .sameAsObject)
  | .givenGraph g => do
    let g ← optionMap2M f g
    return (.givenGraph g.1, .givenGraph g.2)

end GivenSubjectAnyPredicateAnyObject

namespace AnySubjectGivenPredicateAnyObject

variable {m : Type → Type} [Monad m] {T U V : Type}

/-- `map`, `quad/canonical.rs` 1520-1527. -/
def mapM (f : T → m U) : AnySubjectGivenPredicateAnyObject T →
    m (AnySubjectGivenPredicateAnyObject U)
  | .anyGraph => pure .anyGraph
  | .sameAsSubject => pure .sameAsSubject
  | .sameAsObject => pure .sameAsObject
  | .givenGraph g => do return .givenGraph (← optionMapM f g)

/-- `map2`, `quad/canonical.rs` 1529-1564. -/
def map2M (f : T → m (U × V)) : AnySubjectGivenPredicateAnyObject T →
    m (AnySubjectGivenPredicateAnyObject U × AnySubjectGivenPredicateAnyObject V)
  | .anyGraph => pure (.anyGraph, .anyGraph)
  | .sameAsSubject => pure (.sameAsSubject, .sameAsSubject)
  | .sameAsObject => pure (.sameAsObject, .sameAsObject)
  | .givenGraph g => do
    let g ← optionMap2M f g
    return (.givenGraph g.1, .givenGraph g.2)

end AnySubjectGivenPredicateAnyObject

namespace AnySubjectAnyPredicateGivenObject

variable {m : Type → Type} [Monad m] {T U V : Type}

/-- `map`, `quad/canonical.rs` 1625-1632. -/
def mapM (f : T → m U) : AnySubjectAnyPredicateGivenObject T →
    m (AnySubjectAnyPredicateGivenObject U)
  | .anyGraph => pure .anyGraph
  | .sameAsSubject => pure .sameAsSubject
  | .sameAsPredicate => pure .sameAsPredicate
  | .givenGraph g => do return .givenGraph (← optionMapM f g)

/-- `map2`, `quad/canonical.rs` 1634-1669. -/
def map2M (f : T → m (U × V)) : AnySubjectAnyPredicateGivenObject T →
    m (AnySubjectAnyPredicateGivenObject U × AnySubjectAnyPredicateGivenObject V)
  | .anyGraph => pure (.anyGraph, .anyGraph)
  | .sameAsSubject => pure (.sameAsSubject, .sameAsSubject)
  | .sameAsPredicate => pure (.sameAsPredicate, .sameAsPredicate)
  | .givenGraph g => do
    let g ← optionMap2M f g
    return (.givenGraph g.1, .givenGraph g.2)

end AnySubjectAnyPredicateGivenObject

namespace AnySubjectGivenPredicateGivenObject

variable {m : Type → Type} [Monad m] {T U V : Type}

/-- `map`, `quad/canonical.rs` 1724-1730. -/
def mapM (f : T → m U) : AnySubjectGivenPredicateGivenObject T →
    m (AnySubjectGivenPredicateGivenObject U)
  | .anyGraph => pure .anyGraph
  | .sameAsSubject => pure .sameAsSubject
  | .givenGraph g => do return .givenGraph (← optionMapM f g)

/-- `map2`, `quad/canonical.rs` 1732-1763. -/
def map2M (f : T → m (U × V)) : AnySubjectGivenPredicateGivenObject T →
    m (AnySubjectGivenPredicateGivenObject U × AnySubjectGivenPredicateGivenObject V)
  | .anyGraph => pure (.anyGraph, .anyGraph)
  | .sameAsSubject => pure (.sameAsSubject, .sameAsSubject)
  | .givenGraph g => do
    let g ← optionMap2M f g
    return (.givenGraph g.1, .givenGraph g.2)

end AnySubjectGivenPredicateGivenObject

namespace GivenSubjectAnyPredicateGivenObject

variable {m : Type → Type} [Monad m] {T U V : Type}

/-- `map`, `quad/canonical.rs` 1818-1824. -/
def mapM (f : T → m U) : GivenSubjectAnyPredicateGivenObject T →
    m (GivenSubjectAnyPredicateGivenObject U)
  | .anyGraph => pure .anyGraph
  | .sameAsPredicate => pure .sameAsPredicate
  | .givenGraph g => do return .givenGraph (← optionMapM f g)

/-- `map2`, `quad/canonical.rs` 1826-1857. -/
def map2M (f : T → m (U × V)) : GivenSubjectAnyPredicateGivenObject T →
    m (GivenSubjectAnyPredicateGivenObject U × GivenSubjectAnyPredicateGivenObject V)
  | .anyGraph => pure (.anyGraph, .anyGraph)
  | .sameAsPredicate => pure (.sameAsPredicate, .sameAsPredicate)
  | .givenGraph g => do
    let g ← optionMap2M f g
    return (.givenGraph g.1, .givenGraph g.2)

end GivenSubjectAnyPredicateGivenObject

namespace GivenSubjectGivenPredicateAnyObject

variable {m : Type → Type} [Monad m] {T U V : Type}

/-- `map`, `quad/canonical.rs` 1912-1918. -/
def mapM (f : T → m U) : GivenSubjectGivenPredicateAnyObject T →
    m (GivenSubjectGivenPredicateAnyObject U)
  | .anyGraph => pure .anyGraph
  | .sameAsObject => pure .sameAsObject
  | .givenGraph g => do return .givenGraph (← optionMapM f g)

/-- `map2`, `quad/canonical.rs` 1920-1951. -/
def map2M (f : T → m (U × V)) : GivenSubjectGivenPredicateAnyObject T →
    m (GivenSubjectGivenPredicateAnyObject U × GivenSubjectGivenPredicateAnyObject V)
  | .anyGraph => pure (.anyGraph, .anyGraph)
  | .sameAsObject => pure (.sameAsObject, .sameAsObject)
  | .givenGraph g => do
    let g ← optionMap2M f g
    return (.givenGraph g.1, .givenGraph g.2)

end GivenSubjectGivenPredicateAnyObject

namespace GivenSubjectGivenPredicateGivenObject

variable {m : Type → Type} [Monad m] {T U V : Type}

/-- `map`, `quad/canonical.rs` 1996-2001. -/
def mapM (f : T → m U) : GivenSubjectGivenPredicateGivenObject T →
    m (GivenSubjectGivenPredicateGivenObject U)
  | .anyGraph => pure .anyGraph
  | .givenGraph g => do return .givenGraph (← optionMapM f g)

/-- `map2`, `quad/canonical.rs` 2003-2028. -/
def map2M (f : T → m (U × V)) : GivenSubjectGivenPredicateGivenObject T →
    m (GivenSubjectGivenPredicateGivenObject U × GivenSubjectGivenPredicateGivenObject V)
  | .anyGraph => pure (.anyGraph, .anyGraph)
  | .givenGraph g => do
    let g ← optionMap2M f g
    return (.givenGraph g.1, .givenGraph g.2)

end GivenSubjectGivenPredicateGivenObject

namespace AnySubjectAnyPredicate

variable {m : Type → Type} [Monad m] {T U V : Type}

/-- `map`, `quad/canonical.rs` 612-619. -/
def mapM (f : T → m U) : AnySubjectAnyPredicate T →
    m (AnySubjectAnyPredicate U)
  | .anyObject g => do return .anyObject (← g.mapM f)
  | .sameAsSubject g => do return .sameAsSubject (← g.mapM f)
  | .sameAsPredicate g => do return .sameAsPredicate (← g.mapM f)
  | .givenObject o g => do
    let o' ← f o
    return .givenObject o' (← g.mapM f)

/-- `map2`, `quad/canonical.rs` 621-656. -/
def map2M (f : T → m (U × V)) : AnySubjectAnyPredicate T →
    m (AnySubjectAnyPredicate U × AnySubjectAnyPredicate V)
  | .anyObject g => do
    let g ← g.map2M f
    return (.anyObject g.1, .anyObject g.2)
  | .sameAsSubject g => do
    let g ← g.map2M f
    return (.sameAsSubject g.1, .sameAsSubject g.2)
  | .sameAsPredicate g => do
    let g ← g.map2M f
    return (.sameAsPredicate g.1, .sameAsPredicate g.2)
  | .givenObject o g => do
    let o ← f o
    let g ← g.map2M f
    return (.givenObject o.1 g.1, .givenObject o.2 g.2)

end AnySubjectAnyPredicate

namespace AnySubjectGivenPredicate

variable {m : Type → Type} [Monad m] {T U V : Type}

/-- `map`, `quad/canonical.rs` 768-774. -/
def mapM (f : T → m U) : AnySubjectGivenPredicate T →
    m (AnySubjectGivenPredicate U)
  | .anyObject g => do return .anyObject (← g.mapM f)
  | .sameAsSubject g => do return .sameAsSubject (← g.mapM f)
  | .givenObject o g => do
    let o' ← f o
    return .givenObject o' (← g.mapM f)

/-- `map2`, `quad/canonical.rs` 776-804. -/
def map2M (f : T → m (U × V)) : AnySubjectGivenPredicate T →
    m (AnySubjectGivenPredicate U × AnySubjectGivenPredicate V)
  | .anyObject g => do
    let g ← g.map2M f
    return (.anyObject g.1, .anyObject g.2)
  | .sameAsSubject g => do
    let g ← g.map2M f
    return (.sameAsSubject g.1, .sameAsSubject g.2)
  | .givenObject o g => do
    let o ← f o
    let g ← g.map2M f
    return (.givenObject o.1 g.1, .givenObject o.2 g.2)

end AnySubjectGivenPredicate

namespace GivenSubjectAnyPredicate

variable {m : Type → Type} [Monad m] {T U V : Type}

/-- `map`, `quad/canonical.rs` 1043-1049. -/
def mapM (f : T → m U) : GivenSubjectAnyPredicate T →
    m (GivenSubjectAnyPredicate U)
  | .anyObject g => do return .anyObject (← g.mapM f)
  | .sameAsPredicate g => do return .sameAsPredicate (← g.mapM f)
  | .givenObject o g => do
    let o' ← f o
    return .givenObject o' (← g.mapM f)

/-- `map2`, `quad/canonical.rs` 1051-1079. -/
def map2M (f : T → m (U × V)) : GivenSubjectAnyPredicate T →
    m (GivenSubjectAnyPredicate U × GivenSubjectAnyPredicate V)
  | .anyObject g => do
    let g ← g.map2M f
    return (.anyObject g.1, .anyObject g.2)
  | .sameAsPredicate g => do
    let g ← g.map2M f
    return (.sameAsPredicate g.1, .sameAsPredicate g.2)
  | .givenObject o g => do
    let o ← f o
    let g ← g.map2M f
    return (.givenObject o.1 g.1, .givenObject o.2 g.2)

end GivenSubjectAnyPredicate

namespace GivenSubjectGivenPredicate

variable {m : Type → Type} [Monad m] {T U V : Type}

/-- `map`, `quad/canonical.rs` 1175-1180. -/
def mapM (f : T → m U) : GivenSubjectGivenPredicate T →
    m (GivenSubjectGivenPredicate U)
  | .anyObject g => do return .anyObject (← g.mapM f)
  | .givenObject o g => do
    let o' ← f o
    return .givenObject o' (← g.mapM f)

/-- `map2`, `quad/canonical.rs` 1182-1203. -/
def map2M (f : T → m (U × V)) : GivenSubjectGivenPredicate T →
    m (GivenSubjectGivenPredicate U × GivenSubjectGivenPredicate V)
  | .anyObject g => do
    let g ← g.map2M f
    return (.anyObject g.1, .anyObject g.2)
  | .givenObject o g => do
    let o ← f o
    let g ← g.map2M f
    return (.givenObject o.1 g.1, .givenObject o.2 g.2)

end GivenSubjectGivenPredicate

namespace AnySubject

variable {m : Type → Type} [Monad m] {T U V : Type}

/-- `map`, `quad/canonical.rs` 459-465. -/
def mapM (f : T → m U) : AnySubject T → m (AnySubject U)
  | .anyPredicate o => do return .anyPredicate (← o.mapM f)
  | .sameAsSubject o => do return .sameAsSubject (← o.mapM f)
  | .givenPredicate p o => do
    let p' ← f p
    return .givenPredicate p' (← o.mapM f)

/-- `map2`, `quad/canonical.rs` 467-492. -/
def map2M (f : T → m (U × V)) : AnySubject T →
    m (AnySubject U × AnySubject V)
  | .anyPredicate o => do
    let o ← o.map2M f
    return (.anyPredicate o.1, .anyPredicate o.2)
  | .sameAsSubject o => do
    let o ← o.map2M f
    return (.sameAsSubject o.1, .sameAsSubject o.2)
  | .givenPredicate p o => do
    let p ← f p
    let o ← o.map2M f
    return (.givenPredicate p.1 o.1, .givenPredicate p.2 o.2)

end AnySubject

namespace GivenSubject

variable {m : Type → Type} [Monad m] {T U V : Type}

/-- `map`, `quad/canonical.rs` 915-920. -/
def mapM (f : T → m U) : GivenSubject T → m (GivenSubject U)
  | .anyPredicate o => do return .anyPredicate (← o.mapM f)
  | .givenPredicate p o => do
    let p' ← f p
    return .givenPredicate p' (← o.mapM f)

/-- `map2`, `quad/canonical.rs` 922-940. -/
def map2M (f : T → m (U × V)) : GivenSubject T →
    m (GivenSubject U × GivenSubject V)
  | .anyPredicate o => do
    let o ← o.map2M f
    return (.anyPredicate o.1, .anyPredicate o.2)
  | .givenPredicate p o => do
    let p ← f p
    let o ← o.map2M f
    return (.givenPredicate p.1 o.1, .givenPredicate p.2 o.2)

end GivenSubject

end QPat

namespace CanonicalQuadPattern

variable {m : Type → Type} [Monad m] {T U V : Type}

/-- `map`, `quad/canonical.rs` 216-221. -/
def mapM (f : T → m U) : CanonicalQuadPattern T → m (CanonicalQuadPattern U)
  | .anySubject p => do return .anySubject (← p.mapM f)
  | .givenSubject s p => do
    let s' ← f s
    return .givenSubject s' (← p.mapM f)

/-- `map2`, `quad/canonical.rs` 223-244. -/
def map2M (f : T → m (U × V)) : CanonicalQuadPattern T →
    m (CanonicalQuadPattern U × CanonicalQuadPattern V)
  | .anySubject p => do
    let p ← p.map2M f
    return (.anySubject p.1, .anySubject p.2)
  | .givenSubject s p => do
    let s ← f s
    let p ← p.map2M f
    return (.givenSubject s.1 p.1, .givenSubject s.2 p.2)

end CanonicalQuadPattern

end RdfTypes
