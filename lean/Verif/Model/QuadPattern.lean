import Verif.Model.TriplePattern

/-!
# Canonical quad patterns (`/repo/src/pattern/quad/canonical.rs`)

Line numbers refer to that file unless another one is given. Accessors by
reference and by value (`graph` and `into_graph`, ...) have the same text and
are modelled once; `as_ref` only borrows and has the text of `map`, so that it
is `map id` here. The function given to `map` and `map2` is `FnMut` in the code;
here it is a function without state, and `Model/Mapping.lean` has any other.

The types `PatternSubject`, `PatternPredicate` and `PatternObject` are declared
in both files with the same text (247-366, and `triple/canonical.rs` 361-481);
they are one type here.
-/

namespace RdfTypes

/-- `PatternGraph`, `quad/canonical.rs` 1231-1238. -/
inductive PatternGraph (T : Type) where
  | any
  | sameAsSubject
  | sameAsPredicate
  | sameAsObject
  | given (g : Option T)
  deriving DecidableEq, Repr

namespace QPat

/-- The `match g { Some(g) => ..., None => (None, None) }` of every `map2` on
graph positions, for instance `quad/canonical.rs` 1340-1346. -/
def optionMap2 {T U V : Type} (f : T → U × V) : Option T → Option U × Option V
  | some g => (some (f g).1, some (f g).2)
  | none => (none, none)

/-! Graph positions. -/

/-- `AnySubjectAnyPredicateAnyObject`, `quad/canonical.rs` 1240-1247. -/
inductive AnySubjectAnyPredicateAnyObject (T : Type) where
  | anyGraph
  | sameAsSubject
  | sameAsPredicate
  | sameAsObject
  | givenGraph (g : Option T)
  deriving DecidableEq, Repr

namespace AnySubjectAnyPredicateAnyObject

variable {T U V X : Type}

/-- `from_option`, `quad/canonical.rs` 1250-1255. -/
def fromOption : Option (Option T) → AnySubjectAnyPredicateAnyObject T
  | some g => .givenGraph g
  | none => .anyGraph

/-- `from_pattern`, `quad/canonical.rs` 1257-1273. -/
def fromPattern [DecidableEq X] (s p o : X) : Option (ResourceOrVar T X) → AnySubjectAnyPredicateAnyObject T
  | none => .givenGraph none
  | some (.resource g) => .givenGraph (some g)
  | some (.var g) =>
    if g = s then .sameAsSubject else if g = p then .sameAsPredicate else if g = o then .sameAsObject else .anyGraph

/-- `graph`, `into_graph`, `quad/canonical.rs` 1275 and following. -/
def graph : AnySubjectAnyPredicateAnyObject T → PatternGraph T
  | .anyGraph => .any
  | .sameAsSubject => .sameAsSubject
  | .sameAsPredicate => .sameAsPredicate
  | .sameAsObject => .sameAsObject
  | .givenGraph g => .given g

/-- `map`, `quad/canonical.rs` 1305-1313. -/
def map (f : T → U) : AnySubjectAnyPredicateAnyObject T → AnySubjectAnyPredicateAnyObject U
  | .anyGraph => .anyGraph
  | .sameAsSubject => .sameAsSubject
  | .sameAsPredicate => .sameAsPredicate
  | .sameAsObject => .sameAsObject
  | .givenGraph g => .givenGraph (g.map f)

/-- `map2`, `quad/canonical.rs` 1315-1354. -/
def map2 (f : T → U × V) : AnySubjectAnyPredicateAnyObject T → AnySubjectAnyPredicateAnyObject U × AnySubjectAnyPredicateAnyObject V
  | .anyGraph => (.anyGraph, .anyGraph)
  | .sameAsSubject => (.sameAsSubject, .sameAsSubject)
  | .sameAsPredicate => (.sameAsPredicate, .sameAsPredicate)
  | .sameAsObject => (.sameAsObject, .sameAsObject)
  | .givenGraph g => (.givenGraph (optionMap2 f g).1, .givenGraph (optionMap2 f g).2)

end AnySubjectAnyPredicateAnyObject

/-- `GivenSubjectAnyPredicateAnyObject`, `quad/canonical.rs` 1356-1362. -/
inductive GivenSubjectAnyPredicateAnyObject (T : Type) where
  | anyGraph
  | sameAsPredicate
  | sameAsObject
  | givenGraph (g : Option T)
  deriving DecidableEq, Repr

namespace GivenSubjectAnyPredicateAnyObject

variable {T U V X : Type}

/-- `from_option`, `quad/canonical.rs` 1365-1370. -/
def fromOption : Option (Option T) → GivenSubjectAnyPredicateAnyObject T
  | some g => .givenGraph g
  | none => .anyGraph

/-- `from_pattern`, `quad/canonical.rs` 1372-1386. -/
def fromPattern [DecidableEq X] (p o : X) : Option (ResourceOrVar T X) → GivenSubjectAnyPredicateAnyObject T
  | none => .givenGraph none
  | some (.resource g) => .givenGraph (some g)
  | some (.var g) =>
    if g = p then .sameAsPredicate else if g = o then .sameAsObject else .anyGraph

/-- `graph`, `into_graph`, `quad/canonical.rs` 1388 and following. -/
def graph : GivenSubjectAnyPredicateAnyObject T → PatternGraph T
  | .anyGraph => .any
  | .sameAsPredicate => .sameAsPredicate
  | .sameAsObject => .sameAsObject
  | .givenGraph g => .given g

/-- `map`, `quad/canonical.rs` 1415-1422. -/
def map (f : T → U) : GivenSubjectAnyPredicateAnyObject T → GivenSubjectAnyPredicateAnyObject U
  | .anyGraph => .anyGraph
  | .sameAsPredicate => .sameAsPredicate
  | .sameAsObject => .sameAsObject
  | .givenGraph g => .givenGraph (g.map f)

/-- `map2`, `quad/canonical.rs` 1424-1459. -/
def map2 (f : T → U × V) : GivenSubjectAnyPredicateAnyObject T → GivenSubjectAnyPredicateAnyObject U × GivenSubjectAnyPredicateAnyObject V
  | .anyGraph => (.anyGraph, .anyGraph)
  | .sameAsPredicate => (.sameAsPredicate, .sameAsPredicate)
  | .sameAsObject => (.sameAsObject, .sameAsObject)
  | .givenGraph g => (.givenGraph (optionMap2 f g).1, .givenGraph (optionMap2 f g).2)

end GivenSubjectAnyPredicateAnyObject

/-- `AnySubjectGivenPredicateAnyObject`, `quad/canonical.rs` 1461-1467. -/
inductive AnySubjectGivenPredicateAnyObject (T : Type) where
  | anyGraph
  | sameAsSubject
  | sameAsObject
  | givenGraph (g : Option T)
  deriving DecidableEq, Repr

namespace AnySubjectGivenPredicateAnyObject

variable {T U V X : Type}

/-- `from_option`, `quad/canonical.rs` 1470-1475. -/
def fromOption : Option (Option T) → AnySubjectGivenPredicateAnyObject T
  | some g => .givenGraph g
  | none => .anyGraph

/-- `from_pattern`, `quad/canonical.rs` 1477-1491. -/
def fromPattern [DecidableEq X] (s o : X) : Option (ResourceOrVar T X) → AnySubjectGivenPredicateAnyObject T
  | none => .givenGraph none
  | some (.resource g) => .givenGraph (some g)
  | some (.var g) =>
    if g = s then .sameAsSubject else if g = o then .sameAsObject else .anyGraph

/-- `graph`, `into_graph`, `quad/canonical.rs` 1493 and following. -/
def graph : AnySubjectGivenPredicateAnyObject T → PatternGraph T
  | .anyGraph => .any
  | .sameAsSubject => .sameAsSubject
  | .sameAsObject => .sameAsObject
  | .givenGraph g => .given g

/-- `map`, `quad/canonical.rs` 1520-1527. -/
def map (f : T → U) : AnySubjectGivenPredicateAnyObject T → AnySubjectGivenPredicateAnyObject U
  | .anyGraph => .anyGraph
  | .sameAsSubject => .sameAsSubject
  | .sameAsObject => .sameAsObject
  | .givenGraph g => .givenGraph (g.map f)

/-- `map2`, `quad/canonical.rs` 1529-1564. -/
def map2 (f : T → U × V) : AnySubjectGivenPredicateAnyObject T → AnySubjectGivenPredicateAnyObject U × AnySubjectGivenPredicateAnyObject V
  | .anyGraph => (.anyGraph, .anyGraph)
  | .sameAsSubject => (.sameAsSubject, .sameAsSubject)
  | .sameAsObject => (.sameAsObject, .sameAsObject)
  | .givenGraph g => (.givenGraph (optionMap2 f g).1, .givenGraph (optionMap2 f g).2)

end AnySubjectGivenPredicateAnyObject

/-- `AnySubjectAnyPredicateGivenObject`, `quad/canonical.rs` 1566-1572. -/
inductive AnySubjectAnyPredicateGivenObject (T : Type) where
  | anyGraph
  | sameAsSubject
  | sameAsPredicate
  | givenGraph (g : Option T)
  deriving DecidableEq, Repr

namespace AnySubjectAnyPredicateGivenObject

variable {T U V X : Type}

/-- `from_option`, `quad/canonical.rs` 1575-1580. -/
def fromOption : Option (Option T) → AnySubjectAnyPredicateGivenObject T
  | some g => .givenGraph g
  | none => .anyGraph

/-- `from_pattern`, `quad/canonical.rs` 1582-1596. -/
def fromPattern [DecidableEq X] (s p : X) : Option (ResourceOrVar T X) → AnySubjectAnyPredicateGivenObject T
  | none => .givenGraph none
  | some (.resource g) => .givenGraph (some g)
  | some (.var g) =>
    if g = s then .sameAsSubject else if g = p then .sameAsPredicate else .anyGraph

/-- `graph`, `into_graph`, `quad/canonical.rs` 1598 and following. -/
def graph : AnySubjectAnyPredicateGivenObject T → PatternGraph T
  | .anyGraph => .any
  | .sameAsSubject => .sameAsSubject
  | .sameAsPredicate => .sameAsPredicate
  | .givenGraph g => .given g

/-- `map`, `quad/canonical.rs` 1625-1632. -/
def map (f : T → U) : AnySubjectAnyPredicateGivenObject T → AnySubjectAnyPredicateGivenObject U
  | .anyGraph => .anyGraph
  | .sameAsSubject => .sameAsSubject
  | .sameAsPredicate => .sameAsPredicate
  | .givenGraph g => .givenGraph (g.map f)

/-- `map2`, `quad/canonical.rs` 1634-1669. -/
def map2 (f : T → U × V) : AnySubjectAnyPredicateGivenObject T → AnySubjectAnyPredicateGivenObject U × AnySubjectAnyPredicateGivenObject V
  | .anyGraph => (.anyGraph, .anyGraph)
  | .sameAsSubject => (.sameAsSubject, .sameAsSubject)
  | .sameAsPredicate => (.sameAsPredicate, .sameAsPredicate)
  | .givenGraph g => (.givenGraph (optionMap2 f g).1, .givenGraph (optionMap2 f g).2)

end AnySubjectAnyPredicateGivenObject

/-- `AnySubjectGivenPredicateGivenObject`, `quad/canonical.rs` 1671-1676. -/
inductive AnySubjectGivenPredicateGivenObject (T : Type) where
  | anyGraph
  | sameAsSubject
  | givenGraph (g : Option T)
  deriving DecidableEq, Repr

namespace AnySubjectGivenPredicateGivenObject

variable {T U V X : Type}

/-- `from_option`, `quad/canonical.rs` 1679-1684. -/
def fromOption : Option (Option T) → AnySubjectGivenPredicateGivenObject T
  | some g => .givenGraph g
  | none => .anyGraph

/-- `from_pattern`, `quad/canonical.rs` 1686-1698. -/
def fromPattern [DecidableEq X] (s : X) : Option (ResourceOrVar T X) → AnySubjectGivenPredicateGivenObject T
  | none => .givenGraph none
  | some (.resource g) => .givenGraph (some g)
  | some (.var g) =>
    if g = s then .sameAsSubject else .anyGraph

/-- `graph`, `into_graph`, `quad/canonical.rs` 1700 and following. -/
def graph : AnySubjectGivenPredicateGivenObject T → PatternGraph T
  | .anyGraph => .any
  | .sameAsSubject => .sameAsSubject
  | .givenGraph g => .given g

/-- `map`, `quad/canonical.rs` 1724-1730. -/
def map (f : T → U) : AnySubjectGivenPredicateGivenObject T → AnySubjectGivenPredicateGivenObject U
  | .anyGraph => .anyGraph
  | .sameAsSubject => .sameAsSubject
  | .givenGraph g => .givenGraph (g.map f)

/-- `map2`, `quad/canonical.rs` 1732-1763. -/
def map2 (f : T → U × V) : AnySubjectGivenPredicateGivenObject T → AnySubjectGivenPredicateGivenObject U × AnySubjectGivenPredicateGivenObject V
  | .anyGraph => (.anyGraph, .anyGraph)
  | .sameAsSubject => (.sameAsSubject, .sameAsSubject)
  | .givenGraph g => (.givenGraph (optionMap2 f g).1, .givenGraph (optionMap2 f g).2)

end AnySubjectGivenPredicateGivenObject

/-- `GivenSubjectAnyPredicateGivenObject`, `quad/canonical.rs` 1765-1770. -/
inductive GivenSubjectAnyPredicateGivenObject (T : Type) where
  | anyGraph
  | sameAsPredicate
  | givenGraph (g : Option T)
  deriving DecidableEq, Repr

namespace GivenSubjectAnyPredicateGivenObject

variable {T U V X : Type}

/-- `from_option`, `quad/canonical.rs` 1773-1778. -/
def fromOption : Option (Option T) → GivenSubjectAnyPredicateGivenObject T
  | some g => .givenGraph g
  | none => .anyGraph

/-- `from_pattern`, `quad/canonical.rs` 1780-1792. -/
def fromPattern [DecidableEq X] (p : X) : Option (ResourceOrVar T X) → GivenSubjectAnyPredicateGivenObject T
  | none => .givenGraph none
  | some (.resource g) => .givenGraph (some g)
  | some (.var g) =>
    if g = p then .sameAsPredicate else .anyGraph

/-- `graph`, `into_graph`, `quad/canonical.rs` 1794 and following. -/
def graph : GivenSubjectAnyPredicateGivenObject T → PatternGraph T
  | .anyGraph => .any
  | .sameAsPredicate => .sameAsPredicate
  | .givenGraph g => .given g

/-- `map`, `quad/canonical.rs` 1818-1824. -/
def map (f : T → U) : GivenSubjectAnyPredicateGivenObject T → GivenSubjectAnyPredicateGivenObject U
  | .anyGraph => .anyGraph
  | .sameAsPredicate => .sameAsPredicate
  | .givenGraph g => .givenGraph (g.map f)

/-- `map2`, `quad/canonical.rs` 1826-1857. -/
def map2 (f : T → U × V) : GivenSubjectAnyPredicateGivenObject T → GivenSubjectAnyPredicateGivenObject U × GivenSubjectAnyPredicateGivenObject V
  | .anyGraph => (.anyGraph, .anyGraph)
  | .sameAsPredicate => (.sameAsPredicate, .sameAsPredicate)
  | .givenGraph g => (.givenGraph (optionMap2 f g).1, .givenGraph (optionMap2 f g).2)

end GivenSubjectAnyPredicateGivenObject

/-- `GivenSubjectGivenPredicateAnyObject`, `quad/canonical.rs` 1859-1864. -/
inductive GivenSubjectGivenPredicateAnyObject (T : Type) where
  | anyGraph
  | sameAsObject
  | givenGraph (g : Option T)
  deriving DecidableEq, Repr

namespace GivenSubjectGivenPredicateAnyObject

variable {T U V X : Type}

/-- `from_option`, `quad/canonical.rs` 1867-1872. -/
def fromOption : Option (Option T) → GivenSubjectGivenPredicateAnyObject T
  | some g => .givenGraph g
  | none => .anyGraph

/-- `from_pattern`, `quad/canonical.rs` 1874-1886. -/
def fromPattern [DecidableEq X] (o : X) : Option (ResourceOrVar T X) → GivenSubjectGivenPredicateAnyObject T
  | none => .givenGraph none
  | some (.resource g) => .givenGraph (some g)
  | some (.var g) =>
    if g = o then .sameAsObject else .anyGraph

/-- `graph`, `into_graph`, `quad/canonical.rs` 1888 and following. -/
def graph : GivenSubjectGivenPredicateAnyObject T → PatternGraph T
  | .anyGraph => .any
  | .sameAsObject => .sameAsObject
  | .givenGraph g => .given g

/-- `map`, `quad/canonical.rs` 1912-1918. -/
def map (f : T → U) : GivenSubjectGivenPredicateAnyObject T → GivenSubjectGivenPredicateAnyObject U
  | .anyGraph => .anyGraph
  | .sameAsObject => .sameAsObject
  | .givenGraph g => .givenGraph (g.map f)

/-- `map2`, `quad/canonical.rs` 1920-1951. -/
def map2 (f : T → U × V) : GivenSubjectGivenPredicateAnyObject T → GivenSubjectGivenPredicateAnyObject U × GivenSubjectGivenPredicateAnyObject V
  | .anyGraph => (.anyGraph, .anyGraph)
  | .sameAsObject => (.sameAsObject, .sameAsObject)
  | .givenGraph g => (.givenGraph (optionMap2 f g).1, .givenGraph (optionMap2 f g).2)

end GivenSubjectGivenPredicateAnyObject

/-- `GivenSubjectGivenPredicateGivenObject`, `quad/canonical.rs` 1953-1957. -/
inductive GivenSubjectGivenPredicateGivenObject (T : Type) where
  | anyGraph
  | givenGraph (g : Option T)
  deriving DecidableEq, Repr

namespace GivenSubjectGivenPredicateGivenObject

variable {T U V X : Type}

/-- `from_option`, `quad/canonical.rs` 1960-1965. -/
def fromOption : Option (Option T) → GivenSubjectGivenPredicateGivenObject T
  | some g => .givenGraph g
  | none => .anyGraph

/-- `from_pattern`, `quad/canonical.rs` 1967-1973. -/
def fromPattern : Option (ResourceOrVar T X) → GivenSubjectGivenPredicateGivenObject T
  | none => .givenGraph none
  | some (.resource g) => .givenGraph (some g)
  | some (.var _) => .anyGraph

/-- `graph`, `into_graph`, `quad/canonical.rs` 1975 and following. -/
def graph : GivenSubjectGivenPredicateGivenObject T → PatternGraph T
  | .anyGraph => .any
  | .givenGraph g => .given g

/-- `map`, `quad/canonical.rs` 1996-2001. -/
def map (f : T → U) : GivenSubjectGivenPredicateGivenObject T → GivenSubjectGivenPredicateGivenObject U
  | .anyGraph => .anyGraph
  | .givenGraph g => .givenGraph (g.map f)

/-- `map2`, `quad/canonical.rs` 2003-2028. -/
def map2 (f : T → U × V) : GivenSubjectGivenPredicateGivenObject T → GivenSubjectGivenPredicateGivenObject U × GivenSubjectGivenPredicateGivenObject V
  | .anyGraph => (.anyGraph, .anyGraph)
  | .givenGraph g => (.givenGraph (optionMap2 f g).1, .givenGraph (optionMap2 f g).2)

end GivenSubjectGivenPredicateGivenObject

/-! Object positions. -/

/-- `AnySubjectAnyPredicate`, `quad/canonical.rs` 529-535. -/
inductive AnySubjectAnyPredicate (T : Type) where
  | anyObject (g : AnySubjectAnyPredicateAnyObject T)
  | sameAsSubject (g : AnySubjectAnyPredicateGivenObject T)
  | sameAsPredicate (g : AnySubjectAnyPredicateGivenObject T)
  | givenObject (o : T) (g : AnySubjectAnyPredicateGivenObject T)
  deriving DecidableEq, Repr

namespace AnySubjectAnyPredicate

variable {T U V X : Type}

/-- `from_option`, `quad/canonical.rs` 538-543. -/
def fromOption (o : Option T) (g : Option (Option T)) : AnySubjectAnyPredicate T :=
  match o with
  | some o => .givenObject o (.fromOption g)
  | none => .anyObject (.fromOption g)

/-- `from_pattern`, `quad/canonical.rs` 545-565. -/
def fromPattern [DecidableEq X] (s p : X) (o : ResourceOrVar T X) (g : Option (ResourceOrVar T X)) :
    AnySubjectAnyPredicate T :=
  match o with
  | .resource o => .givenObject o (.fromPattern s p g)
  | .var o =>
    if o = s then .sameAsSubject (.fromPattern s p g)
    else if o = p then .sameAsPredicate (.fromPattern s p g)
    else .anyObject (.fromPattern s p o g)

/-- `object`, `into_object`, `quad/canonical.rs` 567-583. -/
def object : AnySubjectAnyPredicate T → PatternObject T
  | .anyObject _ => .any
  | .sameAsSubject _ => .sameAsSubject
  | .sameAsPredicate _ => .sameAsPredicate
  | .givenObject o _ => .given o

/-- `graph`, `into_graph`, `quad/canonical.rs` 585 and following. -/
def graph : AnySubjectAnyPredicate T → PatternGraph T
  | .anyObject g => g.graph
  | .sameAsSubject g => g.graph
  | .sameAsPredicate g => g.graph
  | .givenObject _ g => g.graph

/-- `map`, `quad/canonical.rs` 612-619. -/
def map (f : T → U) : AnySubjectAnyPredicate T → AnySubjectAnyPredicate U
  | .anyObject g => .anyObject (g.map f)
  | .sameAsSubject g => .sameAsSubject (g.map f)
  | .sameAsPredicate g => .sameAsPredicate (g.map f)
  | .givenObject o g => .givenObject (f o) (g.map f)

/-- `map2`, `quad/canonical.rs` 621-656. -/
def map2 (f : T → U × V) : AnySubjectAnyPredicate T → AnySubjectAnyPredicate U × AnySubjectAnyPredicate V
  | .anyObject g => (.anyObject (g.map2 f).1, .anyObject (g.map2 f).2)
  | .sameAsSubject g => (.sameAsSubject (g.map2 f).1, .sameAsSubject (g.map2 f).2)
  | .sameAsPredicate g => (.sameAsPredicate (g.map2 f).1, .sameAsPredicate (g.map2 f).2)
  | .givenObject o g => (.givenObject (f o).1 (g.map2 f).1, .givenObject (f o).2 (g.map2 f).2)

/-- `into_triple`, `quad/canonical.rs` 658-682. -/
def intoTriple : AnySubjectAnyPredicate T → TPat.AnySubjectAnyPredicate T × PatternGraph T
  | .anyObject g => (.anyObject, g.graph)
  | .sameAsSubject g => (.sameAsSubject, g.graph)
  | .sameAsPredicate g => (.sameAsPredicate, g.graph)
  | .givenObject o g => (.givenObject o, g.graph)

/-- `into_parts`, `quad/canonical.rs` 684-692. -/
def intoParts : AnySubjectAnyPredicate T → PatternObject T × PatternGraph T
  | .anyObject g => (.any, g.graph)
  | .sameAsSubject g => (.sameAsSubject, g.graph)
  | .sameAsPredicate g => (.sameAsPredicate, g.graph)
  | .givenObject o g => (.given o, g.graph)

end AnySubjectAnyPredicate

/-- `AnySubjectGivenPredicate`, `quad/canonical.rs` 694-699. -/
inductive AnySubjectGivenPredicate (T : Type) where
  | anyObject (g : AnySubjectGivenPredicateAnyObject T)
  | sameAsSubject (g : AnySubjectGivenPredicateGivenObject T)
  | givenObject (o : T) (g : AnySubjectGivenPredicateGivenObject T)
  deriving DecidableEq, Repr

namespace AnySubjectGivenPredicate

variable {T U V X : Type}

/-- `from_option`, `quad/canonical.rs` 702-707. -/
def fromOption (o : Option T) (g : Option (Option T)) : AnySubjectGivenPredicate T :=
  match o with
  | some o => .givenObject o (.fromOption g)
  | none => .anyObject (.fromOption g)

/-- `from_pattern`, `quad/canonical.rs` 709-726. -/
def fromPattern [DecidableEq X] (s : X) (o : ResourceOrVar T X) (g : Option (ResourceOrVar T X)) :
    AnySubjectGivenPredicate T :=
  match o with
  | .resource o => .givenObject o (.fromPattern s g)
  | .var o =>
    if o = s then .sameAsSubject (.fromPattern s g)
    else .anyObject (.fromPattern s o g)

/-- `object`, `into_object`, `quad/canonical.rs` 728-742. -/
def object : AnySubjectGivenPredicate T → PatternObject T
  | .anyObject _ => .any
  | .sameAsSubject _ => .sameAsSubject
  | .givenObject o _ => .given o

/-- `graph`, `into_graph`, `quad/canonical.rs` 744 and following. -/
def graph : AnySubjectGivenPredicate T → PatternGraph T
  | .anyObject g => g.graph
  | .sameAsSubject g => g.graph
  | .givenObject _ g => g.graph

/-- `map`, `quad/canonical.rs` 768-774. -/
def map (f : T → U) : AnySubjectGivenPredicate T → AnySubjectGivenPredicate U
  | .anyObject g => .anyObject (g.map f)
  | .sameAsSubject g => .sameAsSubject (g.map f)
  | .givenObject o g => .givenObject (f o) (g.map f)

/-- `map2`, `quad/canonical.rs` 776-804. -/
def map2 (f : T → U × V) : AnySubjectGivenPredicate T → AnySubjectGivenPredicate U × AnySubjectGivenPredicate V
  | .anyObject g => (.anyObject (g.map2 f).1, .anyObject (g.map2 f).2)
  | .sameAsSubject g => (.sameAsSubject (g.map2 f).1, .sameAsSubject (g.map2 f).2)
  | .givenObject o g => (.givenObject (f o).1 (g.map2 f).1, .givenObject (f o).2 (g.map2 f).2)

/-- `into_triple`, `quad/canonical.rs` 806-826. -/
def intoTriple : AnySubjectGivenPredicate T → TPat.AnySubjectGivenPredicate T × PatternGraph T
  | .anyObject g => (.anyObject, g.graph)
  | .sameAsSubject g => (.sameAsSubject, g.graph)
  | .givenObject o g => (.givenObject o, g.graph)

/-- `into_parts`, `quad/canonical.rs` 828-835. -/
def intoParts : AnySubjectGivenPredicate T → PatternObject T × PatternGraph T
  | .anyObject g => (.any, g.graph)
  | .sameAsSubject g => (.sameAsSubject, g.graph)
  | .givenObject o g => (.given o, g.graph)

end AnySubjectGivenPredicate

/-- `GivenSubjectAnyPredicate`, `quad/canonical.rs` 969-974. -/
inductive GivenSubjectAnyPredicate (T : Type) where
  | anyObject (g : GivenSubjectAnyPredicateAnyObject T)
  | sameAsPredicate (g : GivenSubjectAnyPredicateGivenObject T)
  | givenObject (o : T) (g : GivenSubjectAnyPredicateGivenObject T)
  deriving DecidableEq, Repr

namespace GivenSubjectAnyPredicate

variable {T U V X : Type}

/-- `from_option`, `quad/canonical.rs` 977-982. -/
def fromOption (o : Option T) (g : Option (Option T)) : GivenSubjectAnyPredicate T :=
  match o with
  | some o => .givenObject o (.fromOption g)
  | none => .anyObject (.fromOption g)

/-- `from_pattern`, `quad/canonical.rs` 984-1001. -/
def fromPattern [DecidableEq X] (p : X) (o : ResourceOrVar T X) (g : Option (ResourceOrVar T X)) :
    GivenSubjectAnyPredicate T :=
  match o with
  | .resource o => .givenObject o (.fromPattern p g)
  | .var o =>
    if p = o then .sameAsPredicate (.fromPattern p g)
    else .anyObject (.fromPattern p o g)

/-- `object`, `into_object`, `quad/canonical.rs` 1003-1017. -/
def object : GivenSubjectAnyPredicate T → PatternObject T
  | .anyObject _ => .any
  | .sameAsPredicate _ => .sameAsPredicate
  | .givenObject o _ => .given o

/-- `graph`, `into_graph`, `quad/canonical.rs` 1019 and following. -/
def graph : GivenSubjectAnyPredicate T → PatternGraph T
  | .anyObject g => g.graph
  | .sameAsPredicate g => g.graph
  | .givenObject _ g => g.graph

/-- `map`, `quad/canonical.rs` 1043-1049. -/
def map (f : T → U) : GivenSubjectAnyPredicate T → GivenSubjectAnyPredicate U
  | .anyObject g => .anyObject (g.map f)
  | .sameAsPredicate g => .sameAsPredicate (g.map f)
  | .givenObject o g => .givenObject (f o) (g.map f)

/-- `map2`, `quad/canonical.rs` 1051-1079. -/
def map2 (f : T → U × V) : GivenSubjectAnyPredicate T → GivenSubjectAnyPredicate U × GivenSubjectAnyPredicate V
  | .anyObject g => (.anyObject (g.map2 f).1, .anyObject (g.map2 f).2)
  | .sameAsPredicate g => (.sameAsPredicate (g.map2 f).1, .sameAsPredicate (g.map2 f).2)
  | .givenObject o g => (.givenObject (f o).1 (g.map2 f).1, .givenObject (f o).2 (g.map2 f).2)

/-- `into_triple`, `quad/canonical.rs` 1081-1101. -/
def intoTriple : GivenSubjectAnyPredicate T → TPat.GivenSubjectAnyPredicate T × PatternGraph T
  | .anyObject g => (.anyObject, g.graph)
  | .sameAsPredicate g => (.sameAsPredicate, g.graph)
  | .givenObject o g => (.givenObject o, g.graph)

/-- `into_parts`, `quad/canonical.rs` 1103-1110. -/
def intoParts : GivenSubjectAnyPredicate T → PatternObject T × PatternGraph T
  | .anyObject g => (.any, g.graph)
  | .sameAsPredicate g => (.sameAsPredicate, g.graph)
  | .givenObject o g => (.given o, g.graph)

end GivenSubjectAnyPredicate

/-- `GivenSubjectGivenPredicate`, `quad/canonical.rs` 1112-1116. -/
inductive GivenSubjectGivenPredicate (T : Type) where
  | anyObject (g : GivenSubjectGivenPredicateAnyObject T)
  | givenObject (o : T) (g : GivenSubjectGivenPredicateGivenObject T)
  deriving DecidableEq, Repr

namespace GivenSubjectGivenPredicate

variable {T U V X : Type}

/-- `from_option`, `quad/canonical.rs` 1119-1124. -/
def fromOption (o : Option T) (g : Option (Option T)) : GivenSubjectGivenPredicate T :=
  match o with
  | some o => .givenObject o (.fromOption g)
  | none => .anyObject (.fromOption g)

/-- `from_pattern`, `quad/canonical.rs` 1126-1138. -/
def fromPattern [DecidableEq X] (o : ResourceOrVar T X) (g : Option (ResourceOrVar T X)) :
    GivenSubjectGivenPredicate T :=
  match o with
  | .resource o => .givenObject o (.fromPattern g)
  | .var o =>
    .anyObject (.fromPattern o g)

/-- `object`, `into_object`, `quad/canonical.rs` 1140-1152. -/
def object : GivenSubjectGivenPredicate T → PatternObject T
  | .anyObject _ => .any
  | .givenObject o _ => .given o

/-- `graph`, `into_graph`, `quad/canonical.rs` 1154 and following. -/
def graph : GivenSubjectGivenPredicate T → PatternGraph T
  | .anyObject g => g.graph
  | .givenObject _ g => g.graph

/-- `map`, `quad/canonical.rs` 1175-1180. -/
def map (f : T → U) : GivenSubjectGivenPredicate T → GivenSubjectGivenPredicate U
  | .anyObject g => .anyObject (g.map f)
  | .givenObject o g => .givenObject (f o) (g.map f)

/-- `map2`, `quad/canonical.rs` 1182-1203. -/
def map2 (f : T → U × V) : GivenSubjectGivenPredicate T → GivenSubjectGivenPredicate U × GivenSubjectGivenPredicate V
  | .anyObject g => (.anyObject (g.map2 f).1, .anyObject (g.map2 f).2)
  | .givenObject o g => (.givenObject (f o).1 (g.map2 f).1, .givenObject (f o).2 (g.map2 f).2)

/-- `into_triple`, `quad/canonical.rs` 1205-1221. -/
def intoTriple : GivenSubjectGivenPredicate T → TPat.GivenSubjectGivenPredicate T × PatternGraph T
  | .anyObject g => (.anyObject, g.graph)
  | .givenObject o g => (.givenObject o, g.graph)

/-- `into_parts`, `quad/canonical.rs` 1223-1229. -/
def intoParts : GivenSubjectGivenPredicate T → PatternObject T × PatternGraph T
  | .anyObject g => (.any, g.graph)
  | .givenObject o g => (.given o, g.graph)

end GivenSubjectGivenPredicate

/-! Predicate positions. -/

/-- `AnySubject`, `quad/canonical.rs` 368-373. -/
inductive AnySubject (T : Type) where
  | anyPredicate (o : AnySubjectAnyPredicate T)
  | sameAsSubject (o : AnySubjectGivenPredicate T)
  | givenPredicate (p : T) (o : AnySubjectGivenPredicate T)
  deriving DecidableEq, Repr

namespace AnySubject

variable {T U V X : Type}

/-- `from_option_quad`, `quad/canonical.rs` 376-381. -/
def fromOptionQuad (p o : Option T) (g : Option (Option T)) : AnySubject T :=
  match p with
  | some p => .givenPredicate p (.fromOption o g)
  | none => .anyPredicate (.fromOption o g)

/-- `from_pattern`, `quad/canonical.rs` 383-401. -/
def fromPattern [DecidableEq X] (s : X) (p o : ResourceOrVar T X)
    (g : Option (ResourceOrVar T X)) : AnySubject T :=
  match p with
  | .resource p => .givenPredicate p (.fromPattern s o g)
  | .var p =>
    if p = s then .sameAsSubject (.fromPattern s o g)
    else .anyPredicate (.fromPattern s p o g)

/-- `predicate`, `into_predicate`, `quad/canonical.rs` 403-417. -/
def predicate : AnySubject T → PatternPredicate T
  | .anyPredicate _ => .any
  | .sameAsSubject _ => .sameAsSubject
  | .givenPredicate p _ => .given p

/-- `object`, `into_object`, `quad/canonical.rs` 419-433. -/
def object : AnySubject T → PatternObject T
  | .anyPredicate o => o.object
  | .sameAsSubject o => o.object
  | .givenPredicate _ o => o.object

/-- `graph`, `into_graph`, `quad/canonical.rs` 435 and following. -/
def graph : AnySubject T → PatternGraph T
  | .anyPredicate o => o.graph
  | .sameAsSubject o => o.graph
  | .givenPredicate _ o => o.graph

/-- `map`, `quad/canonical.rs` 459-465. -/
def map (f : T → U) : AnySubject T → AnySubject U
  | .anyPredicate o => .anyPredicate (o.map f)
  | .sameAsSubject o => .sameAsSubject (o.map f)
  | .givenPredicate p o => .givenPredicate (f p) (o.map f)

/-- `map2`, `quad/canonical.rs` 467-492. -/
def map2 (f : T → U × V) : AnySubject T → AnySubject U × AnySubject V
  | .anyPredicate o => (.anyPredicate (o.map2 f).1, .anyPredicate (o.map2 f).2)
  | .sameAsSubject o => (.sameAsSubject (o.map2 f).1, .sameAsSubject (o.map2 f).2)
  | .givenPredicate p o =>
    (.givenPredicate (f p).1 (o.map2 f).1, .givenPredicate (f p).2 (o.map2 f).2)

/-- `into_triple`, `quad/canonical.rs` 494-509. -/
def intoTriple : AnySubject T → TPat.AnySubject T × PatternGraph T
  | .anyPredicate o => (.anyPredicate o.intoTriple.1, o.intoTriple.2)
  | .sameAsSubject o => (.sameAsSubject o.intoTriple.1, o.intoTriple.2)
  | .givenPredicate p o => (.givenPredicate p o.intoTriple.1, o.intoTriple.2)

/-- `into_parts`, `quad/canonical.rs` 511-527. -/
def intoParts : AnySubject T → PatternPredicate T × PatternObject T × PatternGraph T
  | .anyPredicate o => (.any, o.intoParts.1, o.intoParts.2)
  | .sameAsSubject o => (.sameAsSubject, o.intoParts.1, o.intoParts.2)
  | .givenPredicate p o => (.given p, o.intoParts.1, o.intoParts.2)

end AnySubject

/-- `GivenSubject`, `quad/canonical.rs` 837-841. -/
inductive GivenSubject (T : Type) where
  | anyPredicate (o : GivenSubjectAnyPredicate T)
  | givenPredicate (p : T) (o : GivenSubjectGivenPredicate T)
  deriving DecidableEq, Repr

namespace GivenSubject

variable {T U V X : Type}

/-- `from_option_quad`, `quad/canonical.rs` 844-849. -/
def fromOptionQuad (p o : Option T) (g : Option (Option T)) : GivenSubject T :=
  match p with
  | some p => .givenPredicate p (.fromOption o g)
  | none => .anyPredicate (.fromOption o g)

/-- `from_pattern`, `quad/canonical.rs` 851-864. -/
def fromPattern [DecidableEq X] (p o : ResourceOrVar T X) (g : Option (ResourceOrVar T X)) :
    GivenSubject T :=
  match p with
  | .resource p => .givenPredicate p (.fromPattern o g)
  | .var p => .anyPredicate (.fromPattern p o g)

/-- `predicate`, `into_predicate`, `quad/canonical.rs` 866-878. -/
def predicate : GivenSubject T → PatternPredicate T
  | .anyPredicate _ => .any
  | .givenPredicate p _ => .given p

/-- `object`, `into_object`, `quad/canonical.rs` 880-892. -/
def object : GivenSubject T → PatternObject T
  | .anyPredicate o => o.object
  | .givenPredicate _ o => o.object

/-- `graph`, `into_graph`, `quad/canonical.rs` 894 and following. -/
def graph : GivenSubject T → PatternGraph T
  | .anyPredicate o => o.graph
  | .givenPredicate _ o => o.graph

/-- `map`, `quad/canonical.rs` 915-920. -/
def map (f : T → U) : GivenSubject T → GivenSubject U
  | .anyPredicate o => .anyPredicate (o.map f)
  | .givenPredicate p o => .givenPredicate (f p) (o.map f)

/-- `map2`, `quad/canonical.rs` 922-940. -/
def map2 (f : T → U × V) : GivenSubject T → GivenSubject U × GivenSubject V
  | .anyPredicate o => (.anyPredicate (o.map2 f).1, .anyPredicate (o.map2 f).2)
  | .givenPredicate p o =>
    (.givenPredicate (f p).1 (o.map2 f).1, .givenPredicate (f p).2 (o.map2 f).2)

/-- `into_triple`, `quad/canonical.rs` 942-953. -/
def intoTriple : GivenSubject T → TPat.GivenSubject T × PatternGraph T
  | .anyPredicate o => (.anyPredicate o.intoTriple.1, o.intoTriple.2)
  | .givenPredicate p o => (.givenPredicate p o.intoTriple.1, o.intoTriple.2)

/-- `into_parts`, `quad/canonical.rs` 955-967. -/
def intoParts : GivenSubject T → PatternPredicate T × PatternObject T × PatternGraph T
  | .anyPredicate o => (.any, o.intoParts.1, o.intoParts.2)
  | .givenPredicate p o => (.given p, o.intoParts.1, o.intoParts.2)

end GivenSubject

end QPat

open QPat

/-- `CanonicalQuadPattern`, `quad/canonical.rs` 10-14. -/
inductive CanonicalQuadPattern (T : Type) where
  | anySubject (p : AnySubject T)
  | givenSubject (s : T) (p : GivenSubject T)
  deriving DecidableEq, Repr

namespace CanonicalQuadPattern

variable {T U V X : Type}

/-- `from_triple`, `quad/canonical.rs` 53-64. -/
def fromTriple (t : Triple T) : CanonicalQuadPattern T :=
  .givenSubject t.s (.givenPredicate t.p (.givenObject t.o .anyGraph))

/-- `from_quad`, `quad/canonical.rs` 66-77. -/
def fromQuad (q : Quad T) : CanonicalQuadPattern T :=
  .givenSubject q.s (.givenPredicate q.p (.givenObject q.o (.givenGraph q.g)))

/-- `from_option_triple`, `quad/canonical.rs` 79-86. -/
def fromOptionTriple (t : Triple (Option T)) : CanonicalQuadPattern T :=
  match t.s with
  | some s => .givenSubject s (.fromOptionQuad t.p t.o none)
  | none => .anySubject (.fromOptionQuad t.p t.o none)

/-- `from_option_quad`, `quad/canonical.rs` 88-95. -/
def fromOptionQuad (q : Quad (Option T)) : CanonicalQuadPattern T :=
  match q.s with
  | some s => .givenSubject s (.fromOptionQuad q.p q.o q.g)
  | none => .anySubject (.fromOptionQuad q.p q.o q.g)

/-- `from_triple_pattern`, `quad/canonical.rs` 97-106. -/
def fromTriplePattern [DecidableEq X] (t : TriplePattern T X) : CanonicalQuadPattern T :=
  match t.s with
  | .resource s => .givenSubject s (.fromPattern t.p t.o none)
  | .var s => .anySubject (.fromPattern s t.p t.o none)

/-- `from_pattern`, `quad/canonical.rs` 108-118. -/
def fromPattern [DecidableEq X] (q : QuadPattern T X) : CanonicalQuadPattern T :=
  match q.s with
  | .resource s => .givenSubject s (.fromPattern q.p q.o q.g)
  | .var s => .anySubject (.fromPattern s q.p q.o q.g)

/-- `subject`, `into_subject`, `quad/canonical.rs` 120-132. -/
def subject : CanonicalQuadPattern T → PatternSubject T
  | .anySubject _ => .any
  | .givenSubject s _ => .given s

/-- `predicate`, `into_predicate`, `quad/canonical.rs` 134-146. -/
def predicate : CanonicalQuadPattern T → PatternPredicate T
  | .anySubject p => p.predicate
  | .givenSubject _ p => p.predicate

/-- `object`, `into_object`, `quad/canonical.rs` 148-160. -/
def object : CanonicalQuadPattern T → PatternObject T
  | .anySubject p => p.object
  | .givenSubject _ p => p.object

/-- `graph`, `into_graph`, `quad/canonical.rs` 162-174. -/
def graph : CanonicalQuadPattern T → PatternGraph T
  | .anySubject p => p.graph
  | .givenSubject _ p => p.graph

/-- `into_parts`, `quad/canonical.rs` 176-194. -/
def intoParts : CanonicalQuadPattern T →
    PatternSubject T × PatternPredicate T × PatternObject T × PatternGraph T
  | .anySubject p => (.any, p.intoParts)
  | .givenSubject s p => (.given s, p.intoParts)

/-- `into_triple`, `quad/canonical.rs` 196-207. -/
def intoTriple : CanonicalQuadPattern T → CanonicalTriplePattern T × PatternGraph T
  | .anySubject p => (.anySubject p.intoTriple.1, p.intoTriple.2)
  | .givenSubject s p => (.givenSubject s p.intoTriple.1, p.intoTriple.2)

/-- `map`, `quad/canonical.rs` 216-221. -/
def map (f : T → U) : CanonicalQuadPattern T → CanonicalQuadPattern U
  | .anySubject p => .anySubject (p.map f)
  | .givenSubject s p => .givenSubject (f s) (p.map f)

/-- `as_ref`, `quad/canonical.rs` 209-214: the text of `map` with the borrowing function. -/
def asRef (x : CanonicalQuadPattern T) : CanonicalQuadPattern T := x.map id

/-- `map2`, `quad/canonical.rs` 223-244. -/
def map2 (f : T → U × V) : CanonicalQuadPattern T → CanonicalQuadPattern U × CanonicalQuadPattern V
  | .anySubject p => (.anySubject (p.map2 f).1, .anySubject (p.map2 f).2)
  | .givenSubject s p => (.givenSubject (f s).1 (p.map2 f).1, .givenSubject (f s).2 (p.map2 f).2)

end CanonicalQuadPattern

/-! `with_any_graph`, `triple/canonical.rs` 62-67, 516-526, 660-676, 729-742,
790-799, 902-915, 966-976. -/

namespace TPat

variable {T : Type}

/-- `triple/canonical.rs` 660-676. -/
def AnySubjectAnyPredicate.withAnyGraph :
    AnySubjectAnyPredicate T → QPat.AnySubjectAnyPredicate T
  | .anyObject => .anyObject .anyGraph
  | .sameAsSubject => .sameAsSubject .anyGraph
  | .sameAsPredicate => .sameAsPredicate .anyGraph
  | .givenObject o => .givenObject o .anyGraph

/-- `triple/canonical.rs` 729-742. -/
def AnySubjectGivenPredicate.withAnyGraph :
    AnySubjectGivenPredicate T → QPat.AnySubjectGivenPredicate T
  | .anyObject => .anyObject .anyGraph
  | .sameAsSubject => .sameAsSubject .anyGraph
  | .givenObject o => .givenObject o .anyGraph

/-- `triple/canonical.rs` 902-915. -/
def GivenSubjectAnyPredicate.withAnyGraph :
    GivenSubjectAnyPredicate T → QPat.GivenSubjectAnyPredicate T
  | .anyObject => .anyObject .anyGraph
  | .sameAsPredicate => .sameAsPredicate .anyGraph
  | .givenObject o => .givenObject o .anyGraph

/-- `triple/canonical.rs` 966-976. -/
def GivenSubjectGivenPredicate.withAnyGraph :
    GivenSubjectGivenPredicate T → QPat.GivenSubjectGivenPredicate T
  | .anyObject => .anyObject .anyGraph
  | .givenObject o => .givenObject o .anyGraph

/-- `triple/canonical.rs` 516-526. -/
def AnySubject.withAnyGraph : AnySubject T → QPat.AnySubject T
  | .anyPredicate o => .anyPredicate o.withAnyGraph
  | .sameAsSubject o => .sameAsSubject o.withAnyGraph
  | .givenPredicate p o => .givenPredicate p o.withAnyGraph

/-- `triple/canonical.rs` 790-799. -/
def GivenSubject.withAnyGraph : GivenSubject T → QPat.GivenSubject T
  | .anyPredicate o => .anyPredicate o.withAnyGraph
  | .givenPredicate p o => .givenPredicate p o.withAnyGraph

end TPat

/-- `triple/canonical.rs` 62-67. -/
def CanonicalTriplePattern.withAnyGraph {T : Type} :
    CanonicalTriplePattern T → CanonicalQuadPattern T
  | .anySubject p => .anySubject p.withAnyGraph
  | .givenSubject s p => .givenSubject s p.withAnyGraph

end RdfTypes
