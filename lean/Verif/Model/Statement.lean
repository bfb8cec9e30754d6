import Verif.Base.BTree

/-!
# Quads and triples

Model of `/repo/src/quad.rs` and `/repo/src/triple.rs`. References and owned
values are not distinguished: `as_ref`, `cloned`, `copied` (`quad.rs` 25-80,
`triple.rs` 124-166) are the identity.
-/

namespace RdfTypes

/-- `Quad<S, P, O, G>`, `quad.rs` 16. -/
structure Quad (S : Type) (P : Type := S) (O : Type := S) (G : Type := S) where
  s : S
  p : P
  o : O
  g : Option G
  deriving DecidableEq, Repr

/-- `Triple<S, P, O>`, `triple.rs` 14. -/
structure Triple (S : Type) (P : Type := S) (O : Type := S) where
  s : S
  p : P
  o : O
  deriving DecidableEq, Repr

namespace Quad

variable {S P O G S' P' O' G' : Type}

/-- `Quad::into_parts`, `quad.rs` 184-186. -/
def intoParts (q : Quad S P O G) : S × P × O × Option G := (q.s, q.p, q.o, q.g)

/-- `Quad::into_triple`, `quad.rs` 189-191. -/
def intoTriple (q : Quad S P O G) : Triple S P O × Option G := (⟨q.s, q.p, q.o⟩, q.g)

/-- `Quad::map_subject`, `quad.rs` 194-196. -/
def mapSubject (q : Quad S P O G) (f : S → S') : Quad S' P O G := ⟨f q.s, q.p, q.o, q.g⟩

/-- `Quad::map_predicate`, `quad.rs` 199-201. -/
def mapPredicate (q : Quad S P O G) (f : P → P') : Quad S P' O G := ⟨q.s, f q.p, q.o, q.g⟩

/-- `Quad::map_object`, `quad.rs` 204-206. -/
def mapObject (q : Quad S P O G) (f : O → O') : Quad S P O' G := ⟨q.s, q.p, f q.o, q.g⟩

/-- `Quad::map_graph`, `quad.rs` 209-211. -/
def mapGraph (q : Quad S P O G) (f : Option G → Option G') : Quad S P O G' :=
  ⟨q.s, q.p, q.o, f q.g⟩

/-- `Quad::with_graph`, `quad.rs` 213-215. -/
def withGraph (q : Quad S P O G) (g : Option G) : Quad S P O G := ⟨q.s, q.p, q.o, g⟩

/-- `Quad::map_all`, `quad.rs` 219-227. -/
def mapAll (q : Quad S P O G) (s : S → S') (p : P → P') (o : O → O')
    (g : Option G → Option G') : Quad S' P' O' G' := ⟨s q.s, p q.p, o q.o, g q.g⟩

/-- `Quad::map`, `quad.rs` 232-234. -/
def map {T U : Type} (q : Quad T) (f : T → U) : Quad U := ⟨f q.s, f q.p, f q.o, q.g.map f⟩

/-- `PartialEq::eq`, `quad.rs` 274-283, over the component equalities. -/
def eqWith (es : S → S' → Bool) (ep : P → P' → Bool) (eo : O → O' → Bool) (eg : G → G' → Bool)
    (a : Quad S P O G) (b : Quad S' P' O' G') : Bool :=
  es a.s b.s && ep a.p b.p && eo a.o b.o &&
    match a.g, b.g with
    | some x, some y => eg x y
    | none, none => true
    | _, _ => false

/-- `PartialOrd::partial_cmp`, `quad.rs` 297-313, over the component
comparisons. -/
def partialCmpWith (cs : S → S' → Option Ordering) (cp : P → P' → Option Ordering)
    (co : O → O' → Option Ordering) (cg : G → G' → Option Ordering)
    (a : Quad S P O G) (b : Quad S' P' O' G') : Option Ordering :=
  match cs a.s b.s with
  | some .eq =>
    match cp a.p b.p with
    | some .eq =>
      match co a.o b.o with
      | some .eq =>
        match a.g, b.g with
        | some x, some y => cg x y
        | some _, none => some .gt
        | none, some _ => some .lt
        | none, none => some .eq
      | c => c
    | c => c
  | c => c

/-- Derived `Ord::cmp`, `quad.rs` 14: lexicographic, with the derived order of
`Option` (`None` first). -/
def cmp [Ord S] [Ord P] [Ord O] [Ord G] (a b : Quad S P O G) : Ordering :=
  (compare a.s b.s).then <| (compare a.p b.p).then <| (compare a.o b.o).then <| compare a.g b.g

/-- Derived `Ord`, `quad.rs` 14. -/
instance [Ord S] [Ord P] [Ord O] [Ord G] : Ord (Quad S P O G) := ⟨cmp⟩

theorem compare_def [Ord S] [Ord P] [Ord O] [Ord G] (a b : Quad S P O G) :
    compare a b = (compare a.s b.s).then ((compare a.p b.p).then
      ((compare a.o b.o).then (compare a.g b.g))) := rfl

theorem compare_eq_lex [Ord S] [Ord P] [Ord O] [Ord G] :
    (compare : Quad S P O G → Quad S P O G → Ordering) =
      compareLex (compareOn Quad.s) (compareLex (compareOn Quad.p)
        (compareLex (compareOn Quad.o) (compareOn Quad.g))) := rfl

/-- The derived order, `quad.rs` 14, is transitive. -/
instance [Ord S] [Ord P] [Ord O] [Ord G] [Std.TransOrd S] [Std.TransOrd P] [Std.TransOrd O]
    [Std.TransOrd G] : Std.TransOrd (Quad S P O G) := by
  unfold Std.TransOrd
  rw [compare_eq_lex]
  infer_instance

/-- The derived order, `quad.rs` 14, is equal on equal values only. -/
instance [Ord S] [Ord P] [Ord O] [Ord G] [Std.LawfulEqOrd S] [Std.LawfulEqOrd P]
    [Std.LawfulEqOrd O] [Std.LawfulEqOrd G] : Std.LawfulEqOrd (Quad S P O G) where
  compare_self := by
    intro a
    simp [compare_def, Std.ReflCmp.compare_self]
  eq_of_compare := by
    intro a b h
    simp only [compare_def, Ordering.then_eq_eq] at h
    obtain ⟨h1, h2, h3, h4⟩ := h
    have := Std.LawfulEqCmp.eq_of_compare h1
    have := Std.LawfulEqCmp.eq_of_compare h2
    have := Std.LawfulEqCmp.eq_of_compare h3
    have := Std.LawfulEqCmp.eq_of_compare h4
    cases a
    cases b
    simp_all

end Quad

namespace Triple

variable {S P O S' P' O' : Type}

/-- `Triple::into_parts`, `triple.rs` 99-101. -/
def intoParts (t : Triple S P O) : S × P × O := (t.s, t.p, t.o)

/-- `Triple::into_quad`, `triple.rs` 104-106. -/
def intoQuad {G : Type} (t : Triple S P O) (g : Option G) : Quad S P O G := ⟨t.s, t.p, t.o, g⟩

/-- `Triple::map_subject`, `triple.rs` 109-111. -/
def mapSubject (t : Triple S P O) (f : S → S') : Triple S' P O := ⟨f t.s, t.p, t.o⟩

/-- `Triple::map_predicate`, `triple.rs` 114-116. -/
def mapPredicate (t : Triple S P O) (f : P → P') : Triple S P' O := ⟨t.s, f t.p, t.o⟩

/-- `Triple::map_object`, `triple.rs` 119-121. -/
def mapObject (t : Triple S P O) (f : O → O') : Triple S P O' := ⟨t.s, t.p, f t.o⟩

/-- `Triple::map`, `triple.rs` 171-173. -/
def map {T U : Type} (t : Triple T) (f : T → U) : Triple U := ⟨f t.s, f t.p, f t.o⟩

/-- `PartialEq::eq`, `triple.rs` 19-21. -/
def eqWith (es : S → S' → Bool) (ep : P → P' → Bool) (eo : O → O' → Bool)
    (a : Triple S P O) (b : Triple S' P' O') : Bool :=
  es a.s b.s && ep a.p b.p && eo a.o b.o

/-- `PartialOrd::partial_cmp`, `triple.rs` 27-35. -/
def partialCmpWith (cs : S → S' → Option Ordering) (cp : P → P' → Option Ordering)
    (co : O → O' → Option Ordering)
    (a : Triple S P O) (b : Triple S' P' O') : Option Ordering :=
  match cs a.s b.s with
  | some .eq =>
    match cp a.p b.p with
    | some .eq => co a.o b.o
    | c => c
  | c => c

/-- Derived `Ord::cmp`, `triple.rs` 12. -/
def cmp [Ord S] [Ord P] [Ord O] (a b : Triple S P O) : Ordering :=
  (compare a.s b.s).then <| (compare a.p b.p).then <| compare a.o b.o

/-- Derived `Ord`, `triple.rs` 12. -/
instance [Ord S] [Ord P] [Ord O] : Ord (Triple S P O) := ⟨cmp⟩

theorem compare_def [Ord S] [Ord P] [Ord O] (a b : Triple S P O) :
    compare a b = (compare a.s b.s).then ((compare a.p b.p).then (compare a.o b.o)) := rfl

theorem compare_eq_lex [Ord S] [Ord P] [Ord O] :
    (compare : Triple S P O → Triple S P O → Ordering) =
      compareLex (compareOn Triple.s) (compareLex (compareOn Triple.p)
        (compareOn Triple.o)) := rfl

/-- The derived order, `triple.rs` 12, is transitive. -/
instance [Ord S] [Ord P] [Ord O] [Std.TransOrd S] [Std.TransOrd P] [Std.TransOrd O] :
    Std.TransOrd (Triple S P O) := by
  unfold Std.TransOrd
  rw [compare_eq_lex]
  infer_instance

/-- The derived order, `triple.rs` 12, is equal on equal values only. -/
instance [Ord S] [Ord P] [Ord O] [Std.LawfulEqOrd S] [Std.LawfulEqOrd P]
    [Std.LawfulEqOrd O] : Std.LawfulEqOrd (Triple S P O) where
  compare_self := by
    intro a
    simp [compare_def, Std.ReflCmp.compare_self]
  eq_of_compare := by
    intro a b h
    simp only [compare_def, Ordering.then_eq_eq] at h
    obtain ⟨h1, h2, h3⟩ := h
    have := Std.LawfulEqCmp.eq_of_compare h1
    have := Std.LawfulEqCmp.eq_of_compare h2
    have := Std.LawfulEqCmp.eq_of_compare h3
    cases a
    cases b
    simp_all

end Triple

end RdfTypes
