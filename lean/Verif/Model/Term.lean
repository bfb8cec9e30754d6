import Verif.Model.Statement

/-!
# Terms

Model of `/repo/src/term/mod.rs`, `/repo/src/term/local/mod.rs`,
`/repo/src/literal/mod.rs`, `/repo/src/literal/type/mod.rs` and `/repo/src/id/mod.rs`.

The types of blank node identifiers (`B`, `BlankIdBuf`), IRIs (`I`, `IriBuf` of the
crate `iref`) and language tags (`L`, `LangTagBuf` of the crate `langtag`) are
parameters: how these crates compare and hash is not modelled, so that values they
treat as equal are one value of `I` or `L`.
-/

namespace RdfTypes

/-- Strings (std), as in `literal/mod.rs` 20, as sequences of Unicode scalar values. Rust
compares UTF-8 bytes, which is the order of the scalar values. -/
abbrev Text := List Char

/-- `LiteralType`, `literal/type/mod.rs` 17-23. -/
inductive LiteralType (I L : Type) where
  | any (iri : I)
  | langString (tag : L)
  deriving DecidableEq, Repr

/-- `Literal`, `literal/mod.rs` 18-24. -/
structure Literal (I L : Type) where
  value : Text
  type_ : LiteralType I L
  deriving DecidableEq, Repr

/-- `Term`, `term/mod.rs` 22-28. -/
inductive Term (I L : Type) where
  | iri (iri : I)
  | literal (l : Literal I L)
  deriving DecidableEq, Repr

/-- `LocalTerm`, `term/local/mod.rs` 19-22. -/
inductive LocalTerm (B I L : Type) where
  | anonymous (id : B)
  | named (t : Term I L)
  deriving DecidableEq, Repr

/-- `Id`, `id/mod.rs` 12-15. -/
inductive Id (B I : Type) where
  | blankId (id : B)
  | iri (iri : I)
  deriving DecidableEq, Repr

variable {B I L : Type}

/-! ## Derived orders -/

/-- Derived `Ord`, `literal/type/mod.rs` 15: variants in order, then contents. -/
def LiteralType.cmp [Ord I] [Ord L] : LiteralType I L → LiteralType I L → Ordering
  | .any a, .any b => compare a b
  | .any _, .langString _ => .lt
  | .langString _, .any _ => .gt
  | .langString a, .langString b => compare a b

/-- Derived `Ord`, `literal/type/mod.rs` 15. -/
instance [Ord I] [Ord L] : Ord (LiteralType I L) := ⟨LiteralType.cmp⟩

/-- Derived `Ord`, `literal/mod.rs` 16: fields in order. -/
def Literal.cmp [Ord I] [Ord L] (a b : Literal I L) : Ordering :=
  (compare a.value b.value).then (compare a.type_ b.type_)

/-- Derived `Ord`, `literal/mod.rs` 16. -/
instance [Ord I] [Ord L] : Ord (Literal I L) := ⟨Literal.cmp⟩

/-- Derived `Ord`, `term/mod.rs` 19. -/
def Term.cmp [Ord I] [Ord L] : Term I L → Term I L → Ordering
  | .iri a, .iri b => compare a b
  | .iri _, .literal _ => .lt
  | .literal _, .iri _ => .gt
  | .literal a, .literal b => compare a b

/-- Derived `Ord`, `term/mod.rs` 19. -/
instance [Ord I] [Ord L] : Ord (Term I L) := ⟨Term.cmp⟩

/-- Derived `Ord`, `term/local/mod.rs` 16. -/
def LocalTerm.cmp [Ord B] [Ord I] [Ord L] : LocalTerm B I L → LocalTerm B I L → Ordering
  | .anonymous a, .anonymous b => compare a b
  | .anonymous _, .named _ => .lt
  | .named _, .anonymous _ => .gt
  | .named a, .named b => compare a b

/-- Derived `Ord`, `term/local/mod.rs` 16. -/
instance [Ord B] [Ord I] [Ord L] : Ord (LocalTerm B I L) := ⟨LocalTerm.cmp⟩

/-! ### They are lawful -/

/-- Two ordered types one after the other: the order of all the enums above. -/
theorem sum_transCmp {X A A' : Type} [Ord A] [Ord A'] [Std.TransOrd A] [Std.TransOrd A']
    (cmp : X → X → Ordering) (f : X → A ⊕ A')
    (h : ∀ x y, cmp x y = match f x, f y with
      | .inl a, .inl b => compare a b
      | .inl _, .inr _ => .lt
      | .inr _, .inl _ => .gt
      | .inr a, .inr b => compare a b) : Std.TransCmp cmp where
  eq_swap {x y} := by
    rw [h, h]
    cases f x <;> cases f y <;> simp [← Std.OrientedCmp.eq_swap]
  isLE_trans {x y z} h1 h2 := by
    rw [h] at h1 h2 ⊢
    revert h1 h2
    cases f x <;> cases f y <;> cases f z <;> simp <;> intro h1 h2
    · exact Std.TransCmp.isLE_trans h1 h2
    · exact Std.TransCmp.isLE_trans h1 h2

theorem sum_lawfulEqCmp {X A A' : Type} [Ord A] [Ord A'] [Std.LawfulEqOrd A]
    [Std.LawfulEqOrd A'] (cmp : X → X → Ordering) (f : X → A ⊕ A')
    (h : ∀ x y, cmp x y = match f x, f y with
      | .inl a, .inl b => compare a b
      | .inl _, .inr _ => .lt
      | .inr _, .inl _ => .gt
      | .inr a, .inr b => compare a b)
    (inj : ∀ x y, f x = f y → x = y) : Std.LawfulEqCmp cmp where
  compare_self {x} := by
    rw [h]
    cases f x <;> simp [Std.ReflCmp.compare_self]
  eq_of_compare {x y} e := by
    rw [h] at e
    apply inj
    cases e1 : f x <;> cases e2 : f y <;> simp_all

section lawful

variable [Ord B] [Ord I] [Ord L]

/-- The variants of `LiteralType`, `literal/type/mod.rs` 15, as a sum, to reuse the laws of its order. -/
private def literalTypeSum : LiteralType I L → I ⊕ L
  | .any a => .inl a
  | .langString a => .inr a

/-- The derived order, `literal/type/mod.rs` 15, is transitive. -/
instance [Std.TransOrd I] [Std.TransOrd L] : Std.TransOrd (LiteralType I L) :=
  sum_transCmp _ literalTypeSum (by intro x y; cases x <;> cases y <;> rfl)

/-- The derived order, `literal/type/mod.rs` 15, is equal on equal values only. -/
instance [Std.LawfulEqOrd I] [Std.LawfulEqOrd L] : Std.LawfulEqOrd (LiteralType I L) :=
  sum_lawfulEqCmp _ literalTypeSum (by intro x y; cases x <;> cases y <;> rfl)
    (by intro x y; cases x <;> cases y <;> simp [literalTypeSum])

theorem Literal.compare_eq_lex : (compare : Literal I L → Literal I L → Ordering) =
    compareLex (compareOn Literal.value) (compareOn Literal.type_) := rfl

/-- The derived order, `literal/mod.rs` 16, is transitive. -/
instance [Std.TransOrd I] [Std.TransOrd L] : Std.TransOrd (Literal I L) := by
  unfold Std.TransOrd
  rw [Literal.compare_eq_lex]
  infer_instance

/-- The derived order, `literal/mod.rs` 16, is equal on equal values only. -/
instance [Std.LawfulEqOrd I] [Std.LawfulEqOrd L] : Std.LawfulEqOrd (Literal I L) where
  compare_self {a} := by simp [Literal.compare_eq_lex, compareLex, compareOn,
    Std.ReflCmp.compare_self]
  eq_of_compare {a b} h := by
    simp only [Literal.compare_eq_lex, compareLex, compareOn, Ordering.then_eq_eq] at h
    have := Std.LawfulEqCmp.eq_of_compare h.1
    have := Std.LawfulEqCmp.eq_of_compare h.2
    cases a
    cases b
    simp_all

/-- The variants of `Term`, `term/mod.rs` 19, as a sum, to reuse the laws of its order. -/
private def termSum : Term I L → I ⊕ Literal I L
  | .iri a => .inl a
  | .literal a => .inr a

/-- The derived order, `term/mod.rs` 19, is transitive. -/
instance [Std.TransOrd I] [Std.TransOrd L] : Std.TransOrd (Term I L) :=
  sum_transCmp _ termSum (by intro x y; cases x <;> cases y <;> rfl)

/-- The derived order, `term/mod.rs` 19, is equal on equal values only. -/
instance [Std.LawfulEqOrd I] [Std.LawfulEqOrd L] : Std.LawfulEqOrd (Term I L) :=
  sum_lawfulEqCmp _ termSum (by intro x y; cases x <;> cases y <;> rfl)
    (by intro x y; cases x <;> cases y <;> simp [termSum])

/-- The variants of `LocalTerm`, `term/local/mod.rs` 16, as a sum, to reuse the laws of its order. -/
private def localTermSum : LocalTerm B I L → B ⊕ Term I L
  | .anonymous a => .inl a
  | .named a => .inr a

/-- The derived order, `term/local/mod.rs` 16, is transitive. -/
instance [Std.TransOrd B] [Std.TransOrd I] [Std.TransOrd L] : Std.TransOrd (LocalTerm B I L) :=
  sum_transCmp _ localTermSum (by intro x y; cases x <;> cases y <;> rfl)

/-- The derived order, `term/local/mod.rs` 16, is equal on equal values only. -/
instance [Std.LawfulEqOrd B] [Std.LawfulEqOrd I] [Std.LawfulEqOrd L] :
    Std.LawfulEqOrd (LocalTerm B I L) :=
  sum_lawfulEqCmp _ localTermSum (by intro x y; cases x <;> cases y <;> rfl)
    (by intro x y; cases x <;> cases y <;> simp [localTermSum])

end lawful

end RdfTypes
