import Verif.Model.TermRef

/-!
# What terms are

The terms of RDF, whatever the form a program holds them in, and their order.
-/

namespace RdfTypes.Spec

variable {I L : Type}

/-- An RDF term. -/
inductive RdfTerm (I L : Type) where
  | blank (label : Text)
  | iri (i : I)
  | typed (value : Text) (datatype : I)
  | tagged (value : Text) (language : L)
  deriving DecidableEq, Repr

namespace RdfTerm

/-- The owned literal `l` is the term. -/
def ofLiteral (l : Literal I L) : RdfTerm I L :=
  match l with
  | ⟨v, .any i⟩ => .typed v i
  | ⟨v, .langString t⟩ => .tagged v t

/-- The borrowed literal `l` is the term. -/
def ofLiteralRef (l : LiteralRef I L) : RdfTerm I L :=
  match l with
  | ⟨v, .any i⟩ => .typed v i
  | ⟨v, .langString t⟩ => .tagged v t

/-- What a `Cow` holds. -/
def content {A : Type} : Cow A A → A
  | .borrowed a => a
  | .owned a => a

def ofCowLiteral (l : CowLiteral I L) : RdfTerm I L :=
  match l with
  | ⟨v, .any i⟩ => .typed (content v) (content i)
  | ⟨v, .langString t⟩ => .tagged (content v) (content t)

def ofTerm : Term I L → RdfTerm I L
  | .iri i => .iri i
  | .literal l => ofLiteral l

def ofTermRef : TermRef I L → RdfTerm I L
  | .iri i => .iri i
  | .literal l => ofLiteralRef l

def ofCowTerm : CowTerm I L → RdfTerm I L
  | .iri i => .iri (content i)
  | .literal l => ofCowLiteral l

/-- The label in a `Cow` of a blank node identifier. -/
def cowLabel : Cow BlankId BlankIdBuf → Text
  | .borrowed b => b.asStr
  | .owned b => b.str

def ofLocal : LexTerm I L → RdfTerm I L
  | .anonymous b => .blank b.str
  | .named t => ofTerm t

def ofLocalRef : LocalTermRef I L → RdfTerm I L
  | .anonymous b => .blank b.asStr
  | .named t => ofTermRef t

def ofCowLocal : CowLocalTerm I L → RdfTerm I L
  | .anonymous b => .blank (cowLabel b)
  | .named t => ofCowTerm t

def ofId : Id BlankIdBuf I → RdfTerm I L
  | .blankId b => .blank b.str
  | .iri i => .iri i

def ofIdRef : IdRef I → RdfTerm I L
  | .blankId b => .blank b.asStr
  | .iri i => .iri i

def ofCowId : CowId I → RdfTerm I L
  | .blankId b => .blank (cowLabel b)
  | .iri i => .iri (content i)

/-- Whether a `Cow` owns what it holds. -/
def owns {A B : Type} : Cow A B → Bool
  | .borrowed _ => false
  | .owned _ => true

/-- Which parts of a copy-on-write type, literal or term are owned copies. -/
def typeOwns : CowLiteralType I L → List Bool
  | .any i => [owns i]
  | .langString t => [owns t]

def literalOwns (l : CowLiteral I L) : List Bool := owns l.value :: typeOwns l.type_

def termOwns : CowTerm I L → List Bool
  | .iri i => [owns i]
  | .literal l => literalOwns l

def localOwns : CowLocalTerm I L → List Bool
  | .anonymous b => [owns b]
  | .named t => termOwns t

def idOwns : CowId I → List Bool
  | .blankId b => [owns b]
  | .iri i => [owns i]

/-- Blank nodes come first, then IRIs, then literals. -/
def rank : RdfTerm I L → Nat
  | .blank _ => 0
  | .iri _ => 1
  | .typed _ _ => 2
  | .tagged _ _ => 2

/-- The strings compared first: labels and values. -/
def text : RdfTerm I L → Text
  | .blank l => l
  | .iri _ => []
  | .typed v _ => v
  | .tagged v _ => v

/-- What is compared last: typed values before tagged ones. -/
def compareLast [Ord I] [Ord L] : RdfTerm I L → RdfTerm I L → Ordering
  | .iri i, .iri j => compare i j
  | .typed _ i, .typed _ j => compare i j
  | .tagged _ i, .tagged _ j => compare i j
  | .typed _ _, .tagged _ _ => .lt
  | .tagged _ _, .typed _ _ => .gt
  | _, _ => .eq

/-- The order of terms. -/
def order [Ord I] [Ord L] (a b : RdfTerm I L) : Ordering :=
  (compare a.rank b.rank).then ((compare a.text b.text).then (compareLast a b))

end RdfTerm

/-- The type of a literal: a datatype or a language. -/
def ofLiteralType : LiteralType I L → I ⊕ L
  | .any i => .inl i
  | .langString t => .inr t

def ofLiteralTypeRef : LiteralTypeRef I L → I ⊕ L
  | .any i => .inl i
  | .langString t => .inr t

def ofCowLiteralType : CowLiteralType I L → I ⊕ L
  | .any i => .inl (RdfTerm.content i)
  | .langString t => .inr (RdfTerm.content t)

/-- Datatypes come before languages. -/
def typeOrder [Ord I] [Ord L] : I ⊕ L → I ⊕ L → Ordering
  | .inl a, .inl b => compare a b
  | .inr a, .inr b => compare a b
  | .inl _, .inr _ => .lt
  | .inr _, .inl _ => .gt

/-- A comparison made of successive ones: the first that does not say "equal". -/
def firstDifference (l : List (Option Ordering)) : Option Ordering :=
  (l.find? (· ≠ some .eq)).getD (some .eq)

/-- Comparison of graph labels: the default graph comes before any named graph. -/
def graphOrder {G G' : Type} (cg : G → G' → Option Ordering) : Option G → Option G' → Option Ordering
  | none, none => some .eq
  | none, some _ => some .lt
  | some _, none => some .gt
  | some x, some y => cg x y

/-- What the documentation of `Borrow` asks for: borrowing preserves and reflects
equality, preserves the order and the hash. -/
structure BorrowConsistent {A B : Type} [Ord A] [Ord B] [Hashed A] [Hashed B]
    (borrow : A → B) : Prop where
  eq : ∀ x y, borrow x = borrow y ↔ x = y
  ord : ∀ x y, compare (borrow x) (borrow y) = compare x y
  hash : ∀ x, Hashed.hash (borrow x) = Hashed.hash x

end RdfTypes.Spec
