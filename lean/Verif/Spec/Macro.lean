import Verif.Model.Macro
import Verif.Spec.BlankId

/-!
# The notation of the statement macros

What the tokens of a term, a statement and a list of statements stand for. Lists of
tokens are cut into terms in any way that fits: that there is at most one is proved.
-/

namespace RdfTypes.Spec

open Macro (Scope)

variable {I L X : Type}

/-- The labels, without `_:`, of the blank nodes that can be written: those of the grammar,
but for the dots that the crate rejects (C43). -/
def BlankSuffix (s : Text) : Prop := BlankNodeLabel (['_', ':'] ++ s) ∧ '.' ∉ s

/-- The tokens of a term. -/
inductive TermTokens (sc : Scope I L) : List Token → LocalTerm BlankIdBuf I L → Prop
  | iriVar {x i} : sc.var x = some (.iri i) → TermTokens sc [.ident x] (.named (.iri i))
  | literalVar {x l} : sc.var x = some (.literal l) → TermTokens sc [.ident x] (.named (.literal l))
  | termVar {x t} : sc.var x = some (.term t) → TermTokens sc [.ident x] (.named t)
  | blankVar {x b} : sc.var x = some (.blank b) → TermTokens sc [.ident x] (.anonymous b)
  | localVar {x t} : sc.var x = some (.localTerm t) → TermTokens sc [.ident x] t
  | iri {s i} : sc.iri s = some i → TermTokens sc [.lt, .lit s, .gt] (.named (.iri i))
  | blank {s} : BlankSuffix s →
      TermTokens sc [.underscore, .colon, .lit s] (.anonymous ⟨['_', ':'] ++ s⟩)
  | typed {v ty i} : sc.iri ty = some i →
      TermTokens sc [.lit v, .caret, .caret, .lit ty] (.named (.literal ⟨v, .any i⟩))
  | plain {v} : TermTokens sc [.lit v] (.named (.literal ⟨v, .any sc.xsdString⟩))

/-- The tokens of a triple: its subject, its predicate, its object. -/
inductive TripleTokens (sc : Scope I L) : List Token → Triple (LocalTerm BlankIdBuf I L) → Prop
  | mk {a b c s p o} : TermTokens sc a s → TermTokens sc b p → TermTokens sc c o →
      TripleTokens sc (a ++ b ++ c) ⟨s, p, o⟩

/-- The tokens of a quad: those of a triple, then its graph unless it is the default one. -/
inductive QuadTokens (sc : Scope I L) : List Token → Quad (LocalTerm BlankIdBuf I L) → Prop
  | default {a b c s p o} : TermTokens sc a s → TermTokens sc b p → TermTokens sc c o →
      QuadTokens sc (a ++ b ++ c) ⟨s, p, o, none⟩
  | named {a b c d s p o g} : TermTokens sc a s → TermTokens sc b p → TermTokens sc c o →
      TermTokens sc d g → QuadTokens sc (a ++ b ++ c ++ d) ⟨s, p, o, some g⟩

/-- The tokens of a list of statements, each of them followed by a dot. -/
inductive ListTokens {T : Type} (statement : List Token → T → Prop) : List Token → List T → Prop
  | nil : ListTokens statement [] []
  | cons {a b x l} : statement a x → ListTokens statement b l →
      ListTokens statement (a ++ [.dot] ++ b) (x :: l)

/-- Tokens that can stand for a term: the label of a blank node is not checked when the
program is compiled. -/
def FormsTerm (sc : Scope I L) (a : List Token) : Prop :=
  (∃ t, TermTokens sc a t) ∨ ∃ s, a = [.underscore, .colon, .lit s]

/-- Tokens that can stand for a triple. -/
def FormsTriple (sc : Scope I L) (ts : List Token) : Prop :=
  ∃ a b c, ts = a ++ b ++ c ∧ FormsTerm sc a ∧ FormsTerm sc b ∧ FormsTerm sc c

/-- Tokens that can stand for a quad. -/
def FormsQuad (sc : Scope I L) (ts : List Token) : Prop :=
  FormsTriple sc ts ∨ ∃ a b c d, ts = a ++ b ++ c ++ d ∧ FormsTerm sc a ∧ FormsTerm sc b ∧
    FormsTerm sc c ∧ FormsTerm sc d

/-- Tokens that can stand for a list of statements, each of them followed by a dot. -/
inductive FormsList (forms : List Token → Prop) : List Token → Prop
  | nil : FormsList forms []
  | cons {a b} : forms a → FormsList forms b → FormsList forms (a ++ [.dot] ++ b)

/-- The tokens `_:"s"` occur. -/
def WritesBlank (tokens : List Token) (s : Text) : Prop :=
  ∃ a b, tokens = a ++ [.underscore, .colon, .lit s] ++ b

/-- The tokens of a term or variable of a pattern. Blank nodes are not terms. -/
inductive PatternTokens (sc : Scope I L) (pvar : Text → Option X) :
    List Token → ResourceOrVar (Term I L) X → Prop
  | var {x v} : pvar x = some v → PatternTokens sc pvar [.question, .ident x] (.var v)
  | term {a t} : TermTokens sc a (.named t) → PatternTokens sc pvar a (.resource t)

/-- The tokens of a quad pattern. -/
inductive QuadPatternTokens (sc : Scope I L) (pvar : Text → Option X) :
    List Token → Quad (ResourceOrVar (Term I L) X) → Prop
  | default {a b c s p o} : PatternTokens sc pvar a s → PatternTokens sc pvar b p →
      PatternTokens sc pvar c o → QuadPatternTokens sc pvar (a ++ b ++ c) ⟨s, p, o, none⟩
  | named {a b c d s p o g} : PatternTokens sc pvar a s → PatternTokens sc pvar b p →
      PatternTokens sc pvar c o → PatternTokens sc pvar d g →
      QuadPatternTokens sc pvar (a ++ b ++ c ++ d) ⟨s, p, o, some g⟩

/-- The tokens that `grdf_quad_pattern!` takes for a position: a variable of the pattern, or the
name of a Rust variable of type `Term`. -/
inductive NameTokens (sc : Scope I L) (pvar : Text → Option X) :
    List Token → ResourceOrVar (Term I L) X → Prop
  | var {x v} : pvar x = some v → NameTokens sc pvar [.question, .ident x] (.var v)
  | term {x t} : sc.var x = some (.term t) → NameTokens sc pvar [.ident x] (.resource t)

/-- The tokens of a quad pattern made of names only. -/
inductive NamesTokens (sc : Scope I L) (pvar : Text → Option X) :
    List Token → Quad (ResourceOrVar (Term I L) X) → Prop
  | default {a b c s p o} : NameTokens sc pvar a s → NameTokens sc pvar b p →
      NameTokens sc pvar c o → NamesTokens sc pvar (a ++ b ++ c) ⟨s, p, o, none⟩
  | named {a b c d s p o g} : NameTokens sc pvar a s → NameTokens sc pvar b p →
      NameTokens sc pvar c o → NameTokens sc pvar d g →
      NamesTokens sc pvar (a ++ b ++ c ++ d) ⟨s, p, o, some g⟩

end RdfTypes.Spec
