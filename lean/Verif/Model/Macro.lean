import Verif.Model.Serde

/-!
# The statement macros

Model of `/repo/src/macro.rs`. A macro is a function on tokens; `none` is an error at
compile time (no rule applies, `unexpected_token!`, a wrong number of arguments, an
ill-typed expansion, an unresolved path). The rules are tried in order, as
`macro_rules!` does. Expressions are evaluated from left to right and may panic.

Simplifications. String literals are the only literals: other ones are `other`, as the
expansion of all rules with a literal is ill-typed for them. The limit of the compiler
on the depth of expansions is left out.
-/

namespace RdfTypes

/-- A token: those that the rules tell apart, `macro.rs` 69-117 and 210-249. -/
inductive Token where
  | ident (x : Text)
  | lit (s : Text)
  | lt | gt | underscore | colon | caret | dot | question
  | other (n : Nat)
  deriving DecidableEq, Repr

/-- The value of a Rust variable, of one of the types that `LocalTerm::from` accepts
(`term/local/mod.rs` 88-110, and `LocalTerm` itself). -/
inductive Binding (I L : Type) where
  | iri (i : I)
  | literal (l : Literal I L)
  | term (t : Term I L)
  | blank (b : BlankIdBuf)
  | localTerm (t : LocalTerm BlankIdBuf I L)

/-- `LocalTerm::from`, `term/local/mod.rs` 88-110. -/
def Binding.toLocalTerm {I L : Type} : Binding I L → LocalTerm BlankIdBuf I L
  | .iri i => .named (.iri i)
  | .literal l => .named (.literal l)
  | .term t => .named t
  | .blank b => .anonymous b
  | .localTerm t => t

namespace Macro

variable {I L X : Type}

/-- The expressions that the macros accumulate, `macro.rs` 14, 19, 24, 29-34 and 39-44 for triples,
145-175 for quads. -/
inductive Expr where
  /-- `LocalTerm::from(x)` -/
  | var (x : Text)
  /-- `LocalTerm::iri(iri!(s).to_owned())` -/
  | iri (s : Text)
  /-- `LocalTerm::Anonymous(BlankIdBuf::from_suffix(s).unwrap())` -/
  | blank (s : Text)
  /-- `LocalTerm::literal(Literal::new(v.to_owned(), LiteralType::Any(iri!(ty).to_owned())))` -/
  | typed (v ty : Text)
  /-- `LocalTerm::literal(Literal::new(v.to_owned(), LiteralType::Any(XSD_STRING.to_owned())))` -/
  | plain (v : Text)
  deriving DecidableEq, Repr

/-- The rules `@from` of `grdf_triple!`, `macro.rs` 11-45, and `grdf_quad!`, 142-176, up to the last
one: the accumulated expressions. -/
def parse (acc : List Expr) : List Token → Option (List Expr)
  | .ident x :: rest => parse (acc ++ [.var x]) rest
  | .lt :: .lit s :: .gt :: rest => parse (acc ++ [.iri s]) rest
  | .underscore :: .colon :: .lit s :: rest => parse (acc ++ [.blank s]) rest
  | .lit v :: .caret :: .caret :: .lit ty :: rest => parse (acc ++ [.typed v ty]) rest
  | .lit v :: rest => parse (acc ++ [.plain v]) rest
  | [] => some acc
  | _ => none

/-- What the expansions refer to: the variables in scope (`macro.rs` 14), the macro `iri!` of the
crate
`iref` (19), which rejects invalid IRIs at compile time, and `XSD_STRING` (42). -/
structure Scope (I L : Type) where
  var : Text → Option (Binding I L)
  iri : Text → Option I
  xsdString : I

/-- Type checking, then evaluation, of an expression, 14, 19, 24, 29-34 and 39-44;
`from_suffix` is that of `blankid.rs` 180-182. -/
def eval (sc : Scope I L) : Expr → Option (Res (LocalTerm BlankIdBuf I L))
  | .var x => do
    let b ← sc.var x
    pure (.ok b.toLocalTerm)
  | .iri s => do
    let i ← sc.iri s
    pure (.ok (.named (.iri i)))
  | .blank s =>
    match BlankIdBuf.fromSuffix s with
    | .ok b => pure (.ok (.anonymous b))
    | .error _ => pure (.error .unwrapNone)
  | .typed v ty => do
    let i ← sc.iri ty
    pure (.ok (.named (.literal ⟨v, .any i⟩)))
  | .plain v => pure (.ok (.named (.literal ⟨v, .any sc.xsdString⟩)))

/-- Last rule of `grdf_triple!`, `macro.rs` 46-50: `Triple::new` with the accumulated arguments. -/
def newTriple (sc : Scope I L) : List Expr → Option (Res (Triple (LocalTerm BlankIdBuf I L)))
  | [s, p, o] => do
    let s ← eval sc s
    let p ← eval sc p
    let o ← eval sc o
    pure do
      let s ← s
      let p ← p
      let o ← o
      pure ⟨s, p, o⟩
  | _ => none

/-- `grdf_triple!`, `macro.rs` 9-62. -/
def triple (sc : Scope I L) (tokens : List Token) :
    Option (Res (Triple (LocalTerm BlankIdBuf I L))) := do
  let args ← parse [] tokens
  newTriple sc args

/-- Last rules of `grdf_quad!`, `macro.rs` 177-186. -/
def newQuad (sc : Scope I L) : List Expr → Option (Res (Quad (LocalTerm BlankIdBuf I L)))
  | [s, p, o] => do
    let s ← eval sc s
    let p ← eval sc p
    let o ← eval sc o
    pure do
      let s ← s
      let p ← p
      let o ← o
      pure ⟨s, p, o, none⟩
  | [s, p, o, g] => do
    let s ← eval sc s
    let p ← eval sc p
    let o ← eval sc o
    let g ← eval sc g
    pure do
      let s ← s
      let p ← p
      let o ← o
      let g ← g
      pure ⟨s, p, o, some g⟩
  | _ => none

/-- `grdf_quad!`, `macro.rs` 140-198. -/
def quad (sc : Scope I L) (tokens : List Token) :
    Option (Res (Quad (LocalTerm BlankIdBuf I L))) := do
  let args ← parse [] tokens
  newQuad sc args

/-- The rules `@tokenize` of `grdf_triples!`, `macro.rs` 67-117, and `grdf_quads!`, 276-326: the
tokens of each statement. -/
def tokenize (acc : List (List Token)) (current : List Token) :
    List Token → Option (List (List Token))
  | .ident x :: rest => tokenize acc (current ++ [.ident x]) rest
  | .lt :: rest => tokenize acc (current ++ [.lt]) rest
  | .gt :: rest => tokenize acc (current ++ [.gt]) rest
  | .underscore :: rest => tokenize acc (current ++ [.underscore]) rest
  | .colon :: rest => tokenize acc (current ++ [.colon]) rest
  | .caret :: rest => tokenize acc (current ++ [.caret]) rest
  | .lit l :: rest => tokenize acc (current ++ [.lit l]) rest
  | .dot :: rest => tokenize (acc ++ [current]) [] rest
  | [] => if current = [] then some acc else none
  | .question :: _ | .other _ :: _ => none

/-- The array of the rules `@triples_from`, `macro.rs` 119-128, and `@quads_from`, 328-337: all the
elements must compile, and are evaluated in order. -/
def array {T : Type} : List (Option (Res T)) → Option (Res (List T))
  | [] => some (.ok [])
  | x :: l => do
    let x ← x
    let l ← array l
    pure do
      let x ← x
      let l ← l
      pure (x :: l)

/-- `grdf_triples!`, `macro.rs` 66-136. -/
def triples (sc : Scope I L) (tokens : List Token) :
    Option (Res (List (Triple (LocalTerm BlankIdBuf I L)))) := do
  let statements ← tokenize [] [] tokens
  array (statements.map (triple sc))

/-- `grdf_quads!`, `macro.rs` 275-345. -/
def quads (sc : Scope I L) (tokens : List Token) :
    Option (Res (List (Quad (LocalTerm BlankIdBuf I L)))) := do
  let statements ← tokenize [] [] tokens
  array (statements.map (quad sc))

/-! ## Quad patterns -/

/-- The expressions that `grdf_quad_pattern!` accumulates, `macro.rs` 213-248:
`ResourceOrVar::Var(x)`,
or `ResourceOrVar::Resource` of a variable or of another expression. -/
inductive PatternExpr where
  | patternVar (x : Text)
  | resource (e : Expr)
  deriving DecidableEq, Repr

/-- The rules `@from` of `grdf_quad_pattern!`, `macro.rs` 210-249. -/
def parsePattern (acc : List PatternExpr) : List Token → Option (List PatternExpr)
  | .question :: .ident x :: rest => parsePattern (acc ++ [.patternVar x]) rest
  | .ident x :: rest => parsePattern (acc ++ [.resource (.var x)]) rest
  | .lt :: .lit s :: .gt :: rest => parsePattern (acc ++ [.resource (.iri s)]) rest
  | .underscore :: .colon :: .lit s :: rest => parsePattern (acc ++ [.resource (.blank s)]) rest
  | .lit v :: .caret :: .caret :: .lit ty :: rest =>
    parsePattern (acc ++ [.resource (.typed v ty)]) rest
  | .lit v :: rest => parsePattern (acc ++ [.resource (.plain v)]) rest
  | [] => some acc
  | _ => none

/-- Type checking and evaluation at the type `ResourceOrVar<Term, X>` that the last rules
require (253, 258). A resource given by a variable is not converted (218): the variable
must have type `Term`. The path `$crate::static_iref` (223, 236) does not exist in the
crate (`lib.rs`), and the other constants (228, 243) are of type `LocalTerm`, which is
not `Term`. -/
def evalPattern (sc : Scope I L) (pvar : Text → Option X) :
    PatternExpr → Option (ResourceOrVar (Term I L) X)
  | .patternVar x => do
    let v ← pvar x
    pure (.var v)
  | .resource (.var x) =>
    match sc.var x with
    | some (.term t) => pure (.resource t)
    | _ => none
  | .resource (.iri _) => none
  | .resource (.typed _ _) => none
  | .resource (.blank _) => none
  | .resource (.plain _) => none

/-- Last rules of `grdf_quad_pattern!`, `macro.rs` 250-259. -/
def newQuadPattern (sc : Scope I L) (pvar : Text → Option X) :
    List PatternExpr → Option (Quad (ResourceOrVar (Term I L) X))
  | [s, p, o] => do
    let s ← evalPattern sc pvar s
    let p ← evalPattern sc pvar p
    let o ← evalPattern sc pvar o
    pure ⟨s, p, o, none⟩
  | [s, p, o, g] => do
    let s ← evalPattern sc pvar s
    let p ← evalPattern sc pvar p
    let o ← evalPattern sc pvar o
    let g ← evalPattern sc pvar g
    pure ⟨s, p, o, some g⟩
  | _ => none

/-- `grdf_quad_pattern!`, `macro.rs` 208-271. -/
def quadPattern (sc : Scope I L) (pvar : Text → Option X) (tokens : List Token) :
    Option (Quad (ResourceOrVar (Term I L) X)) := do
  let args ← parsePattern [] tokens
  newQuadPattern sc pvar args

end Macro

end RdfTypes
