import Verif.Model.Display

/-!
# Display to a formatter

The displays of `Verif/Model/Display.lean` again, with what they leave out: the options of the
formatter (width, fill, alignment and precision) and a buffer whose writes can fail. The code is
that of `/repo/src/display.rs` and of the `RdfDisplay` and `fmt::Display` implementations of
terms, statements and containers.

`Formatter`, `write!`, `Formatter::pad` and the displays of `char` and `str` are those of the
standard library. Simplification: an argument formatted by the standard library with options of
its own (`{bytes:#04x}`) is one write.
-/

namespace RdfTypes

namespace Formatting

/-- `fmt::Alignment` (std). -/
inductive Align
  | left
  | right
  | center
deriving DecidableEq

/-- The options of a `fmt::Formatter` (std) that the displays of `char` and `str` called in
`display.rs` 28, 52, 105 and 119 read. -/
structure Options where
  fill : Char := ' '
  align : Option Align := none
  width : Option Nat := none
  precision : Option Nat := none
deriving DecidableEq

/-- `fmt::Formatter` (std), the argument of `rdf_fmt`, `display.rs` 8: the options and the
`write_str` of the buffer, which gives the next state of the buffer and whether it is `Ok`. -/
structure Formatter (σ : Type) where
  options : Options := {}
  writeStr : Text → σ → σ × Bool

/-- What a call `rdf_fmt(f)`, `display.rs` 8, does to the buffer of `f`, and whether it returns
`Ok`. -/
abbrev Writing (σ : Type) := Formatter σ → σ → σ × Bool

variable {σ : Type}

/-- `Ok(())`, as in `literal/mod.rs` 118. -/
def ok : Writing σ := fun _ s => (s, true)

/-- `a?; b`, as in `display.rs` 20-33. -/
def andThen (a b : Writing σ) : Writing σ := fun f s =>
  match a f s with
  | (s, true) => b f s
  | (s, false) => (s, false)

/-- `for x in l { body(x)?; }`, as in `display.rs` 22-30 and 46-55, `btree_dataset.rs` 448-450. -/
def forEach {X : Type} (body : X → Writing σ) : List X → Writing σ
  | [] => ok
  | x :: l => andThen (body x) (forEach body l)

/-- `f.write_str(t)` and `write!(f, t)` where `t` has no argument, as in `display.rs` 20. -/
def write (t : Text) : Writing σ := fun f s => f.writeStr t s

/-- An argument `{}` of `write!` (std), as in `triple.rs` 202-208: formatted to the same buffer
without options. -/
def arg (a : Writing σ) : Writing σ := fun f => a { f with options := {} }

/-- `Formatter::padding` (std) around `body`, with `n` fill characters, called by `pad`. -/
def padding (n : Nat) (body : Writing σ) : Writing σ := fun f =>
  let fillChars (k : Nat) : Writing σ := forEach (fun _ => write [f.options.fill]) (List.replicate k ())
  let pre := match f.options.align with
    | none | some .left => 0
    | some .right => n
    | some .center => n / 2
  andThen (fillChars pre) (andThen body (fillChars (n - pre))) f

/-- `Formatter::pad` (std), which `str::fmt` calls, `display.rs` 105 and 119; `char::fmt`,
`display.rs` 28 and 52, calls it on the character unless there is neither width nor precision. -/
def pad (t : Text) : Writing σ := fun f =>
  let t := match f.options.precision with
    | none => t
    | some n => t.take n
  match f.options.width with
  | none => write t f
  | some w => if t.length < w then padding (w - t.length) (write t) f else write t f

/-- One character of a string, `display.rs` 23-29. -/
def strChar (c : Char) : Writing σ :=
  if c = '"' then write ['\\', '"']
  else if c = '\\' then write ['\\', '\\']
  else if c = '\n' then write ['\\', 'n']
  else if c = '\r' then write ['\\', 'r']
  else pad [c]

/-- `RdfDisplay for str`, `display.rs` 17-34; also for `String`, 36-40. -/
def str (t : Text) : Writing σ :=
  andThen (write ['"']) (andThen (forEach strChar t) (write ['"']))

/-- One character of an IRI, `display.rs` 47-53. -/
def iriChar (c : Char) : Writing σ :=
  if Display.isEscapedInIri c then andThen (write ['\\', 'u']) (write (Display.hex04 c.toNat))
  else pad [c]

/-- `RdfDisplay for IriRef`, `display.rs` 42-58; also for `Iri` 60-65, `IriBuf` 74-79 and
`IriRefBuf` 88-93. -/
def iri (t : Text) : Writing σ :=
  andThen (write ['<']) (andThen (forEach iriChar t) (write ['>']))

/-- `RdfDisplay for LangTag`, `display.rs` 102-107; also for `LangTagBuf`, 116-121. -/
def langTag (t : Text) : Writing σ := pad t

/-- `RdfDisplay for LiteralType`, `literal/type/mod.rs` 70-83. -/
def literalType : LiteralType Text Text → Writing σ
  | .any ty => andThen (write ['^', '^']) (iri ty)
  | .langString tag => andThen (write ['@']) (langTag tag)

/-- `RdfDisplay for LiteralTypeRef`, `literal/type/ref.rs` 99-112. -/
def literalTypeRef : LiteralTypeRef Text Text → Writing σ
  | .any ty => andThen (write ['^', '^']) (iri ty)
  | .langString tag => andThen (write ['@']) (langTag tag)

/-- `RdfDisplay for Literal`, `literal/mod.rs` 114-123; also `fmt::Display`, 103-112, which has
the same body. -/
def literal (l : Literal Text Text) : Writing σ :=
  andThen (str l.value) (if l.type_.isXsdString then ok else literalType l.type_)

/-- `RdfDisplay for LiteralRef`, `literal/ref.rs` 145-154; also `fmt::Display`, 134-143, which has
the same body. -/
def literalRef (l : LiteralRef Text Text) : Writing σ :=
  andThen (str l.value) (if l.type_.isXsdString then ok else literalTypeRef l.type_)

/-- `RdfDisplay for Term`, `term/mod.rs` 118-125. -/
def term : Term Text Text → Writing σ
  | .iri i => iri i
  | .literal l => literal l

/-- `RdfDisplay for LocalTerm`, `term/local/mod.rs` 130-137; the identifier is displayed as a
string, as in `LocalTerm.rdfFmt`. -/
def localTerm : LexTerm Text Text → Writing σ
  | .anonymous b => str b.asBlankIdRef.asStr
  | .named t => term t

/-- `fmt::Display for Term`, `term/mod.rs` 109-116. `IriBuf` displays as its text: as a `str`. -/
def displayTerm : Term Text Text → Writing σ
  | .iri i => pad i
  | .literal l => literal l

/-- `fmt::Display for LocalTerm`, `term/local/mod.rs` 121-128, with
`fmt::Display for BlankIdBuf`, `blankid.rs` 264-269. -/
def displayLocalTerm : LexTerm Text Text → Writing σ
  | .anonymous b => pad b.str
  | .named t => displayTerm t

section statements

variable {S P O G : Type}

/-- `RdfDisplay for Quad`, `quad.rs` 338-358; also `fmt::Display`, 316-336, which has the
same body. -/
def quad (fs : S → Writing σ) (fp : P → Writing σ) (fo : O → Writing σ) (fg : G → Writing σ)
    (q : Quad S P O G) : Writing σ :=
  match q.g with
  | some g =>
    andThen (arg (fs q.s)) (andThen (write [' ']) (andThen (arg (fp q.p)) (andThen (write [' '])
      (andThen (arg (fo q.o)) (andThen (write [' ']) (arg (fg g)))))))
  | none =>
    andThen (arg (fs q.s)) (andThen (write [' ']) (andThen (arg (fp q.p)) (andThen (write [' '])
      (arg (fo q.o)))))

/-- `RdfDisplay for Triple`, `triple.rs` 200-210; also `fmt::Display`, 188-198, which has the
same body. -/
def triple (fs : S → Writing σ) (fp : P → Writing σ) (fo : O → Writing σ) (t : Triple S P O) : Writing σ :=
  andThen (arg (fs t.s)) (andThen (write [' ']) (andThen (arg (fp t.p)) (andThen (write [' '])
    (arg (fo t.o)))))

end statements

/-- `RdfDisplay for Quad`, `quad.rs` 338-358, of lexical terms. -/
abbrev lexQuad (q : Quad (LexTerm Text Text)) : Writing σ :=
  quad localTerm localTerm localTerm localTerm q

/-- `RdfDisplay for Triple`, `triple.rs` 200-210, of lexical terms. -/
abbrev lexTriple (t : Triple (LexTerm Text Text)) : Writing σ :=
  triple localTerm localTerm localTerm t

/-- `RdfDisplay` for the containers: `btree_dataset.rs` 446-454, `btree_graph.rs` 420-428,
`indexed_btree_dataset.rs` 1407-1415, `indexed_btree_graph.rs` 826-834. Simplification: the
iteration is run before the writes. -/
def container {S D : Type} (c : Container S D) (w : S → Writing σ) (d : D) : Res (Writing σ) := do
  let xs ← c.iter d
  return forEach (fun t => andThen (arg (w t)) (write [' ', '.', '\n'])) xs

end Formatting

end RdfTypes
