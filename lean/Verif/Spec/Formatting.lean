import Verif.Model.Formatting

/-!
# What a display writes to a formatter with options

A display is a list of parts. Some are fixed; the others are padded and cut as the options of the
formatter ask.
-/

namespace RdfTypes.Spec.Formatted

open Formatting

/-- A text cut to the precision. -/
def cut (o : Options) (t : Text) : Text := t.take (o.precision.getD t.length)

/-- A text cut to the precision, then filled up to the width. -/
def shape (o : Options) (t : Text) : Text :=
  let kept := cut o t
  let missing := o.width.getD 0 - kept.length
  match o.align with
  | none | some .left => kept ++ List.replicate missing o.fill
  | some .right => List.replicate missing o.fill ++ kept
  | some .center =>
    List.replicate (missing / 2) o.fill ++ kept ++ List.replicate (missing - missing / 2) o.fill

/-- A part of a display. -/
inductive Part
  /-- A text that the options do not change. -/
  | fixed (t : Text)
  /-- A text that is padded and cut. -/
  | shaped (t : Text)

/-- The text of parts under options. -/
def text (o : Options) (ps : List Part) : Text :=
  ps.flatMap fun
    | .fixed t => t
    | .shaped t => shape o t

/-- The characters of a string that are escaped. -/
def escaped : Text := ['"', '\\', '\n', '\r']

/-- The parts of a quoted string: each character that is not escaped is shaped by itself. -/
def strParts (t : Text) : List Part :=
  .fixed ['"'] ::
    t.map (fun c => if c ∈ escaped then .fixed (Display.strChar c) else .shaped [c]) ++
    [.fixed ['"']]

/-- The parts of an IRI. -/
def iriParts (t : Text) : List Part :=
  .fixed ['<'] ::
    t.map (fun c => if Display.isEscapedInIri c then .fixed (Display.iriChar c) else .shaped [c]) ++
    [.fixed ['>']]

/-- The parts of a literal: a language tag is shaped as a whole. -/
def literalParts (l : Literal Text Text) : List Part :=
  strParts l.value ++
    match l.type_ with
    | .any ty => if ty = xsdString then [] else .fixed ['^', '^'] :: iriParts ty
    | .langString tag => [.fixed ['@'], .shaped tag]

/-- The parts of a term. -/
def termParts : LexTerm Text Text → List Part
  | .anonymous b => strParts b.str
  | .named (.iri i) => iriParts i
  | .named (.literal l) => literalParts l

/-- The parts of a term displayed by `fmt::Display`. -/
def plainParts : LexTerm Text Text → List Part
  | .anonymous b => [.shaped b.str]
  | .named (.iri i) => [.shaped i]
  | .named (.literal l) => literalParts l

/-- Writes made one after the other until one fails. -/
def writeAll {σ : Type} (write : Text → σ → σ × Bool) : List Text → σ → σ × Bool
  | [], s => (s, true)
  | t :: l, s =>
    if (write t s).2 then writeAll write l (write t s).1 else ((write t s).1, false)

/-- The display makes the same writes on every buffer until one fails, and together they write
the text. -/
def writes (w : ∀ σ, Writing σ) (o : Options) (t : Text) : Prop :=
  ∃ calls : List Text, calls.flatten = t ∧
    ∀ (σ : Type) (write : Text → σ → σ × Bool) (s : σ),
      w σ { options := o, writeStr := write } s = writeAll write calls s

/-- A buffer, and the writes made to it with their results. -/
def logged {σ : Type} (write : Text → σ → σ × Bool) (t : Text) (s : σ × List (Text × Bool)) :
    (σ × List (Text × Bool)) × Bool :=
  (((write t s.1).1, s.2 ++ [(t, (write t s.1).2)]), (write t s.1).2)

/-- Whatever the buffer, the display returns an error exactly when a write fails; the write that
fails is the last; what is written is the text up to there, and all of it if no write fails. -/
def stopsAtFailure (w : ∀ σ, Writing σ) (o : Options) (t : Text) : Prop :=
  ∀ (σ : Type) (write : Text → σ → σ × Bool) (s : σ),
    let r := w _ { options := o, writeStr := logged write } (s, [])
    let log := r.1.2
    (r.2 = true ↔ ∀ x ∈ log, x.2 = true) ∧
    (∀ x ∈ log.dropLast, x.2 = true) ∧
    (log.map Prod.fst).flatten <+: t ∧
    (r.2 = true → (log.map Prod.fst).flatten = t)

/-- The buffer `String`, which never fails. -/
def string (t : Text) (s : Text) : Text × Bool := (s ++ t, true)

/-- What a string is made into by options: the characters that are not escaped are shaped. -/
def reshaped (o : Options) (t : Text) : Text :=
  t.flatMap fun c => if c ∈ escaped then [c] else shape o [c]

end RdfTypes.Spec.Formatted
