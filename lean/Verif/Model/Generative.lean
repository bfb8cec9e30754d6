import Verif.Model.TermRef
import Verif.Model.Interpretation

/-!
# Interpretations, forward and generative

Model of the traits of `/repo/src/interpretation/mod.rs`, of their implementations in
`/repo/src/interpretation/impl/none.rs`, `/repo/src/interpretation/impl/with_generator.rs`
and `/repo/src/term/generator/interpretation.rs`, and of `/repo/src/interpretation/fallible.rs`.

A trait is the structure of its required methods; `σ` is the type of `self`. Methods with
`&mut self` return the new value of `self` and may panic. Simplifications: an iterator
over borrowed items is the list of its items, and methods with `&self` do not panic.
`TraversableInterpretation` has no implementation in the crate.
-/

namespace RdfTypes

variable {σ γ R I L : Type}

/-! ## Traits -/

/-- `Interpretation`, `interpretation/mod.rs` 17-23. -/
structure Interpretation (σ R I L : Type) where
  iri : σ → I → Option R
  literal : σ → LiteralRef I L → Option R

/-- `Interpretation::term`, `interpretation/mod.rs` 24-29. -/
def Interpretation.term (m : Interpretation σ R I L) (s : σ) : TermRef I L → Option R
  | .iri i => m.iri s i
  | .literal l => m.literal s l

/-- `InterpretationMut`, `interpretation/mod.rs` 60-63. -/
structure InterpretationMut (σ R I L : Type) extends Interpretation σ R I L where
  insertIri : σ → Cow I I → Res (R × σ)
  insertLiteral : σ → CowLiteral I L → Res (R × σ)

/-- `InterpretationMut::insert_term`, `interpretation/mod.rs` 65-70. -/
def InterpretationMut.insertTerm (m : InterpretationMut σ R I L) (s : σ) :
    CowTerm I L → Res (R × σ)
  | .iri i => m.insertIri s i
  | .literal l => m.insertLiteral s l

/-- `ReverseInterpretation`, `interpretation/mod.rs` 74-84, with its items as they are borrowed.
`contents` relates
it to the structure of the same name, whose items are owned. -/
structure ReverseLookup (σ R I L : Type) where
  irisOf : σ → R → List (Cow I I)
  literalsOf : σ → R → List (CowLiteral I L)

/-- The same with owned items: `Cow::into_owned` (std) and `CowLiteral::into_owned`,
`literal/cow.rs` 31-33. -/
def ReverseLookup.contents (m : ReverseLookup σ R I L) (s : σ) : ReverseInterpretation R I L where
  irisOf r := (m.irisOf s r).map Cow.get
  literalsOf r := (m.literalsOf s r).map CowLiteral.intoOwned

/-- `TermsOf`, `interpretation/mod.rs` 98-101. -/
structure TermsOf (I L : Type) where
  iris : List (Cow I I)
  literals : List (CowLiteral I L)

/-- `Iterator::next` on a list of remaining items, as called in `interpretation/mod.rs` 108, 110,
175 and 177. -/
def nextOf {A : Type} : List A → Option A × List A
  | [] => (none, [])
  | a :: l => (some a, l)

/-- `TermsOf::next`, `interpretation/mod.rs` 106-111. -/
def TermsOf.next (t : TermsOf I L) : Option (CowTerm I L) × TermsOf I L :=
  match nextOf t.iris with
  | (some i, iris) => (some (.iri i), { t with iris })
  | (none, iris) =>
    match nextOf t.literals with
    | (some l, literals) => (some (.literal l), { iris, literals })
    | (none, literals) => (none, { iris, literals })

/-- `ReverseInterpretation::terms_of`, `interpretation/mod.rs` 86-91. -/
def ReverseLookup.termsOf (m : ReverseLookup σ R I L) (s : σ) (r : R) : TermsOf I L :=
  ⟨m.irisOf s r, m.literalsOf s r⟩

/-- `ReverseInterpretation::is_anonymous`, `interpretation/mod.rs` 93-95. -/
def ReverseLookup.isAnonymous (m : ReverseLookup σ R I L) (s : σ) (r : R) : Bool :=
  (m.termsOf s r).next.1.isNone

/-- `LocalInterpretation`, `interpretation/mod.rs` 114-115. -/
structure LocalInterpretation (σ R I L : Type) extends Interpretation σ R I L where
  blankId : σ → BlankId → Option R

namespace LocalInterpretation

/-- `local_term`, `interpretation/mod.rs` 117-122. -/
def localTerm (m : LocalInterpretation σ R I L) (s : σ) : LocalTermRef I L → Option R
  | .anonymous b => m.blankId s b
  | .named t => m.term s t

/-- `id`, `interpretation/mod.rs` 124-129. -/
def id (m : LocalInterpretation σ R I L) (s : σ) : IdRef I → Option R
  | .blankId b => m.blankId s b
  | .iri i => m.iri s i

end LocalInterpretation

/-- `LocalInterpretationMut`, `interpretation/mod.rs` 132-133. -/
structure LocalInterpretationMut (σ R I L : Type) extends InterpretationMut σ R I L where
  insertBlankId : σ → Cow BlankId BlankIdBuf → Res (R × σ)

namespace LocalInterpretationMut

/-- `insert_local_term`, `interpretation/mod.rs` 135-140. -/
def insertLocalTerm (m : LocalInterpretationMut σ R I L) (s : σ) : CowLocalTerm I L → Res (R × σ)
  | .anonymous b => m.insertBlankId s b
  | .named t => m.insertTerm s t

/-- `insert_id`, `interpretation/mod.rs` 142-147. -/
def insertId (m : LocalInterpretationMut σ R I L) (s : σ) : CowId I → Res (R × σ)
  | .blankId b => m.insertBlankId s b
  | .iri i => m.insertIri s i

end LocalInterpretationMut

/-- `ReverseLocalInterpretation`, `interpretation/mod.rs` 150-155. -/
structure ReverseLocalLookup (σ R I L : Type) extends ReverseLookup σ R I L where
  blankIdsOf : σ → R → List (Cow BlankId BlankIdBuf)

/-- `LocalTermsOf`, `interpretation/mod.rs` 165-168. -/
structure LocalTermsOf (I L : Type) where
  terms : TermsOf I L
  blankIds : List (Cow BlankId BlankIdBuf)

/-- `LocalTermsOf::next`, `interpretation/mod.rs` 173-178. -/
def LocalTermsOf.next (t : LocalTermsOf I L) : Option (CowLocalTerm I L) × LocalTermsOf I L :=
  match t.terms.next with
  | (some x, terms) => (some (.named x), { t with terms })
  | (none, terms) =>
    match nextOf t.blankIds with
    | (some b, blankIds) => (some (.anonymous b), { terms, blankIds })
    | (none, blankIds) => (none, { terms, blankIds })

/-- `local_terms_of`, `interpretation/mod.rs` 157-162. -/
def ReverseLocalLookup.localTermsOf (m : ReverseLocalLookup σ R I L) (s : σ) (r : R) :
    LocalTermsOf I L :=
  ⟨m.termsOf s r, m.blankIdsOf s r⟩

/-- `Generator` and `LocalGenerator`, `term/generator/mod.rs` 13-32, with `T` the type of
terms: each call gives a term and the new state. The implementations for `&mut G` forward. -/
abbrev Generator (γ T : Type) := γ → Res (T × γ)

/-! ## The unit interpretation -/

/-- `impl Interpretation for ()` and `impl InterpretationMut for ()`,
`interpretation/impl/none.rs` 10-30. -/
def unitInterpretation (I L : Type) : InterpretationMut Unit (LexTerm I L) I L where
  iri _ i := some (.ofIri i)
  literal _ l := some (.ofLiteral l.toOwned)
  insertIri s i := .ok (.ofIri i.get, s)
  insertLiteral s l := .ok (.ofLiteral l.intoOwned, s)

/-- `impl ReverseInterpretation for ()`, `interpretation/impl/none.rs` 32-49. -/
def unitLookup (I L : Type) : ReverseLookup Unit (LexTerm I L) I L where
  irisOf _
    | .named (.iri i) => [.borrowed i]
    | _ => []
  literalsOf _
    | .named (.literal l) => [l.asCow]
    | _ => []

/-! ## Generators attached to an interpretation -/

/-- `WithGenerator`, `interpretation/impl/with_generator.rs` 33-36; also
`WithLocalGenerator`, 123-126. -/
structure WithGenerator (γ σ : Type) where
  interpretation : σ
  generator : γ

namespace WithGenerator

/-- `new`, `with_generator.rs` 39-44; also 129-134. -/
def new (i : σ) (g : γ) : WithGenerator γ σ := ⟨i, g⟩

/-- `into_parts`, `with_generator.rs` 46-48; also 136-138. -/
def intoParts (s : WithGenerator γ σ) : σ × γ := (s.interpretation, s.generator)

/-- `Interpretation` and `InterpretationMut`, `with_generator.rs` 75-95. -/
def interpretationMut (m : InterpretationMut σ R I L) :
    InterpretationMut (WithGenerator γ σ) R I L where
  iri s i := m.iri s.interpretation i
  literal s l := m.literal s.interpretation l
  insertIri s i := do
    let (r, interpretation) ← m.insertIri s.interpretation i
    .ok (r, { s with interpretation })
  insertLiteral s l := do
    let (r, interpretation) ← m.insertLiteral s.interpretation l
    .ok (r, { s with interpretation })

/-- `ReverseInterpretation`, `with_generator.rs` 97-114. -/
def lookup (m : ReverseLookup σ R I L) : ReverseLookup (WithGenerator γ σ) R I L where
  irisOf s r := m.irisOf s.interpretation r
  literalsOf s r := m.literalsOf s.interpretation r

/-- `GenerativeInterpretation::new_resource`, `with_generator.rs` 116-121. The term becomes a
`CowTerm` by
`From<Term>`. -/
def newResource (m : InterpretationMut σ R I L) (next : Generator γ (Term I L))
    (s : WithGenerator γ σ) : Res (R × WithGenerator γ σ) := do
  let (term, generator) ← next s.generator
  let (r, interpretation) ← m.insertTerm s.interpretation term.intoCow
  .ok (r, { interpretation, generator })

end WithGenerator

namespace WithLocalGenerator

/-- `Interpretation` and `LocalInterpretation`, `with_generator.rs` 165-181. -/
def localInterpretation (m : LocalInterpretation σ R I L) :
    LocalInterpretation (WithGenerator γ σ) R I L where
  iri s i := m.iri s.interpretation i
  literal s l := m.literal s.interpretation l
  blankId s b := m.blankId s.interpretation b

/-- `Interpretation`, `InterpretationMut` and `LocalInterpretationMut`, `with_generator.rs` 165-175
and 183-197. -/
def localInterpretationMut (m : LocalInterpretationMut σ R I L) :
    LocalInterpretationMut (WithGenerator γ σ) R I L where
  iri s i := m.iri s.interpretation i
  literal s l := m.literal s.interpretation l
  insertIri s i := do
    let (r, interpretation) ← m.insertIri s.interpretation i
    .ok (r, { s with interpretation })
  insertLiteral s l := do
    let (r, interpretation) ← m.insertLiteral s.interpretation l
    .ok (r, { s with interpretation })
  insertBlankId s b := do
    let (r, interpretation) ← m.insertBlankId s.interpretation b
    .ok (r, { s with interpretation })

/-- `ReverseInterpretation` and `ReverseLocalInterpretation`, `with_generator.rs` 199-227. -/
def lookup (m : ReverseLocalLookup σ R I L) : ReverseLocalLookup (WithGenerator γ σ) R I L where
  irisOf s r := m.irisOf s.interpretation r
  literalsOf s r := m.literalsOf s.interpretation r
  blankIdsOf s r := m.blankIdsOf s.interpretation r

/-- `GenerativeInterpretation::new_resource`, `with_generator.rs` 229-236. The term becomes a
`CowLocalTerm` by
`From<LocalTerm>`. -/
def newResource (m : LocalInterpretationMut σ R I L) (next : Generator γ (LexTerm I L))
    (s : WithGenerator γ σ) : Res (R × WithGenerator γ σ) := do
  let (term, generator) ← next s.generator
  let (r, interpretation) ← m.insertLocalTerm s.interpretation term.intoCow
  .ok (r, { interpretation, generator })

end WithLocalGenerator

/-! ## A generator as an interpretation -/

/-- `LocalGeneratorInterpretation`, `term/generator/interpretation.rs` 15. Simplification:
the cell is its content. `new_resource` is the only method that borrows it, and the borrow
ends with the call, so that `borrow_mut` does not panic. -/
structure LocalGeneratorInterpretation (γ : Type) where
  generator : γ

namespace LocalGeneratorInterpretation

/-- `Interpretation` and `LocalInterpretation`, `interpretation.rs` 27-43. -/
def localInterpretation (γ I L : Type) :
    LocalInterpretation (LocalGeneratorInterpretation γ) (LexTerm I L) I L where
  iri _ i := some (.ofIri i)
  literal _ l := some (.ofLiteral l.toOwned)
  blankId _ b := some (.ofBlankId b.toOwned)

/-- `Interpretation` and `InterpretationMut`, `interpretation.rs` 27-37 and 45-53. -/
def interpretationMut (γ I L : Type) :
    InterpretationMut (LocalGeneratorInterpretation γ) (LexTerm I L) I L where
  iri _ i := some (.ofIri i)
  literal _ l := some (.ofLiteral l.toOwned)
  insertIri s i := .ok (.ofIri i.get, s)
  insertLiteral s l := .ok (.ofLiteral l.intoOwned, s)

/-- `ReverseInterpretation` and `ReverseLocalInterpretation`, `interpretation.rs` 55-83. -/
def lookup (γ I L : Type) :
    ReverseLocalLookup (LocalGeneratorInterpretation γ) (LexTerm I L) I L where
  irisOf _ r := (r.asIri.map Cow.borrowed).toList
  literalsOf _ r := (r.asLiteral.map LiteralRef.intoCow).toList
  blankIdsOf _ r := (r.asAnonymous.map Cow.borrowed).toList

/-- `ConstGenerativeInterpretation::new_resource`, 85-90; also
`GenerativeInterpretation::new_resource` by `interpretation/mod.rs` 53-57. -/
def newResource (next : Generator γ (LexTerm I L)) (s : LocalGeneratorInterpretation γ) :
    Res (LexTerm I L × LocalGeneratorInterpretation γ) := do
  let (term, generator) ← next s.generator
  .ok (term, { generator })

end LocalGeneratorInterpretation

end RdfTypes
