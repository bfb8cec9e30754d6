import Verif.Spec.Serde
import Verif.Spec.BlankId

/-!
# The documents of terms and statements

Which values of a self-describing format stand for which terms, statements and
collections of statements.
-/

namespace RdfTypes.Spec

variable {I L S P O G T X D : Type}

/-- A blank node label, without the dots that the crate rejects (C43). -/
inductive BlankDoc : Value → BlankIdBuf → Prop
  | label {s} : BlankNodeLabel s → '.' ∉ s → BlankDoc (.str s) ⟨s⟩

/-- `{"Any": "..."}` and `{"LangString": "..."}`. -/
inductive TypeDoc (n : Names I L) : Value → LiteralType I L → Prop
  | any {s i} : n.iri s = some i → TypeDoc n (.map [("Any".toList, .str s)]) (.any i)
  | langString {s t} : n.tag s = some t →
      TypeDoc n (.map [("LangString".toList, .str s)]) (.langString t)

/-- Exactly one field has the name `k`, and its value is `v`. -/
def HasField (k : Text) (v : Value) (fields : List (Text × Value)) : Prop :=
  ∃ pre post, fields = pre ++ (k, v) :: post ∧ ∀ f ∈ pre ++ post, f.1 ≠ k

/-- A map with the fields `value` and `type_`, whatever the others, or a pair. -/
inductive LiteralDoc (n : Names I L) : Value → Literal I L → Prop
  | map {fields s v t} : HasField "value".toList (.str s) fields → HasField "type_".toList v fields →
      TypeDoc n v t → LiteralDoc n (.map fields) ⟨s, t⟩
  | seq {s v t} : TypeDoc n v t → LiteralDoc n (.seq [.str s, v]) ⟨s, t⟩

inductive TermDoc (n : Names I L) : Value → Term I L → Prop
  | iri {s i} : n.iri s = some i → TermDoc n (.str s) (.iri i)
  | literal {v l} : LiteralDoc n v l → TermDoc n v (.literal l)

inductive LocalTermDoc (n : Names I L) : Value → LocalTerm BlankIdBuf I L → Prop
  | blank {v b} : BlankDoc v b → LocalTermDoc n v (.anonymous b)
  | term {v t} : TermDoc n v t → LocalTermDoc n v (.named t)

/-- Four elements, the last of which may be null. -/
inductive QuadDoc (ds : Value → S → Prop) (dp : Value → P → Prop) (do_ : Value → O → Prop)
    (dg : Value → G → Prop) : Value → Quad S P O G → Prop
  | default {v w u x y z} : ds v x → dp w y → do_ u z →
      QuadDoc ds dp do_ dg (.seq [v, w, u, .null]) ⟨x, y, z, none⟩
  | named {v w u g x y z a} : ds v x → dp w y → do_ u z → g ≠ .null → dg g a →
      QuadDoc ds dp do_ dg (.seq [v, w, u, g]) ⟨x, y, z, some a⟩

inductive TripleDoc (ds : Value → S → Prop) (dp : Value → P → Prop) (do_ : Value → O → Prop) :
    Value → Triple S P O → Prop
  | triple {v w u x y z} : ds v x → dp w y → do_ u z → TripleDoc ds dp do_ (.seq [v, w, u]) ⟨x, y, z⟩

/-- `{"Resource": ...}` and `{"Var": ...}`. -/
inductive ResourceOrVarDoc (d : Value → T → Prop) (dx : Value → X → Prop) :
    Value → ResourceOrVar T X → Prop
  | resource {v t} : d v t → ResourceOrVarDoc d dx (.map [("Resource".toList, v)]) (.resource t)
  | var {v x} : dx v x → ResourceOrVarDoc d dx (.map [("Var".toList, v)]) (.var x)

/-- The documents of a list, one for each element. -/
inductive Docs (doc : Value → S → Prop) : List Value → List S → Prop
  | nil : Docs doc [] []
  | cons {v x vs xs} : doc v x → Docs doc vs xs → Docs doc (v :: vs) (x :: xs)

/-- What is read, as what, and nothing else. -/
def ReadsExactly (read : Value → Option T) (doc : Value → T → Prop) : Prop :=
  ∀ v x, read v = some x ↔ doc v x

/-- The container is read from the documents that are sequences of documents of statements,
and then has these statements; any other document is refused. Nothing panics. -/
def ReadsStatements (c : Container S D) (read : Value → Option S) (doc : Value → S → Prop) : Prop :=
  ∀ v,
    (∀ vs xs, v = .seq vs → Docs doc vs xs →
      ∃ d, c.deserialize read v = .ok (some d) ∧
        ∀ x, ∃ b, c.contains d x = .ok b ∧ (b = true ↔ x ∈ xs)) ∧
    ((¬ ∃ vs xs, v = .seq vs ∧ Docs doc vs xs) → c.deserialize read v = .ok none)

end RdfTypes.Spec
