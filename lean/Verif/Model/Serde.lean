import Verif.Model.Container
import Verif.Model.TriplePattern
import Verif.Model.TermRef

/-!
# Serialisation

Model of the `serde` implementations of `/repo/src`. The derived ones are modelled as
the code that `serde_derive` generates, for a self-describing format whose values are
those of JSON: `None` is `null`, `Some(x)` is `x`, structures and newtype variants are
maps, tuple structures are sequences. The serialised form of a number or a boolean is
`Value.other`. The errors of a format are not distinguished: reading a value gives
`none` if the format reports an error.
-/

namespace RdfTypes

/-- A value of a self-describing format (serde): what the implementations derived in
`triple.rs` 13, `quad.rs` 15, `term/mod.rs` 20 and the like write and read. -/
inductive Value where
  | null
  | other (n : Nat)
  | str (s : Text)
  | seq (l : List Value)
  | map (l : List (Text × Value))

/-- How the crates `iref` and `langtag` write and read IRIs and language tags: as strings,
checked when read. Used by `term/mod.rs` 24 and `literal/type/mod.rs` 19-22. -/
structure Names (I L : Type) where
  iriText : I → Text
  iri : Text → Option I
  tagText : L → Text
  tag : Text → Option L

namespace Serde

variable {I L : Type} (n : Names I L)

/-- `Deserialize for String` (serde), used by `literal/mod.rs` 17-24 and `blankid.rs` 342. -/
def readText : Value → Option Text
  | .str s => some s
  | _ => none

/-- `Serialize for IriBuf` (crate `iref`), used by `term/mod.rs` 20-24. -/
def writeIri (i : I) : Value := .str (n.iriText i)

/-- `Deserialize for IriBuf` (crate `iref`), used by `term/mod.rs` 20-24. -/
def readIri (v : Value) : Option I := (readText v).bind n.iri

/-- `Serialize for LangTagBuf` (crate `langtag`), used by `literal/type/mod.rs` 16-22. -/
def writeTag (l : L) : Value := .str (n.tagText l)

/-- `Deserialize for LangTagBuf` (crate `langtag`), used by `literal/type/mod.rs` 16-22. -/
def readTag (v : Value) : Option L := (readText v).bind n.tag

/-- Derived `Serialize for BlankIdBuf`, transparent, `blankid.rs` 130. -/
def writeBlankId (b : BlankIdBuf) : Value := .str b.str

/-- `Deserialize for BlankIdBuf`, `blankid.rs` 337-377. -/
def readBlankId : Value → Option BlankIdBuf
  | .str s => (BlankIdBuf.new s).toOption
  | _ => none

/-- Derived `Serialize for LiteralType`, `literal/type/mod.rs` 16: externally tagged. -/
def writeLiteralType : LiteralType I L → Value
  | .any i => .map [("Any".toList, writeIri n i)]
  | .langString l => .map [("LangString".toList, writeTag n l)]

/-- Derived `Deserialize for LiteralType`, `literal/type/mod.rs` 16: a map with one
entry, the name of the variant. -/
def readLiteralType : Value → Option (LiteralType I L)
  | .map [(k, v)] =>
    if k = "Any".toList then (readIri n v).map .any
    else if k = "LangString".toList then (readTag n v).map .langString
    else none
  | _ => none

/-- Derived `Serialize for Literal`, `literal/mod.rs` 17. -/
def writeLiteral (l : Literal I L) : Value :=
  .map [("value".toList, .str l.value), ("type_".toList, writeLiteralType n l.type_)]

/-- `visit_map` of the derived `Deserialize for Literal`, `literal/mod.rs` 17-24: the fields
in any order, none twice, unknown ones ignored. -/
def readFields : List (Text × Value) → Option Text → Option (LiteralType I L) →
    Option (Literal I L)
  | [], some value, some type_ => some ⟨value, type_⟩
  | [], _, _ => none
  | (k, v) :: l, value, type_ =>
    if k = "value".toList then
      if value.isSome then none else (readText v).bind fun s => readFields l (some s) type_
    else if k = "type_".toList then
      if type_.isSome then none
      else (readLiteralType n v).bind fun t => readFields l value (some t)
    else readFields l value type_

/-- Derived `Deserialize for Literal`, `literal/mod.rs` 17: from a map, or from the
sequence of the fields. -/
def readLiteral : Value → Option (Literal I L)
  | .map l => readFields n l none none
  | .seq [v, t] => do
    let value ← readText v
    let type_ ← readLiteralType n t
    pure ⟨value, type_⟩
  | _ => none

/-- Derived `Serialize for Term`, untagged, `term/mod.rs` 20-21. -/
def writeTerm : Term I L → Value
  | .iri i => writeIri n i
  | .literal l => writeLiteral n l

/-- Derived `Deserialize for Term`, untagged, `term/mod.rs` 20-21: the variants in order. -/
def readTerm (v : Value) : Option (Term I L) :=
  match readIri n v with
  | some i => some (.iri i)
  | none =>
    match readLiteral n v with
    | some l => some (.literal l)
    | none => none

/-- Derived `Serialize for LocalTerm`, untagged, `term/local/mod.rs` 17-18. -/
def writeLocalTerm : LocalTerm BlankIdBuf I L → Value
  | .anonymous b => writeBlankId b
  | .named t => writeTerm n t

/-- Derived `Deserialize for LocalTerm`, untagged, `term/local/mod.rs` 17-18: the
variants in order. -/
def readLocalTerm (v : Value) : Option (LocalTerm BlankIdBuf I L) :=
  match readBlankId v with
  | some b => some (.anonymous b)
  | none =>
    match readTerm n v with
    | some t => some (.named t)
    | none => none

/-- Derived `Serialize for LiteralTypeRef`, `literal/type/ref.rs` 15. -/
def writeLiteralTypeRef : LiteralTypeRef I L → Value
  | .any i => .map [("Any".toList, writeIri n i)]
  | .langString l => .map [("LangString".toList, writeTag n l)]

/-- Derived `Serialize for LiteralRef`, `literal/ref.rs` 14. -/
def writeLiteralRef (l : LiteralRef I L) : Value :=
  .map [("value".toList, .str l.value), ("type_".toList, writeLiteralTypeRef n l.type_)]

/-- `Serialize for Cow` (serde), used by `literal/cow.rs` 10-13: that of its content, borrowed
or owned. -/
def writeCow {A B : Type} (a : A → Value) (b : B → Value) : Cow A B → Value
  | .borrowed x => a x
  | .owned x => b x

/-- Derived `Serialize for CowLiteralType`, `literal/type/cow.rs` 12. -/
def writeCowLiteralType : CowLiteralType I L → Value
  | .any i => .map [("Any".toList, writeCow (writeIri n) (writeIri n) i)]
  | .langString l => .map [("LangString".toList, writeCow (writeTag n) (writeTag n) l)]

/-- Derived `Serialize for CowLiteral`, `literal/cow.rs` 10. -/
def writeCowLiteral (l : CowLiteral I L) : Value :=
  .map [("value".toList, writeCow .str .str l.value), ("type_".toList, writeCowLiteralType n l.type_)]

variable {S P O G T X : Type}

/-- `Serialize for Option` (serde), used by `quad.rs` 15-16. -/
def writeOption (w : T → Value) : Option T → Value
  | none => .null
  | some x => w x

/-- `Deserialize for Option` (serde), used by `quad.rs` 15-16. -/
def readOption (r : Value → Option T) : Value → Option (Option T)
  | .null => some none
  | v => (r v).map some

/-- Derived `Serialize for Quad`, `quad.rs` 15. -/
def writeQuad (ws : S → Value) (wp : P → Value) (wo : O → Value) (wg : G → Value)
    (q : Quad S P O G) : Value := .seq [ws q.s, wp q.p, wo q.o, writeOption wg q.g]

/-- Derived `Deserialize for Quad`, `quad.rs` 15. -/
def readQuad (rs : Value → Option S) (rp : Value → Option P) (ro : Value → Option O)
    (rg : Value → Option G) : Value → Option (Quad S P O G)
  | .seq [s, p, o, g] => do
    let s ← rs s
    let p ← rp p
    let o ← ro o
    let g ← readOption rg g
    pure ⟨s, p, o, g⟩
  | _ => none

/-- Derived `Serialize for Triple`, `triple.rs` 13. -/
def writeTriple (ws : S → Value) (wp : P → Value) (wo : O → Value) (t : Triple S P O) : Value :=
  .seq [ws t.s, wp t.p, wo t.o]

/-- Derived `Deserialize for Triple`, `triple.rs` 13. -/
def readTriple (rs : Value → Option S) (rp : Value → Option P) (ro : Value → Option O) :
    Value → Option (Triple S P O)
  | .seq [s, p, o] => do
    let s ← rs s
    let p ← rp p
    let o ← ro o
    pure ⟨s, p, o⟩
  | _ => none

/-- Derived `Serialize for ResourceOrVar`, `pattern/resource_or_variable.rs` 3: externally
tagged. -/
def writeResourceOrVar (w : T → Value) (x : X → Value) : ResourceOrVar T X → Value
  | .resource t => .map [("Resource".toList, w t)]
  | .var y => .map [("Var".toList, x y)]

/-- Derived `Deserialize for ResourceOrVar`, `pattern/resource_or_variable.rs` 3. -/
def readResourceOrVar (r : Value → Option T) (x : Value → Option X) :
    Value → Option (ResourceOrVar T X)
  | .map [(k, v)] =>
    if k = "Resource".toList then (r v).map .resource
    else if k = "Var".toList then (x v).map .var
    else none
  | _ => none

end Serde

namespace Container

variable {S D : Type} (c : Container S D)

/-- `Serialize`: `btree_dataset.rs` 456-467, `btree_graph.rs` 430-441,
`indexed_btree_dataset.rs` 1417-1428, `indexed_btree_graph.rs` 836-847. The announced
number of elements, and the elements. The elements are borrowed statements, which
`serde` writes as it writes owned ones. -/
def serialize (write : S → Value) (d : D) : Res (Nat × List Value) := do
  let xs ← c.iter d
  pure (c.len d, xs.map write)

/-- The loop of `visit_seq`, `btree_dataset.rs` 488-490 and, for the others,
`indexed_btree_dataset.rs` 1451-1453, `btree_graph.rs` 462-464, `indexed_btree_graph.rs`
870-872. -/
def visitSeq (read : Value → Option S) (d : D) : List Value → Res (Option D)
  | [] => .ok (some d)
  | v :: l =>
    match read v with
    | none => .ok none
    | some x => do
      let (d', _) ← c.insert d x
      visitSeq read d' l

/-- `Deserialize`: `btree_dataset.rs` 470-498, `btree_graph.rs` 444-472,
`indexed_btree_dataset.rs` 1431-1461, `indexed_btree_graph.rs` 850-880. -/
def deserialize (read : Value → Option S) : Value → Res (Option D)
  | .seq l => visitSeq c read c.empty l
  | _ => .ok none

end Container

end RdfTypes
