import Verif.Proof.Concrete
import Verif.Spec.Serde
import Verif.Property.Sets
import Verif.Property.BlankId
import Verif.Proof.TermRef

/-!
# C56: serialisation
-/

set_option linter.unusedSectionVars false

namespace RdfTypes.Property

open Spec Serde

variable {R : Type} [Ord R] [Std.TransOrd R] [Std.LawfulEqOrd R]
variable {I L S P O G T X D : Type}

/-! ## Terms -/

private theorem read_iri {n : Names I L} (hn : WellNamed n) (i : I) :
    readIri n (writeIri n i) = some i := by simp [readIri, writeIri, readText, hn.iri]

private theorem read_tag {n : Names I L} (hn : WellNamed n) (l : L) :
    readTag n (writeTag n l) = some l := by simp [readTag, writeTag, readText, hn.tag]

private theorem read_literal_type {n : Names I L} (hn : WellNamed n) (t : LiteralType I L) :
    readLiteralType n (writeLiteralType n t) = some t := by
  cases t with
  | any i => simp [readLiteralType, writeLiteralType, read_iri hn]
  | langString l => simp [readLiteralType, writeLiteralType, read_tag hn]

/-- C56, literals: a literal is read back, whatever the order of its fields, from the
sequence of its fields too, and fields of other names are ignored. -/
theorem C56_literals {n : Names I L} (hn : WellNamed n) (l : Literal I L) :
    readLiteral n (writeLiteral n l) = some l ∧
    readLiteral n (.seq [.str l.value, writeLiteralType n l.type_]) = some l ∧
    ∀ pre mid post : List (Text × Value),
      (∀ f ∈ pre ++ mid ++ post, f.1 ≠ "value".toList ∧ f.1 ≠ "type_".toList) →
      readLiteral n (.map (pre ++ ("type_".toList, writeLiteralType n l.type_) :: mid ++
        ("value".toList, .str l.value) :: post)) = some l := by
  have skip : ∀ (fs more : List (Text × Value)) v t,
      (∀ f ∈ fs, f.1 ≠ "value".toList ∧ f.1 ≠ "type_".toList) →
      readFields n (fs ++ more) v t = readFields n more v t := by
    intro fs
    induction fs with
    | nil => intros; rfl
    | cons f fs ih =>
      intro more v t h
      have h0 := h f (by simp)
      have h1 := ih more v t (fun g hg => h g (by simp [hg]))
      rw [List.cons_append, readFields, if_neg h0.1, if_neg h0.2]
      exact h1
  refine ⟨?_, ?_, ?_⟩
  · simp [readLiteral, writeLiteral, readFields, readText, read_literal_type hn]
  · simp [readLiteral, readText, read_literal_type hn]
  · intro pre mid post h
    have hp := skip post [] (some l.value) (some l.type_) (fun f hf => h f (by simp [hf]))
    rw [List.append_nil] at hp
    rw [readLiteral, List.append_assoc, skip pre _ _ _ (fun f hf => h f (by simp [hf])),
      List.cons_append, readFields]
    rw [if_neg (by decide), if_pos rfl]
    simp only [Option.isSome_none, Bool.false_eq_true, if_false, read_literal_type hn,
      Option.bind_some]
    rw [skip mid _ _ _ (fun f hf => h f (by simp [hf])), readFields, if_pos rfl]
    simp only [Option.isSome_none, Bool.false_eq_true, if_false, readText, Option.bind_some]
    rw [hp]
    rfl

/-- C56, terms: they are read back. -/
theorem C56_terms {n : Names I L} (hn : WellNamed n) (t : Term I L) :
    Faithful (writeTerm n) (readTerm n) t := by
  cases t with
  | iri i => exact ⟨by simp [writeTerm, readTerm, read_iri hn], by simp [writeTerm, writeIri]⟩
  | literal l =>
    refine ⟨?_, by simp [writeTerm, writeLiteral]⟩
    have h : readIri n (writeLiteral n l) = none := by simp [readIri, writeLiteral, readText]
    simp [writeTerm, readTerm, h, (C56_literals hn l).1]

/-- What a string is read as, if anything: a blank node if `BlankIdBuf::new` accepts
it, an IRI if it is one, and no string is both. -/
theorem C56_strings {n : Names I L} (hn : WellNamed n) (s : Text) :
    (∀ b, readLocalTerm n (.str s) = some (.anonymous b) ↔
      b.str = s ∧ BlankNodeLabel s ∧ '.' ∉ s) ∧
    (∀ i, readLocalTerm n (.str s) = some (.named (.iri i)) ↔ n.iri s = some i) ∧
    (∀ l, readLocalTerm n (.str s) ≠ some (.named (.literal l))) := by
  have hlab := BlankId.check_iff_label s
  have hno : BlankId.check s = true → n.iri s = none := by
    intro h
    cases hi : n.iri s with
    | none => rfl
    | some i =>
      obtain ⟨c, rest, e, hc⟩ := hn.scheme s i hi
      subst e
      unfold BlankId.check at h
      split at h
      · rename_i e
        cases e
        exact absurd hc (by decide)
      · cases h
  by_cases h : BlankId.check s = true
  · have hi := hno h
    have hr : readLocalTerm n (.str s) = some (.anonymous ⟨s⟩) := by
      simp [readLocalTerm, readBlankId, BlankIdBuf.new, h, Except.toOption]
    rw [hr]
    refine ⟨fun b => ?_, fun i => by simp [hi], fun l => by simp⟩
    cases b
    simp [← hlab, h, eq_comm]
  · have hr : readBlankId (.str s) = none := by
      simp [readBlankId, BlankIdBuf.new, h, Except.toOption]
    have hl : readLiteral n (.str s) = none := rfl
    cases hi : n.iri s with
    | none =>
      have ht : readTerm n (.str s) = none := by simp [readTerm, readIri, readText, hi, hl]
      refine ⟨fun b => ?_, fun i => ?_, fun l => ?_⟩
      · simp [readLocalTerm, hr, ht, ← hlab, h]
      · simp [readLocalTerm, hr, ht]
      · simp [readLocalTerm, hr, ht]
    | some j =>
      have ht : readTerm n (.str s) = some (.iri j) := by simp [readTerm, readIri, readText, hi]
      refine ⟨fun b => ?_, fun i => ?_, fun l => ?_⟩
      · simp [readLocalTerm, hr, ht, ← hlab, h]
      · simp [readLocalTerm, hr, ht]
      · simp [readLocalTerm, hr, ht]

/-- The labels that `BlankIdBuf::new` accepts. -/
def Labelled : LocalTerm BlankIdBuf I L → Prop
  | .anonymous b => BlankNodeLabel b.str ∧ '.' ∉ b.str
  | .named _ => True

/-- C56, local terms: they are read back, if their labels are among those the crate
accepts. -/
theorem C56_local_terms {n : Names I L} (hn : WellNamed n) (t : LocalTerm BlankIdBuf I L)
    (ht : Labelled t) : Faithful (writeLocalTerm n) (readLocalTerm n) t := by
  cases t with
  | anonymous b =>
    exact ⟨((C56_strings hn b.str).1 b).2 ⟨rfl, ht⟩, by simp [writeLocalTerm, writeBlankId]⟩
  | named t =>
    refine ⟨?_, (C56_terms hn t).2⟩
    cases t with
    | iri i => exact ((C56_strings hn (n.iriText i)).2.1 i).2 (hn.iri i)
    | literal l =>
      have := (C56_terms hn (.literal l)).1
      simp only [writeLocalTerm, readLocalTerm]
      rw [this]
      simp [writeTerm, writeLiteral, readBlankId]

/-- C56, the other labels: a blank node made without check, be its label invalid (as a
generator with an invalid prefix makes it) or valid with a dot, is written but cannot
be read. -/
theorem C56_unchecked {n : Names I L} (hn : WellNamed n) (b : BlankIdBuf)
    (hb : ¬ (BlankNodeLabel b.str ∧ '.' ∉ b.str)) (hs : ∃ rest, b.str = '_' :: rest) :
    readLocalTerm n (writeLocalTerm n (.anonymous b)) = none := by
  have h := C56_strings hn b.str
  show readLocalTerm n (.str b.str) = none
  cases e : readLocalTerm n (.str b.str) with
  | none => rfl
  | some t =>
    exfalso
    cases t with
    | anonymous b' =>
      have := (h.1 b').1 e
      exact hb this.2
    | named t =>
      cases t with
      | iri i =>
        obtain ⟨c, rest, e1, e2⟩ := hn.scheme _ _ ((h.2.1 i).1 e)
        obtain ⟨rest', e3⟩ := hs
        rw [e1] at e3
        cases e3
        exact absurd e2 (by decide)
      | literal l => exact h.2.2 l e

/-- C56, borrowed literals are written as owned ones. -/
theorem C56_borrowed (n : Names I L) (l : Literal I L) (c : CowLiteral I L) :
    writeLiteralRef n l.asRef = writeLiteral n l ∧
    writeCowLiteral n c = writeLiteralRef n c.asRef := by
  refine ⟨?_, ?_⟩
  · obtain ⟨v, t⟩ := l
    cases t <;> rfl
  · obtain ⟨v, t⟩ := c
    cases v <;> cases t with
    | any i => cases i <;> rfl
    | langString i => cases i <;> rfl

/-! ## Statements and patterns -/

/-- C56, quads. -/
theorem C56_quads {ws : S → Value} {rs : Value → Option S} {wp : P → Value}
    {rp : Value → Option P} {wo : O → Value} {ro : Value → Option O} {wg : G → Value}
    {rg : Value → Option G} (q : Quad S P O G) (hs : Faithful ws rs q.s) (hp : Faithful wp rp q.p)
    (ho : Faithful wo ro q.o) (hg : ∀ g, q.g = some g → Faithful wg rg g) :
    Faithful (writeQuad ws wp wo wg) (readQuad rs rp ro rg) q := by
  refine ⟨?_, by simp [writeQuad]⟩
  obtain ⟨s, p, o, g⟩ := q
  have hg' : readOption rg (writeOption wg g) = some g := by
    cases g with
    | none => rfl
    | some g =>
      have h := hg g rfl
      have h2 := h.2
      have h1 := h.1
      simp only [writeOption]
      revert h1 h2
      cases wg g <;> intro h1 h2
      · exact absurd rfl h1
      all_goals
        unfold readOption
        split
        · rename_i e
          cases e
        · rw [h2]
          rfl
  have h1 := hs.1
  have h2 := hp.1
  have h3 := ho.1
  simp only at h1 h2 h3
  simp [readQuad, writeQuad, h1, h2, h3, hg']

/-- C56, triples. -/
theorem C56_triples {ws : S → Value} {rs : Value → Option S} {wp : P → Value}
    {rp : Value → Option P} {wo : O → Value} {ro : Value → Option O} (t : Triple S P O)
    (hs : Faithful ws rs t.s) (hp : Faithful wp rp t.p) (ho : Faithful wo ro t.o) :
    Faithful (writeTriple ws wp wo) (readTriple rs rp ro) t := by
  refine ⟨?_, by simp [writeTriple]⟩
  have h1 := hs.1
  have h2 := hp.1
  have h3 := ho.1
  simp [readTriple, writeTriple, h1, h2, h3]

/-- C56, resources or variables. -/
theorem C56_resource_or_var {w : T → Value} {r : Value → Option T} {wx : X → Value}
    {rx : Value → Option X} (x : ResourceOrVar T X) (ht : ∀ t, x = .resource t → Faithful w r t)
    (hx : ∀ y, x = .var y → Faithful wx rx y) :
    Faithful (writeResourceOrVar w wx) (readResourceOrVar r rx) x := by
  cases x with
  | resource t =>
    exact ⟨by simp [writeResourceOrVar, readResourceOrVar, (ht t rfl).1],
      by simp [writeResourceOrVar]⟩
  | var y =>
    exact ⟨by simp [writeResourceOrVar, readResourceOrVar, (hx y rfl).1],
      by simp [writeResourceOrVar]⟩

/-! ## Containers -/

private theorem visitSeq_ok (c : Container S D) (read : Value → Option S) :
    ∀ (vs : List Value) (xs : List S) (d : D), vs.map read = xs.map some →
      c.visitSeq read d vs = (c.extend d xs).map some := by
  intro vs
  induction vs with
  | nil =>
    intro xs d h
    cases xs with
    | nil => rfl
    | cons x xs => simp at h
  | cons v vs ih =>
    intro xs d h
    cases xs with
    | nil => simp at h
    | cons x xs =>
      simp only [List.map_cons, List.cons.injEq] at h
      simp only [Container.visitSeq, h.1, Container.extend, bind, Except.bind]
      cases e : c.insert d x with
      | error p => rfl
      | ok r => exact ih xs r.1 h.2

private theorem visitSeq_none {c : Container S D} (read : Value → Option S)
    (total : ∀ l, ∃ d, c.fromIter l = .ok d) :
    ∀ vs : List Value, (∃ v ∈ vs, read v = none) → c.deserialize read (.seq vs) = .ok none := by
  intro vs h
  have key : ∀ (vs : List Value) (pre : List S) (d : D), c.fromIter pre = .ok d →
      (∃ v ∈ vs, read v = none) → c.visitSeq read d vs = .ok none := by
    intro vs
    induction vs with
    | nil => rintro pre d hd ⟨v, hv, -⟩; cases hv
    | cons v vs ih =>
      rintro pre d hd ⟨w, hw, e⟩
      rw [Container.visitSeq]
      cases hr : read v with
      | none => rfl
      | some x =>
        have hap : ∀ (pre : List S) (d0 d : D), c.extend d0 pre = .ok d →
            c.extend d0 (pre ++ [x]) = (c.insert d x).map (·.1) := by
          intro pre
          induction pre with
          | nil =>
            intro d0 d h
            cases h
            simp only [List.nil_append, Container.extend, bind, Except.bind]
            cases c.insert d0 x <;> rfl
          | cons y pre ih2 =>
            intro d0 d h
            simp only [List.cons_append, Container.extend, bind, Except.bind] at h ⊢
            cases e : c.insert d0 y with
            | error p => rw [e] at h; cases h
            | ok r => rw [e] at h; exact ih2 r.1 d h
        obtain ⟨d2, h2⟩ := total (pre ++ [x])
        have h3 := hap pre _ d hd
        rw [Container.fromIter] at h2
        rw [h2] at h3
        simp only [bind, Except.bind]
        cases e2 : c.insert d x with
        | error p => rw [e2] at h3; cases h3
        | ok r =>
          rw [e2] at h3
          cases h3
          refine ih (pre ++ [x]) r.1 h2 ⟨w, ?_, e⟩
          cases hw with
          | head => rw [e] at hr; cases hr
          | tail _ hw => exact hw
  exact key vs [] c.empty rfl h

private theorem serialises {S D : Type} [Ord S] {c : Container S D}
    {Reach : D → (S → Prop) → Prop} (hi : Iterates c Reach) (hc : Counts c Reach)
    (hf : Collects c Reach) : Serialises c Reach := by
  intro write read
  refine ⟨?_, ?_, ?_, ?_⟩
  · intro e he d A hd hA
    obtain ⟨xs, hx, hl⟩ := hi d A hd
    obtain ⟨xs', hx', hlen, -⟩ := hc d A hd
    obtain ⟨xs2, ys, d1, d2, h1, -, h2, h3, -⟩ := hf.2.2.1 e he d A hd
    rw [hx] at hx' h1
    cases hx'
    cases h1
    refine ⟨xs, d1, hl, ?_, ?_, h3⟩
    · simp [Container.serialize, hx, hlen, bind, Except.bind, pure, Except.pure]
    · rw [Container.deserialize, visitSeq_ok c read _ xs, ← Container.fromIter, h2]
      · rfl
      · rw [List.map_map]
        refine List.map_congr_left fun x hx => ?_
        exact hA x ((hl.exact x).1 hx)
  · intro vs xs h
    obtain ⟨d, h1, h2⟩ := hf.1 xs
    refine ⟨d, ?_, h2⟩
    rw [Container.deserialize, visitSeq_ok c read vs xs _ h, ← Container.fromIter, h1]
    rfl
  · exact visitSeq_none read fun l => (hf.1 l).imp fun _ h => h.1
  · intro v hv
    cases v with
    | seq vs => exact absurd rfl (hv vs)
    | _ => rfl

/-- C56, containers. -/
theorem C56_containers (rep : Bool) :
    AllFour (R := R) rep (fun c Reach => Serialises c Reach) := by
  obtain ⟨i1, i2, i3, i4⟩ := C06_iteration (R := R) rep
  obtain ⟨c1, c2, c3, c4⟩ := C07_len (R := R) rep
  obtain ⟨f1, f2, f3, f4⟩ := C11_collect (R := R) rep
  exact ⟨serialises i1 c1 f1, serialises i2 c2 f2, serialises i3 c3 f3, serialises i4 c4 f4⟩

/-- C56, datasets and graphs of lexical terms: written and read, they are equal to what
they were, if their labels are among those the crate accepts. -/
theorem C56_lexical [Ord I] [Ord L] [Std.TransOrd I] [Std.TransOrd L] [Std.LawfulEqOrd I]
    [Std.LawfulEqOrd L]
    {n : Names I L} (hn : WellNamed n) (rep : Bool)
    (A : Quad (LocalTerm BlankIdBuf I L) → Prop) (B : Triple (LocalTerm BlankIdBuf I L) → Prop)
    (hA : ∀ q, A q → Labelled q.s ∧ Labelled q.p ∧ Labelled q.o ∧ ∀ g, q.g = some g → Labelled g)
    (hB : ∀ t, B t → Labelled t.s ∧ Labelled t.p ∧ Labelled t.o) :
    let w := writeLocalTerm n
    let r := readLocalTerm n
    let wq := writeQuad w w w w
    let rq := readQuad r r r r
    let wt := writeTriple w w w
    let rt := readTriple r r r
    (∀ (e : Quad (LocalTerm BlankIdBuf I L) → Quad (LocalTerm BlankIdBuf I L) → Bool),
      (∀ x y, e x y = true ↔ x = y) →
      (∀ d, DatasetHistory rep d A → ∃ k vs d', (BTreeDataset.container rep _).serialize wq d = .ok (k, vs) ∧
        (BTreeDataset.container rep _).deserialize rq (.seq vs) = .ok (some d') ∧
        (BTreeDataset.container rep _).eq (BTreeDataset.container rep _) e d' d = .ok true) ∧
      (∀ d, IndexedDatasetHistory rep d A → ∃ k vs d',
        (IndexedBTreeDataset.container rep _).serialize wq d = .ok (k, vs) ∧
        (IndexedBTreeDataset.container rep _).deserialize rq (.seq vs) = .ok (some d') ∧
        (IndexedBTreeDataset.container rep _).eq (IndexedBTreeDataset.container rep _) e d' d = .ok true)) ∧
    (∀ (e : Triple (LocalTerm BlankIdBuf I L) → Triple (LocalTerm BlankIdBuf I L) → Bool),
      (∀ x y, e x y = true ↔ x = y) →
      (∀ d, GraphHistory rep d B → ∃ k vs d', (BTreeGraph.container rep _).serialize wt d = .ok (k, vs) ∧
        (BTreeGraph.container rep _).deserialize rt (.seq vs) = .ok (some d') ∧
        (BTreeGraph.container rep _).eq (BTreeGraph.container rep _) e d' d = .ok true) ∧
      (∀ d, IndexedGraphHistory rep d B → ∃ k vs d',
        (IndexedBTreeGraph.container rep _).serialize wt d = .ok (k, vs) ∧
        (IndexedBTreeGraph.container rep _).deserialize rt (.seq vs) = .ok (some d') ∧
        (IndexedBTreeGraph.container rep _).eq (IndexedBTreeGraph.container rep _) e d' d = .ok true)) := by
  intro w r wq rq wt rt
  obtain ⟨k1, k2, k3, k4⟩ := C56_containers (R := LocalTerm BlankIdBuf I L) rep
  have hq : ∀ q, A q → rq (wq q) = some q := by
    intro q h
    obtain ⟨h1, h2, h3, h4⟩ := hA q h
    exact (C56_quads q (C56_local_terms hn _ h1) (C56_local_terms hn _ h2)
      (C56_local_terms hn _ h3) fun g hg => C56_local_terms hn _ (h4 g hg)).1
  have ht : ∀ t, B t → rt (wt t) = some t := by
    intro t h
    obtain ⟨h1, h2, h3⟩ := hB t h
    exact (C56_triples t (C56_local_terms hn _ h1) (C56_local_terms hn _ h2)
      (C56_local_terms hn _ h3)).1
  refine ⟨fun e he => ⟨fun d hd => ?_, fun d hd => ?_⟩, fun e he => ⟨fun d hd => ?_, fun d hd => ?_⟩⟩
  · obtain ⟨xs, d', -, h1, h2, h3⟩ := (k1 wq rq).1 e he d A hd hq
    exact ⟨_, _, d', h1, h2, h3⟩
  · obtain ⟨xs, d', -, h1, h2, h3⟩ := (k3 wq rq).1 e he d A hd hq
    exact ⟨_, _, d', h1, h2, h3⟩
  · obtain ⟨xs, d', -, h1, h2, h3⟩ := (k2 wt rt).1 e he d B hd ht
    exact ⟨_, _, d', h1, h2, h3⟩
  · obtain ⟨xs, d', -, h1, h2, h3⟩ := (k4 wt rt).1 e he d B hd ht
    exact ⟨_, _, d', h1, h2, h3⟩

/-! ## Examples -/

/-- IRIs as strings that begin with a letter, and tags as strings. -/
def startsWithLetter : Text → Bool
  | c :: _ => c.isAlpha
  | [] => false

def sampleNames : Names {s : Text // startsWithLetter s = true} Text where
  iriText := (·.1)
  iri s := if h : startsWithLetter s = true then some ⟨s, h⟩ else none
  tagText := id
  tag := some

theorem sampleNames_wellNamed : WellNamed sampleNames where
  iri i := by simp [sampleNames, i.2]
  tag t := rfl
  scheme s i h := by
    simp only [sampleNames] at h
    split at h
    · rename_i hs
      cases s with
      | nil => cases hs
      | cons c rest => exact ⟨c, rest, rfl, hs⟩
    · cases h

/-- `{"type_": {"LangString": "fr"}, "comment": null, "value": "chat"}` -/
example : readLocalTerm sampleNames (.map [("type_".toList, .map [("LangString".toList,
      .str "fr".toList)]), ("comment".toList, .null), ("value".toList, .str "chat".toList)]) =
    some (.named (.literal ⟨"chat".toList, .langString "fr".toList⟩)) := by decide

/-- A field given twice is an error. -/
example : readLocalTerm sampleNames (.map [("type_".toList, .map [("LangString".toList,
      .str "fr".toList)]), ("value".toList, .str "a".toList), ("value".toList, .str "b".toList)]) =
    none := by decide

example : readLocalTerm sampleNames (.str "_:b0".toList) = some (.anonymous ⟨"_:b0".toList⟩) := by
  decide

example : readLocalTerm sampleNames (.str "a:b".toList) =
    some (.named (.iri ⟨"a:b".toList, by decide⟩)) := by decide

example : Labelled (I := Nat) (L := Nat) (.anonymous ⟨"_:b0".toList⟩) :=
  (BlankId.check_iff_label _).1 (by decide)

/-- The label that a generator makes from the prefix ` `, and a label with a dot. -/
example : readLocalTerm sampleNames (writeLocalTerm sampleNames (.anonymous ⟨"_: 0".toList⟩)) = none ∧
    readLocalTerm sampleNames (writeLocalTerm sampleNames (.anonymous ⟨"_:a.b".toList⟩)) = none := by
  decide

/-- Numbers, read back. -/
def writeNat (n : Nat) : Value := .other n

def readNat : Value → Option Nat
  | .other n => some n
  | _ => none

example (x : Nat) : Faithful writeNat readNat x := ⟨rfl, by simp [writeNat]⟩

/-- Written as `null`, `Some(())` would be read as `None`: the hypothesis on graphs is needed. -/
example : readQuad readNat readNat readNat (fun _ => some ()) (writeQuad writeNat writeNat writeNat
    (fun _ => .null) ⟨1, 2, 3, some ()⟩) = some ⟨1, 2, 3, none⟩ := rfl

example : ((BTreeDataset.container true Nat).run BTreeDataset.new sampleOps).bind (fun d => do
      let (n, vs) ← (BTreeDataset.container true Nat).serialize
        (writeQuad writeNat writeNat writeNat writeNat) d
      let d' ← (BTreeDataset.container true Nat).deserialize
        (readQuad readNat readNat readNat readNat) (.seq vs)
      match d' with
      | some d' => do
        let xs ← d'.iter
        pure (some (n, xs))
      | none => pure none) =
    .ok (some (2, [⟨1, 1, 2, some 5⟩, ⟨7, 2, 3, some 1⟩])) := by decide

/-- Two readable elements and one that is not. -/
example : ((BTreeGraph.container true Nat).deserialize (readTriple readNat readNat readNat)
      (.seq [.seq [.other 1, .other 2, .other 3], .seq [.other 1, .other 2, .null]])).map
        Option.isSome = .ok false := by decide

/-! ## Concrete cases -/

example : readLiteral sampleNames (.seq [.str "chat".toList,
      .map [("LangString".toList, .str "fr".toList)]]) =
    some ⟨"chat".toList, .langString "fr".toList⟩ :=
  (C56_literals sampleNames_wellNamed ⟨"chat".toList, .langString "fr".toList⟩).2.1

example : Faithful (writeTerm sampleNames) (readTerm sampleNames)
    (.literal ⟨"chat".toList, .langString "fr".toList⟩) := C56_terms sampleNames_wellNamed _

example : Faithful (writeLocalTerm sampleNames) (readLocalTerm sampleNames)
    (.anonymous ⟨"_:b0".toList⟩) :=
  C56_local_terms sampleNames_wellNamed _ ((BlankId.check_iff_label _).1 (by decide))

example : readLocalTerm sampleNames (.str "_:b0".toList) = some (.anonymous ⟨"_:b0".toList⟩) :=
  ((C56_strings sampleNames_wellNamed "_:b0".toList).1 ⟨"_:b0".toList⟩).2
    ⟨rfl, (BlankId.check_iff_label _).1 (by decide)⟩

example : readLocalTerm sampleNames (writeLocalTerm sampleNames (.anonymous ⟨"_:a.b".toList⟩)) =
    none :=
  C56_unchecked sampleNames_wellNamed _ (fun h => h.2 (by decide)) ⟨":a.b".toList, by decide⟩

example : writeLiteralRef sampleNames
      (⟨"chat".toList, .langString "fr".toList⟩ : Literal _ Text).asRef =
    writeLiteral sampleNames ⟨"chat".toList, .langString "fr".toList⟩ :=
  (C56_borrowed sampleNames _ ⟨.owned [], .langString (.owned [])⟩).1

example : Faithful (writeQuad writeNat writeNat writeNat writeNat)
    (readQuad readNat readNat readNat readNat) ⟨1, 2, 3, some 4⟩ :=
  C56_quads _ ⟨rfl, nofun⟩ ⟨rfl, nofun⟩ ⟨rfl, nofun⟩ (fun _ _ => ⟨rfl, nofun⟩)

example : Faithful (writeTriple writeNat writeNat writeNat) (readTriple readNat readNat readNat)
    ⟨1, 2, 3⟩ :=
  C56_triples _ ⟨rfl, nofun⟩ ⟨rfl, nofun⟩ ⟨rfl, nofun⟩

example : Faithful (writeResourceOrVar writeNat writeNat) (readResourceOrVar readNat readNat)
    (.var 3) :=
  C56_resource_or_var _ (fun _ _ => ⟨rfl, nofun⟩) (fun _ _ => ⟨rfl, nofun⟩)

/-- A dataset with a vacant slot reused is written and read. -/
example : ∃ xs d', Lists xs (· ∈ Case.quads) ∧
    (IndexedBTreeDataset.container true Nat).serialize
      (writeQuad writeNat writeNat writeNat writeNat) Case.indexedDataset =
        .ok (xs.length, xs.map (writeQuad writeNat writeNat writeNat writeNat)) ∧
    (IndexedBTreeDataset.container true Nat).deserialize (readQuad readNat readNat readNat readNat)
      (.seq (xs.map (writeQuad writeNat writeNat writeNat writeNat))) = .ok (some d') ∧
    (IndexedBTreeDataset.container true Nat).eq (IndexedBTreeDataset.container true Nat)
      (fun x y => x = y) d' Case.indexedDataset = .ok true :=
  have hn : ∀ x, Faithful writeNat readNat x := fun _ => ⟨rfl, nofun⟩
  ((C56_containers true).2.2.1 (writeQuad writeNat writeNat writeNat writeNat)
    (readQuad readNat readNat readNat readNat)).1 (fun x y => x = y) (by simp) _ _
    (Case.indexedDataset_reached Case.any_quads)
    (fun _ _ => (C56_quads _ (hn _) (hn _) (hn _) (fun _ _ => hn _)).1)

/-- IRIs and tags written as `x`, `xx`, `xxx`, …, which are in order. -/
def orderedNames : Names Nat Nat where
  iriText n := List.replicate (n + 1) 'x'
  iri s := if s ≠ [] ∧ s.all (· == 'x') then some (s.length - 1) else none
  tagText n := List.replicate n 'x'
  tag s := some s.length

theorem orderedNames_wellNamed : WellNamed orderedNames where
  iri i := by simp [orderedNames]
  tag t := by simp [orderedNames]
  scheme s i h := by
    simp only [orderedNames] at h
    split at h
    · rename_i hs
      cases s with
      | nil => exact (hs.1 rfl).elim
      | cons c rest =>
        have hc := hs.2
        simp only [List.all_cons, Bool.and_eq_true, beq_iff_eq] at hc
        exact ⟨c, rest, rfl, hc.1 ▸ by decide⟩
    · cases h

/-- `_:a <x> "v"@x <xx> .` -/
def orderedQuad : Quad (LexTerm Nat Nat) :=
  ⟨.anonymous ⟨"_:a".toList⟩, .named (.iri 0), .named (.literal ⟨['v'], .langString 1⟩),
    some (.named (.iri 1))⟩

/-- A dataset of lexical terms, of one quad, is written and read. -/
example : ∃ d k vs d', (IndexedBTreeDataset.container true (LexTerm Nat Nat)).run
      IndexedBTreeDataset.new [.insert orderedQuad] = .ok d ∧
    (IndexedBTreeDataset.container true _).serialize (writeQuad (writeLocalTerm orderedNames)
      (writeLocalTerm orderedNames) (writeLocalTerm orderedNames) (writeLocalTerm orderedNames)) d =
        .ok (k, vs) ∧
    (IndexedBTreeDataset.container true _).deserialize (readQuad (readLocalTerm orderedNames)
      (readLocalTerm orderedNames) (readLocalTerm orderedNames) (readLocalTerm orderedNames))
        (.seq vs) = .ok (some d') ∧
    (IndexedBTreeDataset.container true _).eq (IndexedBTreeDataset.container true _)
      (fun x y => x = y) d' d = .ok true := by
  obtain ⟨d, e, hd⟩ := IndexedBTreeDataset.run_reach true (R := LexTerm Nat Nat) anyCall True
    (P := anyCall) (l := [.insert orderedQuad]) ⟨trivial, trivial⟩
  obtain ⟨k, vs, d', h⟩ := ((C56_lexical orderedNames_wellNamed true _ (fun _ => False) (by
      rintro q (h | rfl)
      · exact h.elim
      · refine ⟨(BlankId.check_iff_label _).1 (by decide), trivial, trivial, ?_⟩
        rintro g ⟨⟩
        trivial) nofun).1 (fun x y => x = y) (by simp)).2 d hd
  exact ⟨d, k, vs, d', e, h⟩

end RdfTypes.Property
