import Verif.Proof.Concrete
import Verif.Spec.Documents
import Verif.Property.Serde

/-!
# C83: exactly which documents are read, and as what
-/

set_option linter.unusedSectionVars false

namespace RdfTypes.Property

open Spec Serde

variable {R : Type} [Ord R] [Std.TransOrd R] [Std.LawfulEqOrd R]
variable {I L S P O G T X D : Type}

private theorem reads_type (n : Names I L) : ReadsExactly (readLiteralType n) (TypeDoc n) := by
  intro v t
  constructor
  · intro h
    unfold readLiteralType at h
    split at h
    · rename_i k w
      split at h
      · rename_i hk
        subst hk
        cases w with
        | str s =>
          simp only [readIri, readText, Option.bind_some, Option.map_eq_some_iff] at h
          obtain ⟨i, hi, rfl⟩ := h
          exact .any hi
        | _ => simp [readIri, readText] at h
      · split at h
        · rename_i hk
          subst hk
          cases w with
          | str s =>
            simp only [readTag, readText, Option.bind_some, Option.map_eq_some_iff] at h
            obtain ⟨i, hi, rfl⟩ := h
            exact .langString hi
          | _ => simp [readTag, readText] at h
        · cases h
    · cases h
  · rintro (h | h)
    · simp [readLiteralType, readIri, readText, h]
    · simp [readLiteralType, readTag, readText, h]

private theorem hasField_cons_self {k : Text} {v w : Value} {l : List (Text × Value)} :
    HasField k w ((k, v) :: l) ↔ w = v ∧ ∀ f ∈ l, f.1 ≠ k := by
  constructor
  · rintro ⟨pre, post, e, h⟩
    cases pre with
    | nil =>
      simp only [List.nil_append, List.cons.injEq, Prod.mk.injEq, true_and] at e
      obtain ⟨rfl, rfl⟩ := e
      exact ⟨rfl, by simpa using h⟩
    | cons p pre =>
      simp only [List.cons_append, List.cons.injEq] at e
      exact absurd (congrArg Prod.fst e.1).symm (h p (by simp))
  · rintro ⟨rfl, h⟩
    exact ⟨[], l, rfl, by simpa using h⟩

private theorem hasField_cons_ne {k k' : Text} {v w : Value} {l : List (Text × Value)} (hk : k' ≠ k) :
    HasField k w ((k', v) :: l) ↔ HasField k w l := by
  constructor
  · rintro ⟨pre, post, e, h⟩
    cases pre with
    | nil =>
      simp only [List.nil_append, List.cons.injEq, Prod.mk.injEq] at e
      exact absurd e.1.1 hk
    | cons p pre =>
      simp only [List.cons_append, List.cons.injEq] at e
      exact ⟨pre, post, e.2, fun f hf => h f (by simp at hf ⊢; exact .inr hf)⟩
  · rintro ⟨pre, post, rfl, h⟩
    refine ⟨(k', v) :: pre, post, rfl, fun f hf => ?_⟩
    simp only [List.cons_append, List.mem_cons] at hf
    rcases hf with rfl | hf
    · exact hk
    · exact h f hf

/-- What the fields that follow must be, given what was found before. -/
private def Follow (k : Text) (doc : Value → T → Prop) (found : Option T) (x : T)
    (l : List (Text × Value)) : Prop :=
  match found with
  | some y => y = x ∧ ∀ f ∈ l, f.1 ≠ k
  | none => ∃ v, HasField k v l ∧ doc v x

private theorem follow_other {k k' : Text} {doc : Value → T → Prop} {found : Option T} {x : T}
    {v : Value} {l : List (Text × Value)} (hk : k' ≠ k) :
    Follow k doc found x ((k', v) :: l) ↔ Follow k doc found x l := by
  cases found with
  | none => simp [Follow, hasField_cons_ne hk]
  | some y => simp [Follow, hk]

private theorem follow_self {k : Text} {doc : Value → T → Prop} {found : Option T} {x : T}
    {v : Value} {l : List (Text × Value)} :
    Follow k doc found x ((k, v) :: l) ↔ found = none ∧ doc v x ∧ ∀ f ∈ l, f.1 ≠ k := by
  cases found with
  | none =>
    simp only [Follow, hasField_cons_self, true_and]
    constructor
    · rintro ⟨w, ⟨rfl, h⟩, hd⟩
      exact ⟨hd, h⟩
    · rintro ⟨hd, h⟩
      exact ⟨v, ⟨rfl, h⟩, hd⟩
  | some y => simp [Follow]

private theorem reads_fields (n : Names I L) (fields : List (Text × Value)) :
    ∀ (value : Option Text) (type_ : Option (LiteralType I L)) (l : Literal I L),
      readFields n fields value type_ = some l ↔
        Follow "value".toList (fun v s => v = .str s) value l.value fields ∧
        Follow "type_".toList (TypeDoc n) type_ l.type_ fields := by
  have hne : "value".toList ≠ "type_".toList := by decide
  induction fields with
  | nil =>
    intro value type_ l
    cases l
    cases value <;> cases type_ <;> simp [readFields, Follow, HasField]
  | cons f fields ih =>
    obtain ⟨k, v⟩ := f
    intro value type_ l
    simp only [readFields]
    by_cases h1 : k = "value".toList
    · subst h1
      simp only [if_true, follow_self, follow_other hne]
      cases value with
      | some x => simp
      | none =>
        cases v with
        | str s =>
          simp only [Option.isSome_none, Bool.false_eq_true, if_false, readText, Option.bind_some, ih,
            Follow, Value.str.injEq, true_and]
        | _ => simp [readText]
    · simp only [h1, if_false, follow_other h1]
      by_cases h2 : k = "type_".toList
      · subst h2
        simp only [if_true, follow_self]
        cases type_ with
        | some x => simp
        | none =>
          simp only [Option.isSome_none, Bool.false_eq_true, if_false, true_and]
          constructor
          · intro h
            obtain ⟨t, ht, h⟩ := Option.bind_eq_some_iff.1 h
            obtain ⟨g1, g2, g3⟩ := (ih _ _ _).1 h
            exact ⟨g1, g2 ▸ (reads_type n _ _).1 ht, g3⟩
          · rintro ⟨g1, g2, g3⟩
            rw [(reads_type n _ _).2 g2]
            exact (ih _ _ _).2 ⟨g1, rfl, g3⟩
      · simp only [h2, if_false, follow_other h2, ih]

private theorem reads_literal (n : Names I L) : ReadsExactly (readLiteral n) (LiteralDoc n) := by
  intro v l
  constructor
  · intro h
    unfold readLiteral at h
    split at h
    · obtain ⟨⟨v, h1, rfl⟩, w, h2, h3⟩ := (reads_fields n _ _ _ _).1 h
      exact .map h1 h2 h3
    · rename_i v t
      cases v with
      | str s =>
        simp only [readText, bind, Option.bind_some] at h
        obtain ⟨ty, ht, h⟩ := Option.bind_eq_some_iff.1 h
        cases h
        exact .seq ((reads_type n _ _).1 ht)
      | _ => simp [readText] at h
    · cases h
  · rintro (⟨h1, h2, h3⟩ | h)
    · exact (reads_fields n _ _ _ _).2 ⟨⟨_, h1, rfl⟩, _, h2, h3⟩
    · simp [readLiteral, readText, (reads_type n _ _).2 h]

private theorem reads_iri (n : Names I L) (v : Value) (i : I) :
    readIri n v = some i ↔ ∃ s, v = .str s ∧ n.iri s = some i := by
  cases v <;> simp [readIri, readText]

private theorem reads_term (n : Names I L) : ReadsExactly (readTerm n) (TermDoc n) := by
  intro v t
  constructor
  · intro h
    unfold readTerm at h
    split at h
    · rename_i i hi
      cases h
      obtain ⟨s, rfl, hs⟩ := (reads_iri n _ _).1 hi
      exact .iri hs
    · split at h
      · rename_i l hl
        cases h
        exact .literal ((reads_literal n _ _).1 hl)
      · cases h
  · rintro (h | h)
    · rw [readTerm, (reads_iri n _ _).2 ⟨_, rfl, h⟩]
    · have h' := (reads_literal n _ _).2 h
      have hi : readIri n v = none := by cases h <;> rfl
      rw [readTerm, hi, h']

private theorem reads_blank : ReadsExactly readBlankId BlankDoc := by
  intro v b
  cases v with
  | str s =>
    have hc := BlankId.check_iff_label s
    constructor
    · intro h
      by_cases hs : BlankId.check s = true
      · simp [readBlankId, BlankIdBuf.new, hs, Except.toOption] at h
        subst h
        exact .label (hc.1 hs).1 (hc.1 hs).2
      · simp [readBlankId, BlankIdBuf.new, hs, Except.toOption] at h
    · rintro ⟨h1, h2⟩
      simp [readBlankId, BlankIdBuf.new, hc.2 ⟨h1, h2⟩, Except.toOption]
  | _ => exact ⟨fun h => by simp [readBlankId] at h, fun h => by cases h⟩

/-- C83, terms: exactly the documents of terms are read, each as the term it stands for. -/
theorem C83_terms {n : Names I L} (hn : WellNamed n) :
    ReadsExactly readBlankId BlankDoc ∧ ReadsExactly (readLiteralType n) (TypeDoc n) ∧
    ReadsExactly (readLiteral n) (LiteralDoc n) ∧ ReadsExactly (readTerm n) (TermDoc n) ∧
    ReadsExactly (readLocalTerm n) (LocalTermDoc n) := by
  refine ⟨reads_blank, reads_type n, reads_literal n, reads_term n, ?_⟩
  intro v t
  constructor
  · intro h
    unfold readLocalTerm at h
    split at h
    · rename_i b hb
      cases h
      exact .blank ((reads_blank _ _).1 hb)
    · split at h
      · rename_i t ht
        cases h
        exact .term ((reads_term n _ _).1 ht)
      · cases h
  · rintro (h | h)
    · rw [readLocalTerm, (reads_blank _ _).2 h]
    · cases hb : readBlankId v with
      | none => rw [readLocalTerm, hb, (reads_term n _ _).2 h]
      | some b =>
        obtain ⟨-, -⟩ := (reads_blank _ _).1 hb
        rename_i s
        cases h with
        | iri hi => exact ((C56_strings hn s).2.1 _).2 hi
        | literal h => cases h

/-- C83: no document stands for two terms, literals or types. -/
theorem C83_unambiguous {n : Names I L} (hn : WellNamed n) (v : Value) :
    (∀ t u, TypeDoc n v t → TypeDoc n v u → t = u) ∧
    (∀ l m, LiteralDoc n v l → LiteralDoc n v m → l = m) ∧
    (∀ t u, LocalTermDoc n v t → LocalTermDoc n v u → t = u) := by
  obtain ⟨-, h2, h3, -, h5⟩ := C83_terms hn
  refine ⟨fun t u ht hu => ?_, fun t u ht hu => ?_, fun t u ht hu => ?_⟩
  · exact Option.some.inj (((h2 v t).2 ht).symm.trans ((h2 v u).2 hu))
  · exact Option.some.inj (((h3 v t).2 ht).symm.trans ((h3 v u).2 hu))
  · exact Option.some.inj (((h5 v t).2 ht).symm.trans ((h5 v u).2 hu))

/-- C83, statements: exactly the documents of quads, triples and parts of patterns are read. -/
theorem C83_statements {rs : Value → Option S} {ds : Value → S → Prop} {rp : Value → Option P}
    {dp : Value → P → Prop} {ro : Value → Option O} {do_ : Value → O → Prop}
    {rg : Value → Option G} {dg : Value → G → Prop} (hs : ReadsExactly rs ds)
    (hp : ReadsExactly rp dp) (ho : ReadsExactly ro do_) (hg : ReadsExactly rg dg) :
    ReadsExactly (readQuad rs rp ro rg) (QuadDoc ds dp do_ dg) ∧
    ReadsExactly (readTriple rs rp ro) (TripleDoc ds dp do_) ∧
    ReadsExactly (readResourceOrVar rs rp) (ResourceOrVarDoc ds dp) := by
  refine ⟨fun v q => ⟨fun h => ?_, fun h => ?_⟩, fun v t => ⟨fun h => ?_, fun h => ?_⟩,
    fun v t => ⟨fun h => ?_, fun h => ?_⟩⟩
  · unfold readQuad at h
    split at h
    · simp only [bind, Option.bind_eq_some_iff] at h
      obtain ⟨x, hx, y, hy, z, hz, g, hg', h⟩ := h
      cases h
      rename_i gv
      cases gv with
      | null =>
        cases hg'
        exact .default ((hs _ _).1 hx) ((hp _ _).1 hy) ((ho _ _).1 hz)
      | _ =>
        simp only [readOption, Option.map_eq_some_iff] at hg'
        obtain ⟨a, ha, rfl⟩ := hg'
        exact .named ((hs _ _).1 hx) ((hp _ _).1 hy) ((ho _ _).1 hz) (by simp) ((hg _ _).1 ha)
    · cases h
  · cases h with
    | default h1 h2 h3 =>
      simp [readQuad, (hs _ _).2 h1, (hp _ _).2 h2, (ho _ _).2 h3, readOption]
    | @named v w u g x y z a h1 h2 h3 h4 h5 =>
      have : readOption rg g = some (some a) := by
        cases g <;> simp_all [readOption, (hg _ _).2 h5]
      simp [readQuad, (hs _ _).2 h1, (hp _ _).2 h2, (ho _ _).2 h3, this]
  · unfold readTriple at h
    split at h
    · simp only [bind, Option.bind_eq_some_iff] at h
      obtain ⟨x, hx, y, hy, z, hz, h⟩ := h
      cases h
      exact .triple ((hs _ _).1 hx) ((hp _ _).1 hy) ((ho _ _).1 hz)
    · cases h
  · cases h with
    | triple h1 h2 h3 => simp [readTriple, (hs _ _).2 h1, (hp _ _).2 h2, (ho _ _).2 h3]
  · unfold readResourceOrVar at h
    split at h
    · split at h
      · rename_i hk
        subst hk
        obtain ⟨x, hx, rfl⟩ := Option.map_eq_some_iff.1 h
        exact .resource ((hs _ _).1 hx)
      · split at h
        · rename_i hk
          subst hk
          obtain ⟨x, hx, rfl⟩ := Option.map_eq_some_iff.1 h
          exact .var ((hp _ _).1 hx)
        · cases h
    · cases h
  · cases h with
    | resource h => simp [readResourceOrVar, (hs _ _).2 h]
    | var h => simp [readResourceOrVar, (hp _ _).2 h]

private theorem docs_map {read : Value → Option S} {doc : Value → S → Prop}
    (hr : ReadsExactly read doc) {vs : List Value} {xs : List S} (h : Docs doc vs xs) :
    vs.map read = xs.map some := by
  induction h with
  | nil => rfl
  | cons h _ ih => simp [(hr _ _).2 h, ih]

private theorem docs_or {read : Value → Option S} {doc : Value → S → Prop}
    (hr : ReadsExactly read doc) (vs : List Value) :
    (∃ xs, Docs doc vs xs) ∨ ∃ v ∈ vs, read v = none := by
  induction vs with
  | nil => exact .inl ⟨[], .nil⟩
  | cons v vs ih =>
    cases hv : read v with
    | none => exact .inr ⟨v, by simp, hv⟩
    | some x =>
      rcases ih with ⟨xs, h⟩ | ⟨w, hw, h⟩
      · exact .inl ⟨x :: xs, .cons ((hr _ _).1 hv) h⟩
      · exact .inr ⟨w, by simp [hw], h⟩

private theorem reads_statements [Ord S] {c : Container S D} {Reach : D → (S → Prop) → Prop}
    (hc : Serialises c Reach) {read : Value → Option S} {doc : Value → S → Prop}
    (hr : ReadsExactly read doc) : ReadsStatements c read doc := by
  obtain ⟨-, h2, h3, h4⟩ := hc (fun _ => .null) read
  intro v
  refine ⟨?_, fun h => ?_⟩
  · rintro vs xs rfl hd
    exact h2 vs xs (docs_map hr hd)
  · by_cases hv : ∃ vs, v = .seq vs
    · obtain ⟨vs, rfl⟩ := hv
      rcases docs_or hr vs with ⟨xs, hx⟩ | hx
      · exact absurd ⟨vs, xs, rfl, hx⟩ h
      · exact h3 vs hx
    · exact h4 v fun vs e => hv ⟨vs, e⟩

/-- C83, containers: a container is read from exactly the sequences of documents of statements
and then holds exactly these; from anything else it is refused. -/
theorem C83_containers (rep : Bool) {rq : Value → Option (Quad R)} {dq : Value → Quad R → Prop}
    {rt : Value → Option (Triple R)} {dt : Value → Triple R → Prop} (hq : ReadsExactly rq dq)
    (ht : ReadsExactly rt dt) :
    ReadsStatements (BTreeDataset.container rep R) rq dq ∧
    ReadsStatements (BTreeGraph.container rep R) rt dt ∧
    ReadsStatements (IndexedBTreeDataset.container rep R) rq dq ∧
    ReadsStatements (IndexedBTreeGraph.container rep R) rt dt := by
  obtain ⟨k1, k2, k3, k4⟩ := C56_containers (R := R) rep
  exact ⟨reads_statements k1 hq, reads_statements k2 ht, reads_statements k3 hq,
    reads_statements k4 ht⟩

/-- C83, datasets and graphs of lexical terms. -/
theorem C83_lexical [Ord I] [Ord L] [Std.TransOrd I] [Std.TransOrd L] [Std.LawfulEqOrd I]
    [Std.LawfulEqOrd L] {n : Names I L} (hn : WellNamed n) (rep : Bool) :
    let r := readLocalTerm n
    let d := LocalTermDoc n
    ReadsStatements (BTreeDataset.container rep _) (readQuad r r r r) (QuadDoc d d d d) ∧
    ReadsStatements (BTreeGraph.container rep _) (readTriple r r r) (TripleDoc d d d) ∧
    ReadsStatements (IndexedBTreeDataset.container rep _) (readQuad r r r r) (QuadDoc d d d d) ∧
    ReadsStatements (IndexedBTreeGraph.container rep _) (readTriple r r r) (TripleDoc d d d) := by
  intro r d
  have h := (C83_terms hn).2.2.2.2
  obtain ⟨h1, h2, -⟩ := C83_statements h h h h
  exact C83_containers rep h1 h2

/-- `{"type_": {"LangString": "fr"}, "comment": null, "value": "chat"}` -/
example : LocalTermDoc sampleNames (.map [("type_".toList, .map [("LangString".toList,
      .str "fr".toList)]), ("comment".toList, .null), ("value".toList, .str "chat".toList)])
    (.named (.literal ⟨"chat".toList, .langString "fr".toList⟩)) := by
  refine .term (.literal (.map (v := .map [("LangString".toList, .str "fr".toList)])
    ⟨[("type_".toList, .map [("LangString".toList, .str "fr".toList)]), ("comment".toList, .null)],
      [], rfl, ?_⟩
    ⟨[], [("comment".toList, .null), ("value".toList, .str "chat".toList)], rfl, ?_⟩
    (.langString rfl)))
  · intro f hf
    simp only [List.append_nil, List.mem_cons, List.not_mem_nil, or_false] at hf
    rcases hf with rfl | rfl <;> decide
  · intro f hf
    simp only [List.nil_append, List.mem_cons, List.not_mem_nil, or_false] at hf
    rcases hf with rfl | rfl <;> decide

/-- A field given twice: the document is of no term. -/
example (t) : ¬ LocalTermDoc sampleNames (.map [("type_".toList, .map [("LangString".toList,
      .str "fr".toList)]), ("value".toList, .str "a".toList), ("value".toList, .str "a".toList)]) t := by
  rw [← (C83_terms sampleNames_wellNamed).2.2.2.2]
  rw [show readLocalTerm sampleNames (.map [("type_".toList, .map [("LangString".toList,
      .str "fr".toList)]), ("value".toList, .str "a".toList), ("value".toList, .str "a".toList)]) = none
    from by decide]
  simp

/-- A triple of a blank node, an IRI and a literal. -/
example : let d := LocalTermDoc sampleNames
    TripleDoc d d d (.seq [.str "_:b0".toList, .str "a:b".toList, .seq [.str "x".toList,
      .map [("Any".toList, .str "a:t".toList)]]])
    ⟨.anonymous ⟨"_:b0".toList⟩, .named (.iri ⟨"a:b".toList, by decide⟩),
      .named (.literal ⟨"x".toList, .any ⟨"a:t".toList, by decide⟩⟩)⟩ := by
  refine .triple (.blank (.label ?_ (by decide))) (.term (.iri (by decide)))
    (.term (.literal (.seq (.any (by decide)))))
  exact ((BlankId.check_iff_label _).1 (by decide)).1

example : ReadsExactly (readTriple readNat readNat readNat)
    (TripleDoc (fun v x => readNat v = some x) (fun v x => readNat v = some x)
      (fun v x => readNat v = some x)) :=
  (C83_statements (fun _ _ => .rfl) (fun _ _ => .rfl) (fun _ _ => .rfl)
    (fun _ _ => .rfl : ReadsExactly readNat _)).2.1

example : ∃ d, (BTreeGraph.container true Nat).deserialize (readTriple readNat readNat readNat)
      (.seq (Case.triples.map (writeTriple writeNat writeNat writeNat))) = .ok (some d) ∧
    ∀ x, ∃ b, (BTreeGraph.container true Nat).contains d x = .ok b ∧
      (b = true ↔ x ∈ Case.triples) :=
  ((C83_containers true (fun _ _ => .rfl : ReadsExactly (readQuad readNat readNat readNat readNat) _)
    (fun _ _ => .rfl : ReadsExactly (readTriple readNat readNat readNat) _)).2.1 _).1 _ _ rfl
    (.cons rfl (.cons rfl (.cons rfl .nil)))

example (t u) (ht : LocalTermDoc sampleNames (.str "_:b0".toList) t)
    (hu : LocalTermDoc sampleNames (.str "_:b0".toList) u) : t = u :=
  (C83_unambiguous sampleNames_wellNamed _).2.2 t u ht hu

/-- The document of two triples of lexical terms, of which only the first can be read. -/
example : (BTreeGraph.container true (LexTerm Nat Nat)).deserialize
      (readTriple (readLocalTerm orderedNames) (readLocalTerm orderedNames)
        (readLocalTerm orderedNames))
      (.seq [.seq [.str "_:a".toList, .str "x".toList, .str "xx".toList],
        .seq [.str "_:a".toList, .str "y".toList, .str "xx".toList]]) = .ok none := by
  refine ((C83_lexical orderedNames_wellNamed true).2.1 _).2 ?_
  rintro ⟨vs, xs, ⟨⟩, h⟩
  cases h with | cons _ h => cases h with | cons h _ =>
  exact nomatch ((C83_statements (C83_terms orderedNames_wellNamed).2.2.2.2
    (C83_terms orderedNames_wellNamed).2.2.2.2 (C83_terms orderedNames_wellNamed).2.2.2.2
    (C83_terms orderedNames_wellNamed).2.2.2.2).2.1 _ _).2 h

end RdfTypes.Property
