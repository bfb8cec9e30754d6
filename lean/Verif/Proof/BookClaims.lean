import Verif.Proof.BookIndexed
import Verif.Proof.Records

/-! # What the books tell -/

set_option linter.unusedSectionVars false
set_option linter.unusedSimpArgs false

namespace RdfTypes

open Spec Container

variable {R ρ σ S D : Type} [Ord R] [Std.TransOrd R] [Std.LawfulEqOrd R] [Ord S] [Std.TransOrd S]
  [Std.LawfulEqOrd S] [DecidableEq R] [DecidableEq S]

theorem PlainBook.of_reach {c : Container S D} {rep : Bool} {terms : S → Pos → Option R}
    {P : (S → Prop) → Op S → Prop} {d : D} {A : S → Prop} (h : Reach c P d A) :
    ∃ b, PlainBook c rep terms d b := by
  induction h with
  | new => exact ⟨_, .new⟩
  | insert _ _ e ih =>
    obtain ⟨b, hb⟩ := ih
    exact ⟨_, .insert hb e⟩
  | remove _ _ e ih =>
    obtain ⟨b, hb⟩ := ih
    exact ⟨_, .remove hb e⟩

namespace Holds

variable {sh : Shape σ S R} {ops : ResOps R ρ} {Rep : ρ → (Pos → Nat → Prop) → Prop}
  {res : Slab ρ} {idx sidx : Index} {st : Slab σ} {E : Nat → Pos → Nat → Prop}
  {nm : Nat → Option S} {M : Pos → Nat → Prop} {b : Book R S}

theorem indexOf (h : Holds ops res idx E nm M b) (inv : ResInv ops Rep res idx E) (r : R) :
    ops.indexOfResource res idx r = .ok (b.current r) := by
  obtain ⟨o, e, ho⟩ := inv.indexOf_spec r
  rw [e]
  congr 1
  refine Option.ext fun i => ?_
  rw [ho, h.cur]

theorem count (h : Holds ops res idx E nm M b) :
    res.len = (b.records.places.filter (·.isSome)).length := by
  have hnone : ∀ k : Nat, (res.entries[k]?.join).isNone = (b.records.places[k]?.join).isNone := by
    intro k
    have := congrArg Option.isNone (h.val k)
    simpa [ResOps.val, Book.at_, Slab.get] using this
  have hmap := isNone_eq h.len hnone
  have e : ∀ {α : Type} (l : List (Option α)),
      l.countP (·.isSome) = (l.map (·.isNone)).countP (fun n => !n) := by
    intro α l
    rw [List.countP_map]
    exact List.countP_congr fun o _ => by cases o <;> simp
  unfold Slab.len
  rw [← List.countP_eq_length_filter, e, e, hmap]

end Holds

theorem BTreeDataset.book_agrees {d : BTreeDataset R} {b : Book R (Quad R)} {rep : Bool}
    (h : PlainBook (BTreeDataset.container rep R) rep quadAt d b) :
    AgreesWithBook b d.contains d.containsResource d.resources.len := by
  obtain ⟨w, h⟩ := book_books h
  refine ⟨fun x => ?_, fun r => ?_, h.count⟩
  · obtain ⟨o, e, ho⟩ := contains_spec w x
    rw [e]
    congr 1
    rw [Bool.eq_iff_iff, ho, h.knows quadShape_laws (fun x => ⟨x.s, rfl⟩) w]
    exact Iff.rfl
  · simp [containsResource, indexOfResource, h.indexOf w.table, bind, Except.bind, pure,
      Except.pure]

theorem BTreeGraph.book_agrees {d : BTreeGraph R} {b : Book R (Triple R)} {rep : Bool}
    (h : PlainBook (BTreeGraph.container rep R) rep tripleAt d b) :
    AgreesWithBook b d.contains d.containsResource d.resources.len := by
  obtain ⟨w, h⟩ := book_books h
  refine ⟨fun x => ?_, fun r => ?_, h.count⟩
  · obtain ⟨o, e, ho⟩ := contains_spec w x
    rw [e]
    congr 1
    rw [Bool.eq_iff_iff, ho, h.knows tripleShape_laws (fun x => ⟨x.s, rfl⟩) w]
    exact Iff.rfl
  · simp [containsResource, indexOfResource, h.indexOf w.table, bind, Except.bind, pure,
      Except.pure]

namespace IndexedBTreeDataset

variable {d : IndexedBTreeDataset R} {b : Book R (Quad R)} {rep : Bool}

theorem book_exists {A : Quad R → Prop} (hr : DatasetReach rep anyCall anyCall True d A) :
    ∃ b, DatasetBook rep d b := by
  induction hr with
  | new => exact ⟨_, .new⟩
  | @convert g A d hg e =>
    obtain ⟨b, hb⟩ := PlainBook.of_reach (rep := rep) (terms := quadAt) hg
    exact ⟨_, .convert hb e⟩
  | insert _ _ e ih =>
    obtain ⟨b, hb⟩ := ih
    exact ⟨_, .insert hb e⟩
  | remove _ _ e ih =>
    obtain ⟨b, hb⟩ := ih
    exact ⟨_, .remove hb e⟩
  | @removeGraph d A g d' out hr ht e ih =>
    obtain ⟨b, hb⟩ := ih
    obtain ⟨h, hs, -⟩ := shelf_exists hr
    have w := (reach_stands hr).1
    obtain ⟨d1, out1, e1, gr⟩ := removeGraph_spec rep w g
    rw [e] at e1
    cases e1
    obtain ⟨xs, -, hx⟩ := gr.picks w (shelf_kept hs).2
    exact ⟨_, .removeGraph hb e hs hx⟩
  | @extract d A pat cap n d' out ended hr ht hcap e ih =>
    obtain ⟨b, hb⟩ := ih
    exact ⟨_, .extract hb hcap e⟩

theorem book_agrees (h : DatasetBook rep d b) :
    AgreesWithBook b d.contains d.containsResource d.resourceCount := by
  obtain ⟨w, h, -⟩ := book_books h
  refine ⟨fun x => ?_, fun r => ?_, h.count⟩
  · obtain ⟨o, e, ho⟩ := contains_spec w x
    rw [e]
    congr 1
    rw [Bool.eq_iff_iff, ho, h.knows quadShape_laws (fun x => ⟨x.s, rfl⟩) w.inv]
    exact Iff.rfl
  · simp [containsResource, indexOfResource, h.indexOf w.inv.table, bind, Except.bind, pure,
      Except.pure]

theorem book_slots (h : DatasetBook rep d b) (p : Pos) :
    (d.posSet p).Asc ∧ ∀ i ∈ d.posSet p, i < d.resources.entries.length := by
  have hb := book_books h
  have hlt : ∀ {l : NatSet}, PosSet (quadShape R) d.quads p l →
      ∀ i ∈ l, i < d.resources.entries.length := by
    intro l hl i hi
    obtain ⟨k, hk⟩ := hl.sound i hi
    rw [hb.holds.len]
    exact hb.lt hk
  refine ⟨?_, ?_⟩
  · cases p with
    | subj => exact hb.wf.subj.asc
    | pred => exact hb.wf.pred.asc
    | obj => exact hb.wf.obj.asc
    | graph => exact hb.wf.namedAsc
  · cases p with
    | subj => exact hlt hb.wf.subj
    | pred => exact hlt hb.wf.pred
    | obj => exact hlt hb.wf.obj
    | graph =>
      rw [hb.holds.len]
      exact hb.bound

theorem book_reads (h : DatasetBook rep d b) (p : Pos) :
    ReadsPlaces (b.list p) ((indexOps R).readResources d.resources (d.posSet p))
      (d.posSet p).length :=
  (book_books h).holds.reads (fun _ => Iff.rfl) (book_slots h p).1 (book_slots h p).2

theorem book_list (h : DatasetBook rep d b) (p : Pos) :
    b.list p = (d.posSet p).map ((indexOps R).val d.resources) :=
  (book_books h).holds.list_eq (fun _ => Iff.rfl) (book_slots h p).1 (book_slots h p).2

theorem book_full (h : DatasetBook rep d b) {p : Pos} (hp : p ≠ .graph) : none ∉ b.list p := by
  have hb := book_books h
  intro hn
  obtain ⟨i, hi, hv⟩ := List.mem_map.1 hn
  have hi := (hb.holds.marks p i).1 (List.mem_filter.1 hi).2
  have : ∃ k, (quadShape R).uses d.quads i p k := by
    cases p with
    | subj => exact hb.wf.subj.sound i hi
    | pred => exact hb.wf.pred.sound i hi
    | obj => exact hb.wf.obj.sound i hi
    | graph => exact absurd rfl hp
  obtain ⟨k, hk⟩ := this
  obtain ⟨r, hr⟩ := hb.wf.inv.table.val_isSome_of_used hk
  rw [hb.holds.val, hv] at hr
  cases hr

theorem book_takes (h : DatasetBook rep d b) : TakesMarked rep d b := by
  have hb := book_books h
  intro g
  have hC : ∀ y, (∃ k r l, b.current g = some k ∧ b.at_ k = some (r, l) ∧ (y, .graph) ∈ l) ↔
      ∃ i, i ∈ d.resourcesIndexes ∧ (indexOps R).val d.resources i = some g ∧
        d.Occ i (y, .graph) := by
    intro y
    constructor
    · rintro ⟨k, r, l, h1, h2, h3⟩
      obtain ⟨hi, hv⟩ := (hb.holds.cur g k).1 h1
      exact ⟨k, hi, hv, (hb.holds.occ k r l h2 y .graph).1 h3⟩
    · rintro ⟨i, hi, hv, hy⟩
      obtain ⟨l, hl⟩ := hb.holds.at_of_val hv
      exact ⟨i, g, l, (hb.holds.cur g i).2 ⟨hi, hv⟩, hl, (hb.holds.occ i g l hl y .graph).2 hy⟩
  obtain ⟨d', out, e, w', -, h2, h3, h4⟩ := removeGraph_slots rep hb.wf g hC
  refine ⟨d', out, e, ?_, ?_, ?_⟩
  · rw [h4]
    refine exists_congr fun i => ?_
    rw [hb.holds.cur, hb.holds.marks]
    exact and_assoc.symm
  · intro gr hgr t
    obtain ⟨wg, ha⟩ := h2 gr hgr
    obtain ⟨o, eo, ho⟩ := BTreeGraph.contains_spec wg t
    exact ⟨o, eo, by rw [ho, ha]⟩
  · intro y
    obtain ⟨o, eo, ho⟩ := contains_spec hb.wf y
    obtain ⟨o', eo', ho'⟩ := contains_spec w' y
    exact ⟨o, o', eo, eo', by rw [ho', h3, ho]⟩

end IndexedBTreeDataset

namespace IndexedBTreeGraph

variable {d : IndexedBTreeGraph R} {b : Book R (Triple R)} {rep : Bool}

theorem book_exists {A : Triple R → Prop} (hr : GraphReach rep anyCall anyCall d A) :
    ∃ b, GraphBook rep d b := by
  induction hr with
  | new => exact ⟨_, .new⟩
  | @convert g A d hg e =>
    obtain ⟨b, hb⟩ := PlainBook.of_reach (rep := rep) (terms := tripleAt) hg
    exact ⟨_, .convert hb e⟩
  | insert _ _ e ih =>
    obtain ⟨b, hb⟩ := ih
    exact ⟨_, .insert hb e⟩
  | remove _ _ e ih =>
    obtain ⟨b, hb⟩ := ih
    exact ⟨_, .remove hb e⟩

theorem book_agrees (h : GraphBook rep d b) :
    AgreesWithBook b d.contains d.containsResource d.resourceCount := by
  obtain ⟨w, h⟩ := book_books h
  refine ⟨fun x => ?_, fun r => ?_, h.count⟩
  · obtain ⟨o, e, ho⟩ := contains_spec w x
    rw [e]
    congr 1
    rw [Bool.eq_iff_iff, ho, h.knows tripleShape_laws (fun x => ⟨x.s, rfl⟩) w.inv]
    exact Iff.rfl
  · simp [containsResource, indexOfResource, h.indexOf w.inv.table, bind, Except.bind, pure,
      Except.pure]

theorem book_used (h : d.Books b) {p : Pos} (hp : p ≠ .graph) {i : Nat} (hi : i ∈ d.posSet p) :
    ∃ r, (indexOps R).val d.resources i = some r := by
  have : ∃ k, (tripleShape R).uses d.triples i p k := by
    cases p with
    | subj => exact h.wf.subj.sound i hi
    | pred => exact h.wf.pred.sound i hi
    | obj => exact h.wf.obj.sound i hi
    | graph => exact absurd rfl hp
  obtain ⟨k, hk⟩ := this
  exact h.wf.inv.table.val_isSome_of_used hk

theorem book_slots (h : GraphBook rep d b) {p : Pos} (hp : p ≠ .graph) :
    (d.posSet p).Asc ∧ ∀ i ∈ d.posSet p, i < d.resources.entries.length := by
  have hb := book_books h
  refine ⟨?_, ?_⟩
  · cases p with
    | subj => exact hb.wf.subj.asc
    | pred => exact hb.wf.pred.asc
    | obj => exact hb.wf.obj.asc
    | graph => exact absurd rfl hp
  · intro i hi
    obtain ⟨r, hr⟩ := book_used hb hp hi
    rcases Nat.lt_or_ge i d.resources.entries.length with hl | hl
    · exact hl
    · simp [ResOps.val, Slab.get, List.getElem?_eq_none hl] at hr

theorem book_reads (h : GraphBook rep d b) {p : Pos} (hp : p ≠ .graph) :
    ReadsPlaces (b.list p) ((indexOps R).readResources d.resources (d.posSet p))
      (d.posSet p).length :=
  (book_books h).holds.reads (fun _ => Iff.rfl) (book_slots h hp).1 (book_slots h hp).2

theorem book_list (h : GraphBook rep d b) {p : Pos} (hp : p ≠ .graph) :
    b.list p = (d.posSet p).map ((indexOps R).val d.resources) :=
  (book_books h).holds.list_eq (fun _ => Iff.rfl) (book_slots h hp).1 (book_slots h hp).2

theorem book_full (h : GraphBook rep d b) {p : Pos} (hp : p ≠ .graph) : none ∉ b.list p := by
  have hb := book_books h
  intro hn
  obtain ⟨i, hi, hv⟩ := List.mem_map.1 hn
  have hi := (hb.holds.marks p i).1 (List.mem_filter.1 hi).2
  obtain ⟨r, hr⟩ := book_used hb hp hi
  rw [hb.holds.val, hv] at hr
  cases hr

end IndexedBTreeGraph

end RdfTypes
