import Verif.Proof.Search
import Verif.Proof.Listings
import Verif.Proof.Peak

/-! # Places of the statements, along histories -/

set_option linter.unusedSectionVars false
set_option linter.unusedSimpArgs false

namespace RdfTypes

open Spec Container

/-! ## Shelves and slabs -/

namespace KeptIn

variable {σ S : Type} {st st' : Slab σ} {v v' : Nat → Option S} {h h' : Shelf S} {x : S}

theorem at_iff (hk : KeptIn st v h) (k : Nat) : v k = some x ↔ h.places[k]? = some (some x) := by
  rw [hk.val, Option.join_eq_some_iff]

theorem has (hk : KeptIn st v h) : (∃ k, v k = some x) ↔ h.has x := by
  unfold Shelf.has
  rw [List.mem_iff_getElem?]
  exact exists_congr fun k => hk.at_iff k

theorem put (hk : KeptIn st v h) (w : st.WF) {q : σ} (hst : st' = st.insert q)
    (hv : ∀ k, v' k = if k = st.vacantKey then some x else v k) : KeptIn st' v' (h.put x) := by
  subst hst
  unfold Slab.insert Shelf.put
  unfold Slab.vacantKey at hv
  rw [← hk.free]
  cases hf : st.free with
  | nil =>
    simp only [hf] at hv
    refine ⟨by simp [hk.len], rfl, ?_⟩
    intro k
    rw [hv, hk.len]
    simp only [List.getElem?_append]
    by_cases h1 : k < h.places.length
    · have : k ≠ h.places.length := by omega
      simp [h1, this, hk.val]
    · by_cases h2 : k = h.places.length
      · subst h2; simp
      · have h3 : ([some x] : List (Option S))[k - h.places.length]? = none := by
          apply List.getElem?_eq_none
          simp; omega
        have h4 : h.places[k]? = none := List.getElem?_eq_none (by omega)
        simp [h1, h2, h3, h4, hk.val]
  | cons j ks =>
    simp only [hf] at hv
    have hj := ((w.mem_free j).1 (by simp [hf])).1
    refine ⟨by simp [hk.len], rfl, ?_⟩
    intro k
    rw [hv, List.getElem?_set]
    by_cases e : k = j
    · subst e
      rw [hk.len] at hj
      simp [hj]
    · have : j ≠ k := fun h => e h.symm
      simp [e, this, hk.val]

theorem clear (hk : KeptIn st v h) {k : Nat} (hst : st' = st.erase k)
    (hv : ∀ n, v' n = if n = k then none else v n) : KeptIn st' v' (h.clear k) := by
  subst hst
  refine ⟨by simp [Slab.erase, Shelf.clear, hk.len], by simp [Slab.erase, Shelf.clear, hk.free], ?_⟩
  intro n
  rw [hv]
  simp only [Shelf.clear, List.getElem?_set]
  by_cases e : n = k
  · subst e
    by_cases hl : n < h.places.length <;> simp [hl]
  · have : k ≠ n := fun h => e h.symm
    simp [e, this, hk.val]

end KeptIn

/-! ## Insertion and removal -/

section steps

variable {S D σ : Type} {c : Container S D} {Inv : D → Prop}
  {slab : D → Slab σ} {v : D → Nat → Option S}

/-- What the calls do to the slab of statements. -/
structure Stores (c : Container S D) (Inv : D → Prop) (slab : D → Slab σ)
    (v : D → Nat → Option S) : Prop where
  wf : ∀ {d}, Inv d → (slab d).WF
  inj : ∀ {d k k' x}, Inv d → v d k = some x → v d k' = some x → k = k'
  empty : slab c.empty = Slab.empty ∧ ∀ k, v c.empty k = none
  insert : ∀ {d d' x b}, Inv d → c.insert d x = .ok (d', b) →
    ((∃ k, v d k = some x) ∧ d' = d) ∨
    ((¬ ∃ k, v d k = some x) ∧ ∃ q, slab d' = (slab d).insert q ∧
      ∀ k, v d' k = if k = (slab d).vacantKey then some x else v d k)
  remove : ∀ {d d' x b}, Inv d → c.remove d x = .ok (d', b) →
    ((¬ ∃ k, v d k = some x) ∧ d' = d) ∨
    ∃ k, v d k = some x ∧ slab d' = (slab d).erase k ∧
      ∀ n, v d' n = if n = k then none else v d n

namespace Stores

variable (T : Stores c Inv slab v) {d d' : D} {h h' : Shelf S} {x : S} {b : Bool}
include T

theorem kept_empty : KeptIn (slab c.empty) (v c.empty) Shelf.empty := by
  obtain ⟨h1, h2⟩ := T.empty
  rw [h1]
  exact ⟨rfl, rfl, fun k => by rw [h2]; simp [Shelf.empty]⟩

theorem kept_insert (hi : Inv d) (hk : KeptIn (slab d) (v d) h)
    (e : c.insert d x = .ok (d', b)) (ha : h.Adds x h') : KeptIn (slab d') (v d') h' := by
  rcases T.insert hi e with ⟨h1, rfl⟩ | ⟨h1, q, h2, h3⟩
  · rcases ha with ⟨-, rfl⟩ | ⟨hn, -⟩
    · exact hk
    · exact absurd (hk.has.1 h1) hn
  · rcases ha with ⟨hn, -⟩ | ⟨-, rfl⟩
    · exact absurd (hk.has.2 hn) h1
    · exact hk.put (T.wf hi) h2 h3

theorem kept_remove (hi : Inv d) (hk : KeptIn (slab d) (v d) h)
    (e : c.remove d x = .ok (d', b)) (ha : h.Drops x h') : KeptIn (slab d') (v d') h' := by
  rcases T.remove hi e with ⟨h1, rfl⟩ | ⟨k, h1, h2, h3⟩
  · rcases ha with ⟨-, rfl⟩ | ⟨k, hk', -⟩
    · exact hk
    · exact absurd ⟨k, (hk.at_iff k).2 hk'⟩ h1
  · rcases ha with ⟨hn, -⟩ | ⟨k', hk', rfl⟩
    · exact absurd (hk.has.1 ⟨k, h1⟩) hn
    · have := T.inj hi h1 ((hk.at_iff k').2 hk')
      subst this
      exact hk.clear h2 h3

theorem exists_adds (x : S) : ∃ h', h.Adds x h' := by
  by_cases hx : h.has x
  · exact ⟨h, .inl ⟨hx, rfl⟩⟩
  · exact ⟨h.put x, .inr ⟨hx, rfl⟩⟩

theorem exists_drops (x : S) : ∃ h', h.Drops x h' := by
  by_cases hx : h.has x
  · obtain ⟨k, hk⟩ := List.mem_iff_getElem?.1 hx
    exact ⟨h.clear k, .inr ⟨k, hk, rfl⟩⟩
  · exact ⟨h, .inl ⟨hx, rfl⟩⟩

variable {P : (S → Prop) → Op S → Prop}

/-- A state with places is a state, and its statements are those in the places. -/
theorem plain 
    (L : ∀ {d A}, Reach c P d A → Stands Inv (fun d x => ∃ k, v d k = some x) d A)
    (hs : PlainShelf c P d h) : Reach c P d h.has ∧ KeptIn (slab d) (v d) h := by
  have fin : ∀ {d h A}, Reach c P d A → KeptIn (slab d) (v d) h →
      Reach c P d h.has ∧ KeptIn (slab d) (v d) h := by
    intro d h A hr hk
    have : A = h.has := funext fun x => propext (by
      rw [← (L hr).2 x]; exact hk.has)
    subst this
    exact ⟨hr, hk⟩
  induction hs with
  | new => exact fin .new T.kept_empty
  | insert _ hp e ha ih =>
    obtain ⟨hr, hk⟩ := ih
    exact fin (.insert hr hp e) (T.kept_insert (L hr).1 hk e ha)
  | remove _ hp e ha ih =>
    obtain ⟨hr, hk⟩ := ih
    exact fin (.remove hr hp e) (T.kept_remove (L hr).1 hk e ha)

/-- Every state has places. -/
theorem plain_exists 
    (L : ∀ {d A}, Reach c P d A → Stands Inv (fun d x => ∃ k, v d k = some x) d A)
    {A : S → Prop} (hr : Reach c P d A) : ∃ h, PlainShelf c P d h ∧ A = h.has := by
  have fin : ∀ {d h A}, Reach c P d A → PlainShelf c P d h → ∃ h, PlainShelf c P d h ∧ A = h.has := by
    intro d h A hr hs
    refine ⟨h, hs, funext fun x => propext ?_⟩
    rw [← (L hr).2 x, ← (L (T.plain L hs).1).2 x]
  induction hr with
  | new => exact fin .new .new
  | @insert d A x d' b hr hp e ih =>
    obtain ⟨h, hs, rfl⟩ := ih
    obtain ⟨h', ha⟩ := T.exists_adds (h := h) x
    exact fin (.insert hr hp e) (.insert hs hp e ha)
  | @remove d A x d' b hr hp e ih =>
    obtain ⟨h, hs, rfl⟩ := ih
    obtain ⟨h', ha⟩ := T.exists_drops (h := h) x
    exact fin (.remove hr hp e) (.remove hs hp e ha)

end Stores

end steps

variable {R : Type} [Ord R] [Std.TransOrd R] [Std.LawfulEqOrd R] {rep : Bool}

theorem BTreeDataset.stores (rep : Bool) :
    Stores (BTreeDataset.container rep R) BTreeDataset.WF (·.quads) BTreeDataset.sval where
  wf h := h.wf
  inj h h1 h2 := h.sval_inj quadShape_laws h1 h2
  empty := ⟨rfl, fun k => by simp [sval, Shape.sval, container, new]⟩
  insert {d d' x b} h e := by
    obtain ⟨d1, b1, e1, -, -, hb, hf, -, -, ht⟩ := insert_spec rep h x
    replace e : d.insert rep x = .ok (d', b) := e
    rw [e] at e1
    cases e1
    cases b with
    | false => exact .inl ⟨by simp at hb; exact hb, hf rfl⟩
    | true => exact .inr ⟨hb.1 rfl, ht rfl⟩
  remove {d d' x b} h e := by
    obtain ⟨d1, b1, e1, -, -, hb, hf, -, ht⟩ := remove_spec h x
    replace e : d.remove x = .ok (d', b) := e
    rw [e] at e1
    cases e1
    cases b with
    | false => exact .inl ⟨by simp at hb; exact hb, hf rfl⟩
    | true => exact .inr (ht rfl)

theorem BTreeGraph.stores (rep : Bool) :
    Stores (BTreeGraph.container rep R) BTreeGraph.WF (·.triples) BTreeGraph.sval where
  wf h := h.wf
  inj h h1 h2 := h.sval_inj tripleShape_laws h1 h2
  empty := ⟨rfl, fun k => by simp [sval, Shape.sval, container, new]⟩
  insert {d d' x b} h e := by
    obtain ⟨d1, b1, e1, -, -, hb, hf, -, -, ht⟩ := insert_spec rep h x
    replace e : d.insert rep x = .ok (d', b) := e
    rw [e] at e1
    cases e1
    cases b with
    | false => exact .inl ⟨by simp at hb; exact hb, hf rfl⟩
    | true => exact .inr ⟨hb.1 rfl, ht rfl⟩
  remove {d d' x b} h e := by
    obtain ⟨d1, b1, e1, -, -, hb, hf, -, ht⟩ := remove_spec h x
    replace e : d.remove x = .ok (d', b) := e
    rw [e] at e1
    cases e1
    cases b with
    | false => exact .inl ⟨by simp at hb; exact hb, hf rfl⟩
    | true => exact .inr (ht rfl)

theorem IndexedBTreeDataset.stores (rep : Bool) :
    Stores (IndexedBTreeDataset.container rep R) IndexedBTreeDataset.WF (·.quads)
      IndexedBTreeDataset.sval where
  wf h := h.inv.wf
  inj h h1 h2 := h.inv.sval_inj quadShape_laws h1 h2
  empty := ⟨rfl, fun k => by simp [sval, Shape.sval, container, new]⟩
  insert {d d' x b} h e := by
    rcases insert_tables h e with ⟨h1, h2⟩ | ⟨h1, q, h2, -⟩
    · exact .inl ⟨h1, h2⟩
    · exact .inr ⟨h1, q, h2.stmts, h2.sval⟩
  remove {d d' x b} h e := by
    replace e : d.remove x = .ok (d', b) := e
    rcases remove_core h x with ⟨k, q, d1, e1, r⟩ | ⟨e1, hx⟩
    · rw [e] at e1
      cases e1
      exact .inr ⟨k, r.was, r.quads, r.sval⟩
    · rw [e] at e1
      cases e1
      exact .inl ⟨hx, rfl⟩

theorem IndexedBTreeGraph.stores (rep : Bool) :
    Stores (IndexedBTreeGraph.container rep R) IndexedBTreeGraph.WF (·.triples)
      IndexedBTreeGraph.sval where
  wf h := h.inv.wf
  inj h h1 h2 := h.inv.sval_inj tripleShape_laws h1 h2
  empty := ⟨rfl, fun k => by simp [sval, Shape.sval, container, new]⟩
  insert {d d' x b} h e := by
    rcases insert_tables h e with ⟨h1, h2⟩ | ⟨h1, q, h2, -⟩
    · exact .inl ⟨h1, h2⟩
    · exact .inr ⟨h1, q, h2.stmts, h2.sval⟩
  remove {d d' x b} h e := by
    replace e : d.remove x = .ok (d', b) := e
    rcases remove_core h x with ⟨k, q, d1, e1, r⟩ | ⟨e1, hx⟩
    · rw [e] at e1
      cases e1
      exact .inr ⟨k, r.was, r.triples, r.sval⟩
    · rw [e] at e1
      cases e1
      exact .inl ⟨hx, rfl⟩

/-! ## Indexed graphs -/

namespace IndexedBTreeGraph

variable {P : (Triple R → Prop) → Op (Triple R) → Prop}

theorem shelf_kept {d : IndexedBTreeGraph R} {h : Shelf (Triple R)} (hs : GraphShelf rep P d h) :
    GraphReach rep P P d h.has ∧ d.Kept h := by
  have fin : ∀ {d : IndexedBTreeGraph R} {h : Shelf (Triple R)} {A}, GraphReach rep P P d A →
      d.Kept h → GraphReach rep P P d h.has ∧ d.Kept h := by
    intro d h A hr hk
    have : A = h.has := funext fun x => propext (by
      rw [← (reach_stands hr).2 x, ← hk.has]; rfl)
    subst this
    exact ⟨hr, hk⟩
  induction hs with
  | new => exact fin .new (stores (R := R) rep).kept_empty
  | @convert g h d hg e =>
    obtain ⟨hr, hk⟩ := (BTreeGraph.stores (R := R) rep).plain
      (P := P) (BTreeGraph.laws rep).reach_stands hg
    obtain ⟨d1, e1, -, -, -, -, -, -, -, hv⟩ :=
      fromNonIndexed_spec ((BTreeGraph.laws rep).reach_stands hr).1
    rw [e] at e1
    cases e1
    have ht := fromNonIndexed_triples e
    exact fin (.convert hr e) ⟨by rw [ht]; exact hk.len, by rw [ht]; exact hk.free,
      fun k => by rw [hv.1]; exact hk.val k⟩
  | insert _ hp e ha ih =>
    obtain ⟨hr, hk⟩ := ih
    exact fin (.insert hr hp e) ((stores rep).kept_insert (reach_stands hr).1 hk e ha)
  | remove _ hp e ha ih =>
    obtain ⟨hr, hk⟩ := ih
    exact fin (.remove hr hp e) ((stores rep).kept_remove (reach_stands hr).1 hk e ha)

theorem shelf_exists {d : IndexedBTreeGraph R} {A : Triple R → Prop}
    (hr : GraphReach rep P P d A) : ∃ h, GraphShelf rep P d h ∧ A = h.has := by
  have fin : ∀ {d : IndexedBTreeGraph R} {h : Shelf (Triple R)} {A}, GraphReach rep P P d A →
      GraphShelf rep P d h → ∃ h, GraphShelf rep P d h ∧ A = h.has := by
    intro d h A hr hs
    refine ⟨h, hs, funext fun x => propext ?_⟩
    rw [← (reach_stands hr).2 x, ← (reach_stands (shelf_kept hs).1).2 x]
  induction hr with
  | new => exact fin .new .new
  | @convert g A d hg e =>
    obtain ⟨h, hs, rfl⟩ := (BTreeGraph.stores (R := R) rep).plain_exists
      (P := P) (BTreeGraph.laws rep).reach_stands hg
    exact fin (.convert hg e) (.convert hs e)
  | @insert d A x d' b hr hp e ih =>
    obtain ⟨h, hs, rfl⟩ := ih
    obtain ⟨h', ha⟩ := (stores (R := R) rep).exists_adds (h := h) x
    exact fin (.insert hr hp e) (.insert hs hp e ha)
  | @remove d A x d' b hr hp e ih =>
    obtain ⟨h, hs, rfl⟩ := ih
    obtain ⟨h', ha⟩ := (stores (R := R) rep).exists_drops (h := h) x
    exact fin (.remove hr hp e) (.remove hs hp e ha)

end IndexedBTreeGraph

/-! ## Indexed datasets -/

namespace IndexedBTreeDataset

variable {P : (Quad R → Prop) → Op (Quad R) → Prop}

theorem Removed.kept {d d' : IndexedBTreeDataset R} {xs : List (Quad R)} (r : Removed d xs d') :
    ∀ {h h' : Shelf (Quad R)}, d.WF → d.Kept h → h.DropsAll xs h' → d'.Kept h' := by
  induction r with
  | nil =>
    intro h h' _ hk hd
    cases hd
    exact hk
  | @cons d k q x d₁ xs d' r _ ih =>
    intro h h' w hk hd
    cases hd with
    | @cons _ h₁ _ _ _ hx hd₁ hd =>
      refine ih r.wf ?_ hd
      rcases hd₁ with ⟨hn, -⟩ | ⟨k', hk', rfl⟩
      · exact absurd hx hn
      · have := w.inv.sval_inj quadShape_laws r.was ((hk.at_iff k').2 hk')
        subst this
        exact hk.clear r.quads r.sval

theorem Removed.drops {d d' : IndexedBTreeDataset R} {xs : List (Quad R)} (r : Removed d xs d') :
    ∀ {h : Shelf (Quad R)}, d.Kept h → ∃ h', h.DropsAll xs h' := by
  induction r with
  | nil =>
    intro h _
    exact ⟨h, .nil⟩
  | @cons d k q x d₁ xs d' r _ ih =>
    intro h hk
    obtain ⟨h', hd⟩ := ih (hk.clear r.quads r.sval)
    exact ⟨h', .cons (hk.has.1 ⟨k, r.was⟩) (.inr ⟨k, (hk.at_iff k).1 r.was, rfl⟩) hd⟩

/-- The quads that `remove_graph` takes out, in the order of their places. -/
theorem GraphRemoved.picks {d d' : IndexedBTreeDataset R} {g : Option R}
    {out : Option (BTreeGraph R)} (gr : GraphRemoved d g d' out) (w : d.WF) {h : Shelf (Quad R)}
    (hk : d.Kept h) : ∃ xs, Removed d xs d' ∧ Picks (returned g out) h.places xs := by
  obtain ⟨xs, r, l, hl, hmap⟩ := gr.chain
  refine ⟨xs, r, picks_of_keys hl ?_ ?_⟩
  · have hin : ∀ x, d.abs x → (x ∈ xs ↔ returned g out x) := by
      intro x hx
      have h1 := r.abs.1 x
      have h2 := gr.removed x
      rw [h1] at h2
      rw [returned_iff gr]
      constructor
      · intro hm
        refine Classical.byContradiction fun hn => ?_
        exact (h2.2 ⟨hx, hn⟩).2 hm
      · intro hm
        refine Classical.byContradiction fun hn => ?_
        exact (h2.1 ⟨hx, hn⟩).2 hm
    intro k
    have hmem : ∀ x, x ∈ xs ↔ ∃ k ∈ l, d.sval k = some x := by
      intro x
      have : some x ∈ xs.map some ↔ ∃ k ∈ l, d.sval k = some x := by rw [hmap, List.mem_map]
      simpa using this
    constructor
    · intro hkl
      have : d.sval k ∈ xs.map some := by
        rw [hmap]
        exact List.mem_map.2 ⟨k, hkl, rfl⟩
      obtain ⟨x, hx, e⟩ := List.mem_map.1 this
      exact ⟨x, (hk.at_iff k).1 e.symm, (hin x ⟨k, e.symm⟩).1 hx⟩
    · rintro ⟨x, hx, hw⟩
      rw [← hk.at_iff k] at hx
      obtain ⟨k', hk', e⟩ := (hmem x).1 ((hin x ⟨k, hx⟩).2 hw)
      rw [w.inv.sval_inj quadShape_laws hx e]
      exact hk'
  · rw [hmap]
    exact List.map_congr_left fun k _ => (hk.val k).symm

theorem shelf_kept {d : IndexedBTreeDataset R} {h : Shelf (Quad R)} (hs : DatasetShelf rep P d h) :
    DatasetReach rep P P True d h.has ∧ d.Kept h := by
  have fin : ∀ {d : IndexedBTreeDataset R} {h : Shelf (Quad R)} {A},
      DatasetReach rep P P True d A → d.Kept h →
      DatasetReach rep P P True d h.has ∧ d.Kept h := by
    intro d h A hr hk
    have : A = h.has := funext fun x => propext (by
      rw [← (reach_stands hr).2 x, ← hk.has]; rfl)
    subst this
    exact ⟨hr, hk⟩
  induction hs with
  | new => exact fin .new (stores (R := R) rep).kept_empty
  | @convert g h d hg e =>
    obtain ⟨hr, hk⟩ := (BTreeDataset.stores (R := R) rep).plain
      (P := P) (BTreeDataset.laws rep).reach_stands hg
    obtain ⟨d1, e1, -, -, -, -, -, -, -, hv⟩ :=
      fromNonIndexed_spec ((BTreeDataset.laws rep).reach_stands hr).1
    rw [e] at e1
    cases e1
    have ht := fromNonIndexed_quads e
    exact fin (.convert hr e) ⟨by rw [ht]; exact hk.len, by rw [ht]; exact hk.free,
      fun k => by rw [hv.1]; exact hk.val k⟩
  | insert _ hp e ha ih =>
    obtain ⟨hr, hk⟩ := ih
    exact fin (.insert hr hp e) ((stores rep).kept_insert (reach_stands hr).1 hk e ha)
  | remove _ hp e ha ih =>
    obtain ⟨hr, hk⟩ := ih
    exact fin (.remove hr hp e) ((stores rep).kept_remove (reach_stands hr).1 hk e ha)
  | @removeGraph d d' h h' g out xs _ e hx hd ih =>
    obtain ⟨hr, hk⟩ := ih
    have w := (reach_stands hr).1
    obtain ⟨d1, out1, e1, gr⟩ := removeGraph_spec rep w g
    rw [e] at e1
    cases e1
    obtain ⟨ys, r, hy⟩ := gr.picks w hk
    rw [hx.unique hy] at hd
    exact fin (.removeGraph hr trivial e) (r.kept w hk hd)
  | @extract d d' h h' pat cap n xs ended _ hcap e hd ih =>
    obtain ⟨hr, hk⟩ := ih
    have w := (reach_stands hr).1
    obtain ⟨d1, out1, ended1, e1, r, -⟩ := extractPatternMatching_spec w hcap pat n
    rw [e] at e1
    cases e1
    exact fin (.extract hr trivial hcap e) (r.kept w hk hd)

theorem shelf_exists {d : IndexedBTreeDataset R} {A : Quad R → Prop}
    (hr : DatasetReach rep P P True d A) : ∃ h, DatasetShelf rep P d h ∧ A = h.has := by
  have fin : ∀ {d : IndexedBTreeDataset R} {h : Shelf (Quad R)} {A},
      DatasetReach rep P P True d A →
      DatasetShelf rep P d h → ∃ h, DatasetShelf rep P d h ∧ A = h.has := by
    intro d h A hr hs
    refine ⟨h, hs, funext fun x => propext ?_⟩
    rw [← (reach_stands hr).2 x, ← (reach_stands (shelf_kept hs).1).2 x]
  induction hr with
  | new => exact fin .new .new
  | @convert g A d hg e =>
    obtain ⟨h, hs, rfl⟩ := (BTreeDataset.stores (R := R) rep).plain_exists
      (P := P) (BTreeDataset.laws rep).reach_stands hg
    exact fin (.convert hg e) (.convert hs e)
  | @insert d A x d' b hr hp e ih =>
    obtain ⟨h, hs, rfl⟩ := ih
    obtain ⟨h', ha⟩ := (stores (R := R) rep).exists_adds (h := h) x
    exact fin (.insert hr hp e) (.insert hs hp e ha)
  | @remove d A x d' b hr hp e ih =>
    obtain ⟨h, hs, rfl⟩ := ih
    obtain ⟨h', ha⟩ := (stores (R := R) rep).exists_drops (h := h) x
    exact fin (.remove hr hp e) (.remove hs hp e ha)
  | @removeGraph d A g d' out hr ht e ih =>
    obtain ⟨h, hs, rfl⟩ := ih
    have w := (reach_stands hr).1
    obtain ⟨d1, out1, e1, gr⟩ := removeGraph_spec rep w g
    rw [e] at e1
    cases e1
    obtain ⟨xs, r, hx⟩ := gr.picks w (shelf_kept hs).2
    obtain ⟨h', hd⟩ := r.drops (shelf_kept hs).2
    exact fin (.removeGraph hr ht e) (.removeGraph hs e hx hd)
  | @extract d A pat cap n d' out ended hr ht hcap e ih =>
    obtain ⟨h, hs, rfl⟩ := ih
    have w := (reach_stands hr).1
    obtain ⟨d1, out1, ended1, e1, r, -⟩ := extractPatternMatching_spec w hcap pat n
    rw [e] at e1
    cases e1
    obtain ⟨h', hd⟩ := r.drops (shelf_kept hs).2
    exact fin (.extract hr ht hcap e) (.extract hs hcap e hd)

end IndexedBTreeDataset

end RdfTypes
