import Verif.Proof.Book

/-! # The books of the containers -/

set_option linter.unusedSectionVars false
set_option linter.unusedSimpArgs false

namespace RdfTypes

open Spec Container

variable {R ρ σ S : Type} [Ord R] [Std.TransOrd R] [Std.LawfulEqOrd R] [Ord S] [Std.TransOrd S]
  [Std.LawfulEqOrd S] [DecidableEq R] [DecidableEq S]

section tables

variable {sh : Shape σ S R} {ops : ResOps R ρ} {Rep : ρ → (Pos → Nat → Prop) → Prop}
  {res res' : Slab ρ} {idx idx' sidx : Index} {st : Slab σ} {nm : Nat → Option S}
  {M M' : Pos → Nat → Prop} {b : Book R S} {x : S} {q : σ}

theorem Inv.naming (H : ShapeLaws sh) (inv : Inv sh ops Rep res idx st sidx) :
    Naming (sh.uses st) (sh.sval ops res st) where
  defd hu := by
    obtain ⟨x, r, h, -⟩ := inv.comp_value H hu
    exact ⟨x, h⟩
  inj h h' := inv.sval_inj H h h'
  one := by
    rintro i j p k ⟨q, hq, h⟩ ⟨q', hq', h'⟩
    rw [hq] at hq'
    cases hq'
    rw [h] at h'
    cases h'
    rfl

namespace Holds

theorem before (inv : Inv sh ops Rep res idx st sidx)
    (h : Holds ops res idx (sh.uses st) (sh.sval ops res st) M b)
    (hn : ∀ k, nm k = if k = st.vacantKey then some x else sh.sval ops res st k) :
    Holds ops res idx (sh.uses st) nm M b := by
  refine h.congr (fun _ _ _ => Iff.rfl) (fun i p k hu => ?_) (fun _ _ => Iff.rfl)
  rw [hn, if_neg]
  rintro rfl
  exact Shape.not_uses_vacant inv.wf i p hu

theorem after (w : st.WF)
    (h : Holds ops res' idx' (fun i p n => sh.uses st i p n ∨ (sh.comp q p = some i ∧
      n = st.vacantKey)) nm M b) : Holds ops res' idx' (sh.uses (st.insert q)) nm M b := by
  refine h.congr (fun i p n => ?_) (fun _ _ _ _ => rfl) (fun _ _ => Iff.rfl)
  rw [Shape.uses_insert w]
  simp [and_comm]

theorem erased {k : Nat} (h : Holds ops res' idx' (fun i p n => sh.uses st i p n ∧ n ≠ k)
      (sh.sval ops res st) M b) (hn : ∀ n, nm n = if n = k then none else sh.sval ops res st n)
    (hM : ∀ p i, M p i ↔ M' p i) : Holds ops res' idx' (sh.uses (st.erase k)) nm M' b := by
  refine h.congr (fun i p n => (Shape.uses_erase i p k n).symm) (fun i p n hu => ?_) hM
  rw [hn, if_neg hu.2]

theorem remarked (h : Holds ops res idx E nm M b) :
    Holds ops res idx E nm (fun p i => b.marked p i = true) b :=
  ⟨h.len, h.free, h.val, h.occ, h.cur, fun _ _ => Iff.rfl⟩

theorem knows (H : ShapeLaws sh) (hs : ∀ x, ∃ r, sh.compV x .subj = some r)
    (inv : Inv sh ops Rep res idx st sidx)
    (h : Holds ops res idx (sh.uses st) (sh.sval ops res st) M b) (x : S) :
    b.knows x = true ↔ sh.abs ops res st x := by
  refine h.knows_iff inv.table (fun k y hy => ?_) x
  obtain ⟨r, hr⟩ := hs y
  obtain ⟨i, hu, -⟩ := inv.value_comp H hy hr
  exact ⟨i, .subj, hu⟩

theorem empty : Holds ops Slab.empty ([] : Index) (fun _ _ _ => False) nm (fun _ _ => False)
    (Book.empty : Book R S) where
  len := rfl
  free := rfl
  val i := by simp [ResOps.val, Slab.get, Slab.empty, Book.empty, Book.at_, Shelf.empty]
  occ i r g hg := by simp [Book.empty, Book.at_, Shelf.empty] at hg
  cur r i := by simp [Book.empty]
  marks p i := by simp [Book.empty]

end Holds

/-! ### Lengths -/

theorem Book.length_enterAt (rep : Bool) (b : Book R S) (known : Option Nat) (a : S × Pos) (r : R) :
    b.records.places.length ≤ (b.enterAt rep known a r).records.places.length := by
  cases known with
  | some k => simp [Book.enterAt]
  | none =>
    simp only [Book.enterAt, Shelf.put]
    split <;> simp

theorem Book.length_enter (rep : Bool) (terms : S → Pos → Option R) (b : Book R S) (x : S) :
    b.records.places.length ≤ (b.enter rep terms x).records.places.length := by
  unfold Book.enter
  split
  · exact Nat.le_refl _
  · suffices ∀ (l : List Pos) (b₀ b' : Book R S),
        b'.records.places.length ≤ (l.foldl (fun b' p => match terms x p with
          | some r => b'.enterAt rep (b₀.current r) (x, p) r
          | none => b') b').records.places.length from this _ _ _
    intro l b₀
    induction l with
    | nil => exact fun _ => Nat.le_refl _
    | cons p l ih =>
      intro b'
      simp only [List.foldl_cons]
      refine Nat.le_trans ?_ (ih _)
      split
      · exact Book.length_enterAt ..
      · exact Nat.le_refl _

theorem Book.length_leaveAt (b : Book R S) (a : S × Pos) :
    (b.leaveAt a).records.places.length = b.records.places.length := by
  unfold Book.leaveAt
  split
  · rfl
  · split
    · rfl
    · simp only
      split <;> simp [Shelf.clear]

theorem Book.length_leave (b : Book R S) (x : S) :
    (b.leave x).records.places.length = b.records.places.length := by
  simp [Book.leave, Book.length_leaveAt]

end tables

section statements

variable {ops : ResOps R ρ} {Rep : ρ → (Pos → Nat → Prop) → Prop}
  {res res' r1 r2 r3 : Slab ρ} {idx idx' i1 i2 i3 sidx : Index} {b1 b2 b3 : Bool} {k : Nat}
  {M : Pos → Nat → Prop} {cs cp co cg : Slab ρ → Nat → Res Ordering}

theorem Holds.insertQuad (L : ResLaws ops Rep) {rep : Bool} {st : Slab (Quad Nat)}
    (inv : Inv (quadShape R) ops Rep res idx st sidx) {b : Book R (Quad R)} {x : Quad R}
    {q : Quad Nat} {nm : Nat → Option (Quad R)}
    (h : Holds ops res idx ((quadShape R).uses st) ((quadShape R).sval ops res st) M b)
    (hx : ¬ (quadShape R).abs ops res st x)
    (e : ops.acquireQuad rep res idx st.vacantKey x = .ok (res', idx', q))
    (hn : ∀ k, nm k = if k = st.vacantKey then some x else (quadShape R).sval ops res st k) :
    Holds ops res' idx' ((quadShape R).uses (st.insert q)) nm
      (fun p i => M p i ∨ (quadShape R).comp q p = some i) (b.enter rep quadAt x) := by
  have hk : b.knows x = false := by
    rw [Bool.eq_false_iff]
    intro hk
    exact hx ((h.knows quadShape_laws (fun x => ⟨x.s, rfl⟩) inv x).1 hk)
  have : b.enter rep quadAt x = enterAll rep quadAt b x := by
    unfold Book.enter
    rw [hk]
    rfl
  rw [this]
  exact ((h.before inv hn).acquireQuad L inv.table (fun i p => Shape.not_uses_vacant inv.wf i p)
    (by rw [hn, if_pos rfl]) e).after inv.wf

theorem Holds.insertTriple (L : ResLaws ops Rep) {rep : Bool} {st : Slab (Triple Nat)}
    (inv : Inv (tripleShape R) ops Rep res idx st sidx) {b : Book R (Triple R)} {x : Triple R}
    {q : Triple Nat} {nm : Nat → Option (Triple R)}
    (h : Holds ops res idx ((tripleShape R).uses st) ((tripleShape R).sval ops res st) M b)
    (hx : ¬ (tripleShape R).abs ops res st x)
    (e : ops.acquireTriple rep res idx st.vacantKey x = .ok (res', idx', q))
    (hn : ∀ k, nm k = if k = st.vacantKey then some x else (tripleShape R).sval ops res st k) :
    Holds ops res' idx' ((tripleShape R).uses (st.insert q)) nm
      (fun p i => M p i ∨ (tripleShape R).comp q p = some i) (b.enter rep tripleAt x) := by
  have hk : b.knows x = false := by
    rw [Bool.eq_false_iff]
    intro hk
    exact hx ((h.knows tripleShape_laws (fun x => ⟨x.s, rfl⟩) inv x).1 hk)
  have : b.enter rep tripleAt x = enterAll rep tripleAt b x := by
    unfold Book.enter
    rw [hk]
    rfl
  rw [this]
  exact ((h.before inv hn).acquireTriple L inv.table (fun i p => Shape.not_uses_vacant inv.wf i p)
    (by rw [hn, if_pos rfl]) e).after inv.wf

/-- Taking a quad out. -/
theorem Holds.removeQuad (L : ResLaws ops Rep) {st : Slab (Quad Nat)}
    (inv : Inv (quadShape R) ops Rep res idx st sidx) {b : Book R (Quad R)} {x : Quad R}
    {q : Quad Nat} {nm : Nat → Option (Quad R)}
    (h : Holds ops res idx ((quadShape R).uses st) ((quadShape R).sval ops res st) M b)
    (hq : st.get k = some q) (hx : (quadShape R).sval ops res st k = some x)
    (hn : ∀ n, nm n = if n = k then none else (quadShape R).sval ops res st n)
    (hs : ∀ res', ops.val res' q.s = some x.s → ∀ l, Index.Compares (ops.val res') x.s l (cs res'))
    (hp : ∀ res', ops.val res' q.p = some x.p → ∀ l, Index.Compares (ops.val res') x.p l (cp res'))
    (ho : ∀ res', ops.val res' q.o = some x.o → ∀ l, Index.Compares (ops.val res') x.o l (co res'))
    (e1 : ops.release res idx .subj k q.s cs = .ok (r1, i1, b1))
    (e2 : ops.release r1 i1 .pred k q.p cp = .ok (r2, i2, b2))
    (e3 : ops.release r2 i2 .obj k q.o co = .ok (r3, i3, b3)) :
    (q.g = none → Holds ops r3 i3 ((quadShape R).uses (st.erase k)) nm
      (fun p i => M p i ∧ ¬ (p ≠ .graph ∧ (quadShape R).comp q p = some i)) (b.leave x)) ∧
    ∀ g r4 i4 b4, q.g = some g →
      (∀ y res', ops.val res' g = some y → ∀ l, Index.Compares (ops.val res') y l (cg res')) →
      ops.release r3 i3 .graph k g cg = .ok (r4, i4, b4) →
      Holds ops r4 i4 ((quadShape R).uses (st.erase k)) nm
        (fun p i => M p i ∧ ¬ ((quadShape R).comp q p = some i ∧ (p ≠ .graph ∨ b4 = true)))
        (b.leave x) := by
  have N := inv.naming quadShape_laws
  have val : ∀ {p i}, (quadShape R).comp q p = some i → ∃ r, ops.val res i = some r ∧
      (quadShape R).compV x p = some r := by
    intro p i hc
    obtain ⟨x', r, h1, h2, h3⟩ := inv.comp_value quadShape_laws (p := p) (i := i) ⟨q, hq, hc⟩
    rw [hx] at h1
    cases h1
    exact ⟨r, h2, h3⟩
  obtain ⟨_, vs, es⟩ := val (p := .subj) (i := q.s) rfl
  obtain ⟨_, vp, ep⟩ := val (p := .pred) (i := q.p) rfl
  obtain ⟨_, vo, eo⟩ := val (p := .obj) (i := q.o) rfl
  cases es
  cases ep
  cases eo
  obtain ⟨inv3, h3, v3⟩ := h.release3 L inv.table N hq hx rfl rfl rfl vs vp vo hs hp ho e1 e2 e3
  constructor
  · intro hg
    exact (without_graph N h3 hq hx (by simpa [quadShape] using hg)).erased hn fun _ _ => Iff.rfl
  · intro g r4 i4 b4 hg hc e4
    obtain ⟨y, vg, -⟩ := val (p := .graph) (i := g) (by simpa [quadShape] using hg)
    exact (with_graph L N inv3 h3 v3 hq hx (by simpa [quadShape] using hg) vg (hc y) e4).erased hn
      fun _ _ => Iff.rfl

theorem Holds.removeTriple (L : ResLaws ops Rep) {st : Slab (Triple Nat)}
    (inv : Inv (tripleShape R) ops Rep res idx st sidx) {b : Book R (Triple R)} {x : Triple R}
    {q : Triple Nat} {nm : Nat → Option (Triple R)}
    (h : Holds ops res idx ((tripleShape R).uses st) ((tripleShape R).sval ops res st) M b)
    (hq : st.get k = some q) (hx : (tripleShape R).sval ops res st k = some x)
    (hn : ∀ n, nm n = if n = k then none else (tripleShape R).sval ops res st n)
    (hs : ∀ res', ops.val res' q.s = some x.s → ∀ l, Index.Compares (ops.val res') x.s l (cs res'))
    (hp : ∀ res', ops.val res' q.p = some x.p → ∀ l, Index.Compares (ops.val res') x.p l (cp res'))
    (ho : ∀ res', ops.val res' q.o = some x.o → ∀ l, Index.Compares (ops.val res') x.o l (co res'))
    (e1 : ops.release res idx .subj k q.s cs = .ok (r1, i1, b1))
    (e2 : ops.release r1 i1 .pred k q.p cp = .ok (r2, i2, b2))
    (e3 : ops.release r2 i2 .obj k q.o co = .ok (r3, i3, b3)) :
    Holds ops r3 i3 ((tripleShape R).uses (st.erase k)) nm
      (fun p i => M p i ∧ ¬ (p ≠ .graph ∧ (tripleShape R).comp q p = some i)) (b.leave x) := by
  have N := inv.naming tripleShape_laws
  have val : ∀ {p i}, (tripleShape R).comp q p = some i → ∃ r, ops.val res i = some r ∧
      (tripleShape R).compV x p = some r := by
    intro p i hc
    obtain ⟨x', r, h1, h2, h3⟩ := inv.comp_value tripleShape_laws (p := p) (i := i) ⟨q, hq, hc⟩
    rw [hx] at h1
    cases h1
    exact ⟨r, h2, h3⟩
  obtain ⟨_, vs, es⟩ := val (p := .subj) (i := q.s) rfl
  obtain ⟨_, vp, ep⟩ := val (p := .pred) (i := q.p) rfl
  obtain ⟨_, vo, eo⟩ := val (p := .obj) (i := q.o) rfl
  cases es
  cases ep
  cases eo
  obtain ⟨inv3, h3, v3⟩ := h.release3 L inv.table N hq hx rfl rfl rfl vs vp vo hs hp ho e1 e2 e3
  exact (without_graph N h3 hq hx rfl).erased hn fun _ _ => Iff.rfl

end statements

/-! ## Plain containers -/

namespace BTreeDataset

def Books (d : BTreeDataset R) (b : Book R (Quad R)) : Prop :=
  d.WF ∧ Holds (countOps R) d.resources d.resourcesIndexes ((quadShape R).uses d.quads) d.sval
    (fun p i => b.marked p i = true) b

variable {d d' : BTreeDataset R} {b : Book R (Quad R)} {x : Quad R} {o : Bool} {rep : Bool}

theorem books_new : (new : BTreeDataset R).Books .empty := by
  refine ⟨Inv.empty, (Holds.empty (nm := fun _ => none)).congr ?_ (fun _ _ _ h => h.elim) ?_⟩
  · intro i p k
    simp [Shape.uses, new]
  · simp [Book.empty]

theorem Books.insert (h : d.Books b) (e : d.insert rep x = .ok (d', o)) :
    d'.Books (b.enter rep quadAt x) := by
  obtain ⟨w, h⟩ := h
  obtain ⟨b', hb, hbi⟩ := contains_spec w x
  cases b' with
  | true =>
    simp [BTreeDataset.insert, hb, bind, Except.bind, pure, Except.pure] at e
    have hk := (h.knows quadShape_laws (fun x => ⟨x.s, rfl⟩) w x).2 (hbi.1 rfl)
    have : b.enter rep quadAt x = b := by
      unfold Book.enter
      rw [hk]
      rfl
    rw [this, ← e.1]
    exact ⟨w, h⟩
  | false =>
    have hx : ¬ d.abs x := fun e => by simpa using hbi.2 e
    obtain ⟨res', ridx', q, sidx', e1, e2, h1, h2, -, -⟩ :=
      Inv.insertQuad_spec (countOps_laws R) rep w x hx
    simp [BTreeDataset.insert, hb, e1, e2, bind, Except.bind, pure, Except.pure] at e
    obtain ⟨e, -⟩ := e
    subst e
    exact ⟨h1, (h.insertQuad (countOps_laws R) w hx e1 h2).remarked⟩

theorem Books.remove (h : d.Books b) (e : d.remove x = .ok (d', o)) : d'.Books (b.leave x) := by
  obtain ⟨w, h⟩ := h
  obtain ⟨d₁, o₁, e₁, w₁, -, -, hf, -, ht⟩ := remove_spec w x
  rw [e] at e₁
  cases e₁
  rcases Inv.removeIndex_spec quadShape_laws w x (quadCmp_compares d.quads x d.quadsIndexes) with
    ⟨k, q, sidx', er, hq, hx, hs, hm⟩ | ⟨er, hx⟩
  · refine ⟨w₁, ?_⟩
    unfold BTreeDataset.remove at e
    obtain ⟨_, er', e⟩ := bind_eq_ok e
    rw [er] at er'
    cases er'
    obtain ⟨_, eq', e⟩ := bind_eq_ok e
    rw [Slab.remove_ok hq] at eq'
    cases eq'
    obtain ⟨⟨r1, i1, b1⟩, e1, e⟩ := bind_eq_ok e
    obtain ⟨⟨r2, i2, b2⟩, e2, e⟩ := bind_eq_ok e
    obtain ⟨⟨r3, i3, b3⟩, e3, e⟩ := bind_eq_ok e
    have hn : ∀ n, d'.sval n = if n = k then none else d.sval n := by
      have ho : o = true := by
        simp only at e
        split at e
        · obtain ⟨⟨r4, i4, b4⟩, e4, e⟩ := bind_eq_ok e
          cases e
          rfl
        · cases e
          rfl
      obtain ⟨k', hk', -, hv⟩ := ht ho
      cases w.sval_inj quadShape_laws hk' hx
      exact hv
    obtain ⟨c1, c2⟩ := h.removeQuad (cg := fun res => (countOps R).resourceIndexCmp res (q.g.getD 0))
      (countOps_laws R) w hq hx hn (cmp_by_value _ _)
      (cmp_by_value _ _) (cmp_by_value _ _) e1 e2 e3
    simp only at e
    split at e
    · next g hg =>
      obtain ⟨⟨r4, i4, b4⟩, e4, e⟩ := bind_eq_ok e
      cases e
      rw [hg] at c2
      exact (c2 g r4 i4 b4 rfl (fun y => cmp_by_index g y) e4).remarked
    · next hg =>
      cases e
      exact (c1 hg).remarked
  · simp [BTreeDataset.remove, er, bind, Except.bind, pure, Except.pure] at e
    rw [h.leave_absent (x := x) (fun k hk => hx ⟨k, hk⟩), ← e.1]
    exact ⟨w, h⟩

theorem book_books (h : PlainBook (BTreeDataset.container rep R) rep quadAt d b) : d.Books b := by
  induction h with
  | new => exact books_new
  | insert _ e ih => exact ih.insert e
  | remove _ e ih => exact ih.remove e

end BTreeDataset

namespace BTreeGraph

def Books (d : BTreeGraph R) (b : Book R (Triple R)) : Prop :=
  d.WF ∧ Holds (countOps R) d.resources d.resourcesIndexes ((tripleShape R).uses d.triples) d.sval
    (fun p i => b.marked p i = true) b

variable {d d' : BTreeGraph R} {b : Book R (Triple R)} {x : Triple R} {o : Bool} {rep : Bool}

theorem books_new : (new : BTreeGraph R).Books .empty := by
  refine ⟨Inv.empty, (Holds.empty (nm := fun _ => none)).congr ?_ (fun _ _ _ h => h.elim) ?_⟩
  · intro i p k
    simp [Shape.uses, new]
  · simp [Book.empty]

theorem Books.insert (h : d.Books b) (e : d.insert rep x = .ok (d', o)) :
    d'.Books (b.enter rep tripleAt x) := by
  obtain ⟨w, h⟩ := h
  obtain ⟨b', hb, hbi⟩ := contains_spec w x
  cases b' with
  | true =>
    simp [BTreeGraph.insert, hb, bind, Except.bind, pure, Except.pure] at e
    have hk := (h.knows tripleShape_laws (fun x => ⟨x.s, rfl⟩) w x).2 (hbi.1 rfl)
    have : b.enter rep tripleAt x = b := by
      unfold Book.enter
      rw [hk]
      rfl
    rw [this, ← e.1]
    exact ⟨w, h⟩
  | false =>
    have hx : ¬ d.abs x := fun e => by simpa using hbi.2 e
    obtain ⟨res', ridx', q, sidx', e1, e2, h1, h2, -, -⟩ :=
      Inv.insertTriple_spec (countOps_laws R) rep w x hx
    simp [BTreeGraph.insert, hb, e1, e2, bind, Except.bind, pure, Except.pure] at e
    obtain ⟨e, -⟩ := e
    subst e
    exact ⟨h1, (h.insertTriple (countOps_laws R) w hx e1 h2).remarked⟩

theorem Books.remove (h : d.Books b) (e : d.remove x = .ok (d', o)) : d'.Books (b.leave x) := by
  obtain ⟨w, h⟩ := h
  obtain ⟨d₁, o₁, e₁, w₁, -, -, hf, -, ht⟩ := remove_spec w x
  rw [e] at e₁
  cases e₁
  rcases Inv.removeIndex_spec tripleShape_laws w x
      (tripleCmp_compares d.triples x d.triplesIndexes) with
    ⟨k, q, sidx', er, hq, hx, hs, hm⟩ | ⟨er, hx⟩
  · refine ⟨w₁, ?_⟩
    unfold BTreeGraph.remove at e
    obtain ⟨_, er', e⟩ := bind_eq_ok e
    rw [er] at er'
    cases er'
    obtain ⟨_, eq', e⟩ := bind_eq_ok e
    rw [Slab.remove_ok hq] at eq'
    cases eq'
    obtain ⟨⟨r1, i1, b1⟩, e1, e⟩ := bind_eq_ok e
    obtain ⟨⟨r2, i2, b2⟩, e2, e⟩ := bind_eq_ok e
    obtain ⟨⟨r3, i3, b3⟩, e3, e⟩ := bind_eq_ok e
    cases e
    obtain ⟨k', hk', -, hn⟩ := ht rfl
    cases w.sval_inj tripleShape_laws hk' hx
    exact (h.removeTriple (countOps_laws R) w hq hx hn (cmp_by_value _ _)
      (cmp_by_value _ _) (cmp_by_value _ _) e1 e2 e3).remarked
  · simp [BTreeGraph.remove, er, bind, Except.bind, pure, Except.pure] at e
    rw [h.leave_absent (x := x) (fun k hk => hx ⟨k, hk⟩), ← e.1]
    exact ⟨w, h⟩

theorem book_books (h : PlainBook (BTreeGraph.container rep R) rep tripleAt d b) : d.Books b := by
  induction h with
  | new => exact books_new
  | insert _ e ih => exact ih.insert e
  | remove _ e ih => exact ih.remove e

end BTreeGraph

end RdfTypes
