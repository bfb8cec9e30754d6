import Verif.Proof.BookOf

/-! # The books of the indexed containers -/

set_option linter.unusedSectionVars false
set_option linter.unusedSimpArgs false

namespace RdfTypes

open Spec Container

variable {R ρ σ S : Type} [Ord R] [Std.TransOrd R] [Std.LawfulEqOrd R] [Ord S] [Std.TransOrd S]
  [Std.LawfulEqOrd S] [DecidableEq R] [DecidableEq S]

/-! ## Conversion -/

/-- Same places. -/
def SameSlots (s : Slab ρ) (s' : Slab σ) : Prop :=
  s'.entries.length = s.entries.length ∧ s'.free = s.free

theorem SameSlots.trans {α : Type} {s : Slab ρ} {s' : Slab σ} {s'' : Slab α} (h : SameSlots s s')
    (h' : SameSlots s' s'') : SameSlots s s'' :=
  ⟨h'.1.trans h.1, h'.2.trans h.2⟩

theorem SameSlots.modify {s s' : Slab ρ} {k : Nat} {f : ρ → Res ρ} (e : s.modify k f = .ok s') :
    SameSlots s s' := by
  obtain ⟨v, rfl⟩ := Slab.modify_eq_put e
  exact ⟨by simp [Slab.put], rfl⟩

theorem IndexedBTreeDataset.convertStep_slots {quads : Slab (Quad Nat)} {c c' : Conversion R}
    {i : Nat} (e : convertStep quads c i = .ok c') : SameSlots c.resources c'.resources := by
  obtain ⟨q, -, e⟩ := bind_eq_ok e
  obtain ⟨s1, e1, e⟩ := bind_eq_ok e
  obtain ⟨s2, e2, e⟩ := bind_eq_ok e
  obtain ⟨s3, e3, e⟩ := bind_eq_ok e
  have h := ((SameSlots.modify e1).trans (.modify e2)).trans (.modify e3)
  simp only at e
  split at e
  · obtain ⟨s4, e4, e⟩ := bind_eq_ok e
    cases e
    exact h.trans (.modify e4)
  · cases e
    exact h

theorem IndexedBTreeGraph.convertStep_slots {triples : Slab (Triple Nat)} {c c' : Conversion R}
    {i : Nat} (e : convertStep triples c i = .ok c') : SameSlots c.resources c'.resources := by
  obtain ⟨q, -, e⟩ := bind_eq_ok e
  obtain ⟨s1, e1, e⟩ := bind_eq_ok e
  obtain ⟨s2, e2, e⟩ := bind_eq_ok e
  obtain ⟨s3, e3, e⟩ := bind_eq_ok e
  cases e
  exact ((SameSlots.modify e1).trans (.modify e2)).trans (.modify e3)

theorem foldlM_slots {γ : Type} {slots : γ → Slab ρ} {f : γ → Nat → Res γ}
    (hf : ∀ {c i c'}, f c i = .ok c' → SameSlots (slots c) (slots c')) {l : List Nat} :
    ∀ {c c'}, l.foldlM f c = .ok c' → SameSlots (slots c) (slots c') := by
  induction l with
  | nil =>
    intro c c' e
    cases e
    exact ⟨rfl, rfl⟩
  | cons i l ih =>
    intro c c' e
    rw [List.foldlM_cons] at e
    obtain ⟨c1, e1, e⟩ := bind_eq_ok e
    exact (hf e1).trans (ih e)

theorem getElem?_trim {α : Type} (l : List (Option α)) (k : Nat) :
    ((l.reverse.dropWhile (·.isNone)).reverse)[k]?.join = l[k]?.join :=
  Slab.trim_getElem? l k

theorem isNone_eq {α β : Type} {l : List (Option α)} {l' : List (Option β)}
    (h : l.length = l'.length) (hv : ∀ k : Nat, (l[k]?.join).isNone = (l'[k]?.join).isNone) :
    l.map (·.isNone) = l'.map (·.isNone) := by
  refine List.ext_getElem? fun k => ?_
  have := hv k
  simp only [List.getElem?_map]
  by_cases hk : k < l.length
  · have hk' : k < l'.length := h ▸ hk
    simpa [hk, hk'] using this
  · have hk' : ¬ k < l'.length := h ▸ hk
    simp [hk, hk']

theorem length_dropWhile_eq {α β : Type} : ∀ {l : List (Option α)} {l' : List (Option β)},
    l.map (·.isNone) = l'.map (·.isNone) →
    (l.dropWhile (·.isNone)).length = (l'.dropWhile (·.isNone)).length
  | [], [], _ => rfl
  | [], _ :: _, h => by simp at h
  | _ :: _, [], h => by simp at h
  | a :: l, a' :: l', h => by
    simp only [List.map_cons, List.cons.injEq] at h
    have ih := length_dropWhile_eq h.2
    have hl : l.length = l'.length := by simpa using congrArg List.length h.2
    cases ha : a.isNone with
    | true =>
      rw [List.dropWhile_cons_of_pos (by simpa using ha),
        List.dropWhile_cons_of_pos (show a'.isNone = true from h.1 ▸ ha)]
      exact ih
    | false =>
      rw [List.dropWhile_cons_of_neg (by simp [ha]),
        List.dropWhile_cons_of_neg (by simp [← h.1, ha])]
      simp [hl]

theorem Holds.relist {ρ' : Type} {ops : ResOps R ρ} {ops' : ResOps R ρ'} {res : Slab ρ}
    {idx : Index} {E : Nat → Pos → Nat → Prop} {nm nm' : Nat → Option S} {M M' : Pos → Nat → Prop}
    {b : Book R S} (h : Holds ops res idx E nm M b) {f : ρ → ρ'} {res' : Slab ρ'}
    (hs : SameSlots (res.mapCollect f) res') (hv : ∀ i, ops'.val res' i = ops.val res i)
    (hn : ∀ k, nm' k = nm k) (hd : ∀ {i p k}, E i p k → ∃ y, nm k = some y)
    (hE : ∀ {i p k}, E i p k → ∃ r, ops.val res i = some r)
    (hM : ∀ p i, M' p i ↔ ∃ k, E i p k) :
    Holds ops' res' idx E nm' M' b.relist := by
  have hat : ∀ i, b.relist.at_ i = b.at_ i := fun i => getElem?_trim _ i
  have hnone : ∀ k : Nat, (res.entries[k]?.join).isNone = (b.records.places[k]?.join).isNone := by
    intro k
    have := h.val k
    unfold ResOps.val Book.at_ Slab.get at this
    cases hr : res.entries[k]?.join with
    | none =>
      rw [hr] at this
      cases hb : b.records.places[k]?.join with
      | none => rfl
      | some y => simp [hb] at this
    | some v =>
      rw [hr] at this
      cases hb : b.records.places[k]?.join with
      | none => simp [hb] at this
      | some y => rfl
  have hmap := isNone_eq h.len hnone
  have hlen : (res.mapCollect f).entries.length = b.relist.records.places.length := by
    simp only [Slab.mapCollect, Slab.trim, Book.relist, List.length_reverse]
    refine length_dropWhile_eq ?_
    simp only [List.map_reverse, List.map_map]
    rw [← hmap]
    congr 1
    refine List.map_congr_left fun o _ => ?_
    cases o <;> rfl
  refine ⟨hs.1.trans hlen, ?_, fun i => ?_, fun i r g hg => ?_, fun r i => ?_, fun p i => ?_⟩
  · rw [hs.2]
    have hl := hlen
    simp only [Slab.mapCollect, Book.relist] at hl ⊢
    rw [hl]
    congr 1
    refine List.filter_congr fun k _ => ?_
    rw [getElem?_trim, ← hnone]
    have := Slab.get_mapCollect f res k
    unfold Slab.get Slab.mapCollect at this
    simp only at this
    rw [this]
    cases res.entries[k]?.join <;> rfl
  · rw [hv, h.val, hat]
  · rw [hat] at hg
    simp only [hn]
    exact h.occ i r g hg
  · rw [hv]
    exact h.cur r i
  · rw [hM]
    simp only [Book.relist]
    cases hb : b.at_ i with
    | none =>
      simp only [Option.any_none, Bool.false_eq_true, false_iff]
      rintro ⟨k, hk⟩
      obtain ⟨r, hr⟩ := hE hk
      rw [h.val, hb] at hr
      cases hr
    | some y =>
      obtain ⟨r, g⟩ := y
      simp only [Option.any_some, List.any_eq_true, decide_eq_true_eq]
      constructor
      · rintro ⟨⟨y, q⟩, hm, rfl⟩
        obtain ⟨k, hk, -⟩ := (h.occ i r g hb y q).1 hm
        exact ⟨k, hk⟩
      · rintro ⟨k, hk⟩
        obtain ⟨y, hy⟩ := hd hk
        exact ⟨(y, p), (h.occ i r g hb y p).2 ⟨k, hk, hy⟩, rfl⟩

/-! ## `IndexedBTreeDataset` -/

namespace IndexedBTreeDataset

structure Books (d : IndexedBTreeDataset R) (b : Book R (Quad R)) : Prop where
  wf : d.WF
  holds : Holds (indexOps R) d.resources d.resourcesIndexes ((quadShape R).uses d.quads) d.sval
    (fun p i => i ∈ d.posSet p) b
  bound : ∀ i ∈ d.namedGraphs, i < b.records.places.length

variable {d d' : IndexedBTreeDataset R} {b : Book R (Quad R)} {x : Quad R} {o : Bool} {rep : Bool}

theorem Books.lt (h : d.Books b) {i : Nat} {p : Pos} {k : Nat}
    (hu : (quadShape R).uses d.quads i p k) : i < b.records.places.length := by
  obtain ⟨r, hr⟩ := h.wf.inv.table.val_isSome_of_used hu
  rw [h.holds.val] at hr
  rcases Nat.lt_or_ge i b.records.places.length with hl | hl
  · exact hl
  · simp [Book.at_, List.getElem?_eq_none hl] at hr

theorem books_new : (new : IndexedBTreeDataset R).Books .empty := by
  refine ⟨wf_new, (Holds.empty (nm := fun _ => none)).congr ?_ (fun _ _ _ h => h.elim) ?_, ?_⟩
  · intro i p k
    simp [Shape.uses, new]
  · intro p i
    cases p <;> simp [posSet, new]
  · simp [new]

theorem books_convert {g : BTreeDataset R} (h : g.Books b) (e : fromNonIndexed g = .ok d) :
    d.Books b.relist := by
  obtain ⟨w, h⟩ := h
  obtain ⟨d', e', w', hf, -, -, -, -, -, hn, hq, hi, hv⟩ := fromNonIndexed_spec w
  rw [e] at e'
  cases e'
  obtain ⟨c, ec, e2⟩ := bind_eq_ok e
  have hslots : SameSlots (g.resources.mapCollect (fun x => (⟨x.value, [], [], [], []⟩ : IndexedResource R)))
      d.resources := by
    cases e2
    exact foldlM_slots (slots := fun c : Conversion R => c.resources)
      (fun h => convertStep_slots h) ec
  have N := w.naming quadShape_laws
  have hh : Holds (indexOps R) d.resources d.resourcesIndexes ((quadShape R).uses d.quads) d.sval
      (fun p i => i ∈ d.posSet p) b.relist := by
    rw [hq, hi]
    refine h.relist hslots hv hn N.defd (fun hu => w.table.val_isSome_of_used hu) ?_
    intro p i
    have both : ∀ {l : NatSet}, PosSet (quadShape R) d.quads p l →
        PosFull (quadShape R) d.quads p l → (i ∈ l ↔ ∃ k, (quadShape R).uses g.quads i p k) := by
      intro l h1 h2
      rw [← hq]
      exact ⟨h1.sound i, fun ⟨k, hk⟩ => h2 i k hk⟩
    cases p with
    | subj => exact both w'.subj hf.subj
    | pred => exact both w'.pred hf.pred
    | obj => exact both w'.obj hf.obj
    | graph => exact both hf.named w'.named
  refine ⟨w', hh, fun i hi => ?_⟩
  obtain ⟨k, hk⟩ := hf.named.sound i hi
  obtain ⟨r, hr⟩ := w'.inv.table.val_isSome_of_used hk
  rw [hh.val] at hr
  rcases Nat.lt_or_ge i b.relist.records.places.length with hl | hl
  · exact hl
  · simp [Book.at_, List.getElem?_eq_none hl] at hr

theorem Books.insert (h : d.Books b) (e : d.insert rep x = .ok (d', o)) :
    d'.Books (b.enter rep quadAt x) := by
  obtain ⟨w, h, hb⟩ := h
  obtain ⟨b', hc, hci⟩ := contains_spec w x
  cases b' with
  | true =>
    simp [IndexedBTreeDataset.insert, hc, bind, Except.bind, pure, Except.pure] at e
    have hk := (h.knows quadShape_laws (fun x => ⟨x.s, rfl⟩) w.inv x).2 (hci.1 rfl)
    have : b.enter rep quadAt x = b := by
      unfold Book.enter
      rw [hk]
      rfl
    rw [this, ← e.1]
    exact ⟨w, h, hb⟩
  | false =>
    have hx : ¬ d.abs x := fun e => by simpa using hci.2 e
    obtain ⟨d₁, o₁, e₁, w', -⟩ := insert_spec rep w x
    rw [e] at e₁
    cases e₁
    obtain ⟨res', ridx', q, sidx', e1, e2, -, h2, -, -⟩ :=
      Inv.insertQuad_spec (indexOps_laws R) rep w.inv x hx
    simp [IndexedBTreeDataset.insert, hc, e1, e2, bind, Except.bind, pure, Except.pure] at e
    have hh := h.insertQuad (indexOps_laws R) w.inv hx e1 h2
    have hb' := fun i hi => Nat.lt_of_lt_of_le (hb i hi) (Book.length_enter rep quadAt b x)
    cases hg : q.g with
    | none =>
      simp only [hg] at e
      obtain ⟨e, -⟩ := e
      subst e
      refine ⟨w', hh.congr (fun _ _ _ => Iff.rfl) (fun _ _ _ _ => rfl) ?_, hb'⟩
      intro p i
      cases p <;> simp [posSet, quadShape, hg, NatSet.mem_insert, or_comm, eq_comm]
    | some g =>
      simp only [hg] at e
      obtain ⟨e, -⟩ := e
      subst e
      have hh' : Books _ _ := ⟨w', hh.congr (fun _ _ _ => Iff.rfl) (fun _ _ _ _ => rfl) (by
        intro p i
        cases p <;> simp [posSet, quadShape, hg, NatSet.mem_insert, or_comm, eq_comm]), by
        intro i hi
        rcases (NatSet.mem_insert ..).1 hi with rfl | hi
        · obtain ⟨r, hr⟩ := w'.inv.table.val_isSome_of_used (i := i) (p := .graph)
            (k := d.quads.vacantKey) ((Shape.uses_insert w.inv.wf q i .graph _).2
              (.inr ⟨rfl, by simpa [quadShape] using hg⟩))
          have hr' : (indexOps R).val res' i = some r := hr
          rw [hh.val] at hr'
          rcases Nat.lt_or_ge i (b.enter rep quadAt x).records.places.length with hl | hl
          · exact hl
          · simp [Book.at_, List.getElem?_eq_none hl] at hr'
        · exact hb' i hi⟩
      exact hh'

theorem Books.removedAt {k : Nat} {q : Quad Nat} (h : d.Books b) (r : RemovedAt d k q x d') :
    d'.Books (b.leave x) := by
  obtain ⟨w, h, hb⟩ := h
  obtain ⟨sidx', e⟩ := r.calls
  unfold removeByIndex at e
  obtain ⟨_, -, e⟩ := bind_eq_ok e
  obtain ⟨_, eq', e⟩ := bind_eq_ok e
  rw [Slab.remove_ok r.get] at eq'
  cases eq'
  obtain ⟨⟨r1, i1, b1⟩, e1, e⟩ := bind_eq_ok e
  obtain ⟨⟨r2, i2, b2⟩, e2, e⟩ := bind_eq_ok e
  obtain ⟨⟨r3, i3, b3⟩, e3, e⟩ := bind_eq_ok e
  obtain ⟨c1, c2⟩ := h.removeQuad (cg := fun res => (indexOps R).resourceIndexCmp res (q.g.getD 0))
    (indexOps_laws R) w.inv r.get r.was r.sval (cmp_by_index _ _)
    (cmp_by_index _ _) (cmp_by_index _ _) e1 e2 e3
  have hb' : ∀ i ∈ d.namedGraphs, i < (b.leave x).records.places.length := by
    rw [Book.length_leave]
    exact hb
  have w' := r.wf
  simp only at e
  split at e
  · next g hg =>
    obtain ⟨⟨r4, i4, b4⟩, e4, e⟩ := bind_eq_ok e
    cases e
    rw [hg] at c2
    refine ⟨w', (c2 g r4 i4 b4 rfl (fun y => cmp_by_index g y) e4).congr (fun _ _ _ => Iff.rfl)
      (fun _ _ _ _ => rfl) ?_, ?_⟩
    · intro p i
      cases p <;> cases b4 <;> simp [posSet, quadShape, hg, eq_comm, NatSet.mem_remove]
    · intro i hi
      refine hb' i ?_
      cases b4 with
      | true => exact (NatSet.mem_remove.1 hi).1
      | false => exact hi
  · next hg =>
    cases e
    refine ⟨w', (c1 hg).congr (fun _ _ _ => Iff.rfl) (fun _ _ _ _ => rfl) ?_, hb'⟩
    intro p i
    cases p <;> simp [posSet, quadShape, hg, eq_comm, NatSet.mem_remove]

theorem Books.remove (h : d.Books b) (e : d.remove x = .ok (d', o)) : d'.Books (b.leave x) := by
  rcases remove_core h.wf x with ⟨k, q, d₁, e₁, r⟩ | ⟨e₁, hx⟩
  · rw [e] at e₁
    cases e₁
    exact h.removedAt r
  · rw [e] at e₁
    cases e₁
    rw [h.holds.leave_absent (x := x) (fun k hk => hx ⟨k, hk⟩)]
    exact h

theorem Books.removed {xs : List (Quad R)} (r : Removed d xs d') :
    ∀ {b : Book R (Quad R)}, d.Books b → d'.Books (xs.foldl Book.leave b) := by
  induction r with
  | nil => exact fun h => h
  | cons r _ ih => exact fun h => ih (h.removedAt r)

theorem picks_unique {W : S → Prop} {l : List (Option S)} {xs ys : List S} (h : Picks W l xs)
    (h' : Picks W l ys) : xs = ys := by
  induction h generalizing ys with
  | nil => cases h'; rfl
  | empty _ ih => cases h' with | empty h => exact ih h
  | other hn _ ih =>
    cases h' with
    | other _ h => exact ih h
    | wanted hw _ => exact absurd hw hn
  | wanted hw _ ih =>
    cases h' with
    | other hn _ => exact absurd hw hn
    | wanted _ h => rw [ih h]

theorem book_books (h : DatasetBook rep d b) : d.Books b := by
  induction h with
  | new => exact books_new
  | convert hg e => exact books_convert (BTreeDataset.book_books hg) e
  | insert _ e ih => exact ih.insert e
  | remove _ e ih => exact ih.remove e
  | @removeGraph d d' b h g out xs _ e hs hp ih =>
    obtain ⟨d₁, out₁, e₁, gr⟩ := removeGraph_spec rep ih.wf g
    rw [e] at e₁
    cases e₁
    obtain ⟨ys, r, hp'⟩ := gr.picks ih.wf (shelf_kept hs).2
    cases picks_unique hp hp'
    exact Books.removed r ih
  | @extract d d' b pat cap n xs ended _ hcap e ih =>
    obtain ⟨d₁, xs₁, ended₁, e₁, r, -⟩ := extractPatternMatching_spec ih.wf hcap pat n
    rw [e] at e₁
    cases e₁
    exact Books.removed r ih

end IndexedBTreeDataset

/-! ## `IndexedBTreeGraph` -/

namespace IndexedBTreeGraph

structure Books (d : IndexedBTreeGraph R) (b : Book R (Triple R)) : Prop where
  wf : d.WF
  holds : Holds (indexOps R) d.resources d.resourcesIndexes ((tripleShape R).uses d.triples) d.sval
    (fun p i => i ∈ d.posSet p) b

variable {d d' : IndexedBTreeGraph R} {b : Book R (Triple R)} {x : Triple R} {o : Bool} {rep : Bool}

theorem books_new : (new : IndexedBTreeGraph R).Books .empty := by
  refine ⟨wf_new, (Holds.empty (nm := fun _ => none)).congr ?_ (fun _ _ _ h => h.elim) ?_⟩
  · intro i p k
    simp [Shape.uses, new]
  · intro p i
    cases p <;> simp [posSet, new]

theorem books_convert {g : BTreeGraph R} (h : g.Books b) (e : fromNonIndexed g = .ok d) :
    d.Books b.relist := by
  obtain ⟨w, h⟩ := h
  obtain ⟨d', e', w', hf, -, -, -, -, -, hn, hq, hi, hv⟩ := fromNonIndexed_spec w
  rw [e] at e'
  cases e'
  obtain ⟨c, ec, e2⟩ := bind_eq_ok e
  have hslots : SameSlots (g.resources.mapCollect (fun x => (⟨x.value, [], [], [], []⟩ : IndexedResource R)))
      d.resources := by
    cases e2
    exact foldlM_slots (slots := fun c : Conversion R => c.resources)
      (fun h => convertStep_slots h) ec
  have N := w.naming tripleShape_laws
  refine ⟨w', ?_⟩
  rw [hq, hi]
  refine h.relist hslots hv hn N.defd (fun hu => w.table.val_isSome_of_used hu) ?_
  intro p i
  have both : ∀ {l : NatSet}, PosSet (tripleShape R) d.triples p l →
      PosFull (tripleShape R) d.triples p l →
      (i ∈ l ↔ ∃ k, (tripleShape R).uses g.triples i p k) := by
    intro l h1 h2
    rw [← hq]
    exact ⟨h1.sound i, fun ⟨k, hk⟩ => h2 i k hk⟩
  cases p with
  | subj => exact both w'.subj hf.subj
  | pred => exact both w'.pred hf.pred
  | obj => exact both w'.obj hf.obj
  | graph => simp [posSet, Shape.uses, tripleShape]

theorem Books.insert (h : d.Books b) (e : d.insert rep x = .ok (d', o)) :
    d'.Books (b.enter rep tripleAt x) := by
  obtain ⟨w, h⟩ := h
  obtain ⟨b', hc, hci⟩ := contains_spec w x
  cases b' with
  | true =>
    simp [IndexedBTreeGraph.insert, hc, bind, Except.bind, pure, Except.pure] at e
    have hk := (h.knows tripleShape_laws (fun x => ⟨x.s, rfl⟩) w.inv x).2 (hci.1 rfl)
    have : b.enter rep tripleAt x = b := by
      unfold Book.enter
      rw [hk]
      rfl
    rw [this, ← e.1]
    exact ⟨w, h⟩
  | false =>
    have hx : ¬ d.abs x := fun e => by simpa using hci.2 e
    obtain ⟨d₁, o₁, e₁, w', -⟩ := insert_spec rep w x
    rw [e] at e₁
    cases e₁
    obtain ⟨res', ridx', q, sidx', e1, e2, -, h2, -, -⟩ :=
      Inv.insertTriple_spec (indexOps_laws R) rep w.inv x hx
    simp [IndexedBTreeGraph.insert, hc, e1, e2, bind, Except.bind, pure, Except.pure] at e
    have hh := h.insertTriple (indexOps_laws R) w.inv hx e1 h2
    obtain ⟨e, -⟩ := e
    subst e
    refine ⟨w', hh.congr (fun _ _ _ => Iff.rfl) (fun _ _ _ _ => rfl) ?_⟩
    intro p i
    cases p <;> simp [posSet, tripleShape, NatSet.mem_insert, or_comm, eq_comm]

theorem Books.remove (h : d.Books b) (e : d.remove x = .ok (d', o)) : d'.Books (b.leave x) := by
  obtain ⟨w, h⟩ := h
  rcases Inv.removeIndex_spec tripleShape_laws w.inv x
      (tripleCmp_compares d.triples x d.triplesIndexes) with
    ⟨k, q, sidx', er, hq, hx, hs, hm⟩ | ⟨er, hx⟩
  · rcases remove_core w x with ⟨k', q', d₁, e₁, r⟩ | ⟨-, hx'⟩
    · rw [e] at e₁
      cases e₁
      cases w.inv.sval_inj tripleShape_laws r.was hx
      have w' := r.wf
      have hn := r.sval
      unfold IndexedBTreeGraph.remove at e
      obtain ⟨_, er', e⟩ := bind_eq_ok e
      rw [er] at er'
      cases er'
      obtain ⟨_, eq', e⟩ := bind_eq_ok e
      rw [Slab.remove_ok hq] at eq'
      cases eq'
      obtain ⟨⟨r1, i1, b1⟩, e1, e⟩ := bind_eq_ok e
      obtain ⟨⟨r2, i2, b2⟩, e2, e⟩ := bind_eq_ok e
      obtain ⟨⟨r3, i3, b3⟩, e3, e⟩ := bind_eq_ok e
      have hh := h.removeTriple (indexOps_laws R) w.inv hq hx hn (cmp_by_value _ _)
        (cmp_by_value _ _) (cmp_by_value _ _) e1 e2 e3
      cases e
      refine ⟨w', hh.congr (fun _ _ _ => Iff.rfl) (fun _ _ _ _ => rfl) ?_⟩
      intro p i
      cases p <;> simp [posSet, tripleShape, eq_comm, NatSet.mem_remove]
    · exact absurd ⟨k, hx⟩ hx'
  · simp [IndexedBTreeGraph.remove, er, bind, Except.bind, pure, Except.pure] at e
    rw [h.leave_absent (x := x) (fun k hk => hx ⟨k, hk⟩), ← e.1]
    exact ⟨w, h⟩

theorem book_books (h : GraphBook rep d b) : d.Books b := by
  induction h with
  | new => exact books_new
  | convert hg e => exact books_convert (BTreeGraph.book_books hg) e
  | insert _ e ih => exact ih.insert e
  | remove _ e ih => exact ih.remove e

end IndexedBTreeGraph

end RdfTypes
