import Verif.Model.IndexedBTreeDataset
import Verif.Proof.BTreeGraph

/-! # Facts shared by the indexed containers -/

set_option linter.unusedSectionVars false
set_option linter.unusedSimpArgs false

namespace RdfTypes

/-- A record lists, in ascending order, the keys of the statements in which it
occurs, by position. -/
def IndexRep {R : Type} (x : IndexedResource R) (E : Pos → Nat → Prop) : Prop :=
  ∀ p, (x.at_ p).Asc ∧ ∀ k, k ∈ x.at_ p ↔ E p k

theorem IndexedResource.at_update {R : Type} (x : IndexedResource R) (f : NatSet → NatSet)
    (p p' : Pos) : (x.update f p).at_ p' = if p' = p then f (x.at_ p) else x.at_ p' := by
  cases p <;> cases p' <;> simp [update, at_]

theorem IndexedResource.value_update {R : Type} (x : IndexedResource R) (f : NatSet → NatSet)
    (p : Pos) : (x.update f p).value = x.value := by
  cases p <;> rfl

theorem indexOps_laws (R : Type) : ResLaws (indexOps R) IndexRep where
  congr := by
    intro x E E' h he p
    exact ⟨(h p).1, fun k => by rw [(h p).2, he]⟩
  mk_rep := by
    intro r p k p'
    simp only [indexOps, IndexedResource.at_update]
    have h0 : ∀ p, (⟨r, [], [], [], []⟩ : IndexedResource R).at_ p = [] := by
      intro p; cases p <;> rfl
    by_cases hp : p' = p
    · simp only [hp, if_true, h0]
      exact ⟨NatSet.asc_insert NatSet.asc_nil, by simp [NatSet.mem_insert]⟩
    · simp only [hp, if_false, h0]
      exact ⟨NatSet.asc_nil, by simp⟩
  mk_value := by
    intro r p k
    simp [indexOps, IndexedResource.value_update]
  add_rep := by
    intro x E p k h hE
    refine ⟨_, rfl, ?_, IndexedResource.value_update _ _ _⟩
    intro p'
    rw [IndexedResource.at_update]
    by_cases hp : p' = p
    · simp only [hp, if_true]
      refine ⟨NatSet.asc_insert (h p).1, ?_⟩
      intro k'
      rw [NatSet.mem_insert, (h p).2]
      simp [Or.comm]
    · simp only [hp, if_false, false_and, or_false]
      exact h p'
  del_rep := by
    intro x E p k h hE
    refine ⟨_, rfl, ?_, IndexedResource.value_update _ _ _⟩
    intro p'
    rw [IndexedResource.at_update]
    by_cases hp : p' = p
    · simp only [hp, if_true]
      refine ⟨NatSet.asc_remove (h p).1, ?_⟩
      intro k'
      rw [NatSet.mem_remove, (h p).2]
      simp
    · simp only [hp, if_false, false_and, not_false_eq_true, and_true]
      exact h p'
  isEmpty_rep := by
    intro x E h
    have key : ∀ p, (x.at_ p).isEmpty = true ↔ ∀ k, ¬ E p k := by
      intro p
      constructor
      · intro he k hk
        have := ((h p).2 k).2 hk
        rw [List.isEmpty_iff] at he
        rw [he] at this
        cases this
      · intro hno
        rw [List.isEmpty_iff]
        cases hx : x.at_ p with
        | nil => rfl
        | cons a l => exact absurd (((h p).2 a).1 (by simp [hx])) (hno a)
    have : (indexOps R).isEmpty x = true ↔ ∀ p, (x.at_ p).isEmpty = true := by
      rw [forall_pos]
      simp [indexOps, IndexedResource.at_, and_assoc]
    rw [this]
    exact ⟨fun h p => (key p).1 (h p), fun h p => (key p).2 (h p)⟩

section sets

variable {R σ S : Type} [Ord R] [Std.TransOrd R] [Std.LawfulEqOrd R] [Ord S] [Std.TransOrd S]
  [Std.LawfulEqOrd S] {sh : Shape σ S R} {st : Slab σ}

/-- `l` lists slots used at position `p`. -/
structure PosSet (sh : Shape σ S R) (st : Slab σ) (p : Pos) (l : NatSet) : Prop where
  asc : l.Asc
  sound : ∀ i ∈ l, ∃ k, sh.uses st i p k

/-- `l` lists all the slots used at position `p`. -/
def PosFull (sh : Shape σ S R) (st : Slab σ) (p : Pos) (l : NatSet) : Prop :=
  ∀ i k, sh.uses st i p k → i ∈ l

theorem PosSet.insert {p : Pos} {l : NatSet} (h : PosSet sh st p l) (hw : st.WF) {q : σ} {i : Nat}
    (hi : sh.comp q p = some i) : PosSet sh (st.insert q) p (NatSet.insert i l) where
  asc := NatSet.asc_insert h.asc
  sound := by
    intro j hj
    rcases NatSet.mem_insert.1 hj with rfl | hj
    · exact ⟨st.vacantKey, (Shape.uses_insert hw q j p _).2 (Or.inr ⟨rfl, hi⟩)⟩
    · obtain ⟨k, hk⟩ := h.sound j hj
      exact ⟨k, (Shape.uses_insert hw q j p _).2 (Or.inl hk)⟩

theorem PosFull.insert {p : Pos} {l : NatSet} (h : PosFull sh st p l) (hw : st.WF) {q : σ} {i : Nat}
    (hi : sh.comp q p = some i) : PosFull sh (st.insert q) p (NatSet.insert i l) := by
  intro j k hj
  rw [NatSet.mem_insert]
  rcases (Shape.uses_insert hw q j p k).1 hj with hj | ⟨-, hj⟩
  · exact Or.inr (h j k hj)
  · rw [hi] at hj
    cases hj
    exact Or.inl rfl

theorem PosFull.insert_none {p : Pos} {l : NatSet} (h : PosFull sh st p l) (hw : st.WF) {q : σ}
    (hi : sh.comp q p = none) : PosFull sh (st.insert q) p l := by
  intro j k hj
  rcases (Shape.uses_insert hw q j p k).1 hj with hj | ⟨-, hj⟩
  · exact h j k hj
  · rw [hi] at hj
    cases hj

theorem PosSet.insert_none {p : Pos} {l : NatSet} (h : PosSet sh st p l) (hw : st.WF) (q : σ) :
    PosSet sh (st.insert q) p l where
  asc := h.asc
  sound := by
    intro j hj
    obtain ⟨k, hk⟩ := h.sound j hj
    exact ⟨k, (Shape.uses_insert hw q j p _).2 (Or.inl hk)⟩

/-- Removing the slot of a removed statement keeps the set complete when no other
statement uses that slot. -/
theorem PosFull.remove {p : Pos} {l : NatSet} (h : PosFull sh st p l) {q : σ} {k i : Nat}
    (hi : sh.comp q p = some i) (hu : ∀ n, sh.uses st i p n → n = k) :
    PosFull sh (st.erase k) p (NatSet.remove i l) := by
  intro j n hj
  obtain ⟨hj', hne⟩ := (Shape.uses_erase j p k n).1 hj
  rw [NatSet.mem_remove]
  refine ⟨h j n hj', ?_⟩
  rintro rfl
  exact hne (hu n hj')

theorem PosSet.remove {p : Pos} {l : NatSet} (h : PosSet sh st p l) {q : σ} {k i : Nat}
    (hq : st.get k = some q) (hi : sh.comp q p = some i) :
    PosSet sh (st.erase k) p (NatSet.remove i l) where
  asc := NatSet.asc_remove h.asc
  sound := by
    intro j hj
    obtain ⟨hj, hne⟩ := NatSet.mem_remove.1 hj
    obtain ⟨n, hn⟩ := h.sound j hj
    refine ⟨n, (Shape.uses_erase j p k n).2 ⟨hn, ?_⟩⟩
    rintro rfl
    obtain ⟨q', hq', hc⟩ := hn
    rw [hq] at hq'
    cases hq'
    rw [hi] at hc
    cases hc
    exact hne rfl

end sets

/-- Reading listed slots. -/
theorem readResources_spec {R ρ : Type} [Ord R] {ops : ResOps R ρ} {res : Slab ρ} :
    ∀ {l : List Nat}, (∀ i ∈ l, ∃ r, ops.val res i = some r) →
    ∃ rs, ops.readResources res l = .ok rs ∧ rs.length = l.length ∧
      (∀ r, r ∈ rs ↔ ∃ i, i ∈ l ∧ ops.val res i = some r) ∧
      ((∀ i j r, i ∈ l → j ∈ l → ops.val res i = some r → ops.val res j = some r → i = j) →
        l.Nodup → rs.Nodup)
  | [], _ => ⟨[], rfl, rfl, by simp, by simp⟩
  | i :: l, h => by
    obtain ⟨r, hr⟩ := h i (by simp)
    obtain ⟨rs, h1, h2, h3, h4⟩ := readResources_spec (l := l) (fun j hj => h j (by simp [hj]))
    refine ⟨r :: rs, ?_, by simp [h2], ?_, ?_⟩
    · unfold ResOps.readResources at h1 ⊢
      have hr' := hr
      unfold ResOps.val at hr'
      rw [Option.map_eq_some_iff] at hr'
      obtain ⟨x, hx, rfl⟩ := hr'
      rw [List.mapM_cons, h1]
      simp [Slab.index, hx, bind, Except.bind, pure, Except.pure]
    · intro r'
      rw [List.mem_cons, h3]
      constructor
      · rintro (rfl | ⟨j, hj, hv⟩)
        · exact ⟨i, by simp, hr⟩
        · exact ⟨j, by simp [hj], hv⟩
      · rintro ⟨j, hj, hv⟩
        rcases List.mem_cons.1 hj with rfl | hj
        · rw [hr] at hv
          cases hv
          exact Or.inl rfl
        · exact Or.inr ⟨j, hj, hv⟩
    · intro hinj hn
      obtain ⟨hi, hn'⟩ := List.nodup_cons.1 hn
      refine List.nodup_cons.2 ⟨?_, h4 (fun a b r ha hb => hinj a b r (by simp [ha]) (by simp [hb]))
        hn'⟩
      intro hm
      obtain ⟨j, hj, hv⟩ := (h3 r).1 hm
      have := hinj i j r (by simp) (by simp [hj]) hr hv
      subst this
      exact hi hj

section building

variable {R ρ : Type} [Ord R] {ops : ResOps R ρ} {Rep : ρ → (Pos → Nat → Prop) → Prop}

/-- A table under construction: its values are `v`, and its records stand for the
occurrences `E`. -/
structure Building (ops : ResOps R ρ) (Rep : ρ → (Pos → Nat → Prop) → Prop) (v : Nat → Option R)
    (res : Slab ρ) (E : Nat → Pos → Nat → Prop) : Prop where
  wf : res.WF
  val : ∀ i, ops.val res i = v i
  rep : ∀ i x, res.get i = some x → Rep x (E i)

theorem Building.step (L : ResLaws ops Rep) {v : Nat → Option R} {res : Slab ρ}
    {E : Nat → Pos → Nat → Prop} (h : Building ops Rep v res E) {i : Nat} {p : Pos} {k : Nat} {r : R}
    (hi : v i = some r) (hE : ¬ E i p k) :
    ∃ res', res.modify i (ops.add p k) = .ok res' ∧
      Building ops Rep v res' (fun j p' k' => E j p' k' ∨ (j = i ∧ p' = p ∧ k' = k)) := by
  rw [← h.val i] at hi
  unfold ResOps.val at hi
  rw [Option.map_eq_some_iff] at hi
  obtain ⟨x, hx, rfl⟩ := hi
  obtain ⟨x', e, hr, hv⟩ := L.add_rep (h.rep i x hx) hE
  refine ⟨res.put i x', Slab.modify_ok hx e, Slab.wf_put h.wf hx, ?_, ?_⟩
  · intro j
    rw [← h.val j]
    unfold ResOps.val
    rw [Slab.get_put hx]
    by_cases hj : j = i
    · subst hj
      simp [hx, hv]
    · simp [hj]
  · intro j y hy
    rw [Slab.get_put hx] at hy
    by_cases hj : j = i
    · subst hj
      simp only [if_true, Option.some.injEq] at hy
      subst hy
      exact L.congr hr (fun p' k' => by simp)
    · simp only [hj, if_false] at hy
      exact L.congr (h.rep j y hy) (fun p' k' => by simp [hj])

theorem Building.congr (L : ResLaws ops Rep) {v : Nat → Option R} {res : Slab ρ}
    {E E' : Nat → Pos → Nat → Prop} (h : Building ops Rep v res E)
    (hE : ∀ i p k, E i p k ↔ E' i p k) : Building ops Rep v res E' :=
  ⟨h.wf, h.val, fun i x hx => L.congr (h.rep i x hx) (hE i)⟩

end building

end RdfTypes
