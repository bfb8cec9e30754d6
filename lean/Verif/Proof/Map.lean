import Verif.Base.Map

/-!
# Ordered maps
-/

set_option linter.unusedSectionVars false
set_option linter.unusedSimpArgs false

namespace RdfTypes

/-- A duplicate free list within another one is not longer. -/
theorem nodup_length_le {α : Type} [DecidableEq α] :
    ∀ {l l' : List α}, l.Nodup → (∀ x ∈ l, x ∈ l') → l.length ≤ l'.length
  | [], _, _, _ => Nat.zero_le _
  | a :: l, l', h, hs => by
    obtain ⟨hn, h⟩ := List.nodup_cons.1 h
    have ha : a ∈ l' := hs a (by simp)
    have := nodup_length_le (l' := l'.erase a) h (fun x hx => by
      refine (List.mem_erase_of_ne ?_).2 (hs x (by simp [hx]))
      rintro rfl
      exact hn hx)
    rw [List.length_erase_of_mem ha] at this
    have := List.length_pos_of_mem ha
    simp only [List.length_cons]
    omega

/-- If it is as long, it contains all the other elements. -/
theorem mem_of_nodup_length {α : Type} [DecidableEq α] {l l' : List α} (h : l.Nodup)
    (hs : ∀ x ∈ l, x ∈ l') (hl : l'.length ≤ l.length) : ∀ x ∈ l', x ∈ l := by
  intro x hx
  refine Decidable.byContradiction fun hn => ?_
  have := nodup_length_le (l := x :: l) (l' := l') (List.nodup_cons.2 ⟨hn, h⟩) (fun y hy => by
    rcases List.mem_cons.1 hy with rfl | hy
    · exact hx
    · exact hs y hy)
  simp only [List.length_cons] at this
  omega

theorem nodup_length_eq {α : Type} [DecidableEq α] {l l' : List α} (h : l.Nodup) (h' : l'.Nodup)
    (hs : ∀ x, x ∈ l ↔ x ∈ l') : l.length = l'.length :=
  Nat.le_antisymm (nodup_length_le h fun x hx => (hs x).1 hx)
    (nodup_length_le h' fun x hx => (hs x).2 hx)

namespace OrdMap

variable {K V : Type} [Ord K] [Std.TransOrd K] [Std.LawfulEqOrd K]

def Sorted (m : OrdMap K V) : Prop := m.Pairwise (fun a b => compare a.1 b.1 = .lt)

theorem sorted_nil : Sorted ([] : OrdMap K V) := List.Pairwise.nil

theorem sorted_cons {k : K} {v : V} {m : OrdMap K V} :
    Sorted ((k, v) :: m) ↔ (∀ x ∈ m, compare k x.1 = .lt) ∧ Sorted m := List.pairwise_cons

theorem get_cons (k k' : K) (v : V) (m : OrdMap K V) :
    get k ((k', v) :: m) = if compare k k' = .eq then some v else get k m := rfl

theorem mem_of_get {k : K} {v : V} : ∀ {m : OrdMap K V}, get k m = some v → (k, v) ∈ m
  | [], h => by simp [get] at h
  | (k', v') :: m, h => by
    rw [get_cons] at h
    split at h
    · next e =>
      have := Std.LawfulEqOrd.compare_eq_iff_eq.1 e
      subst this
      cases h
      simp
    · exact List.mem_cons_of_mem _ (mem_of_get h)

theorem get_of_mem {k : K} {v : V} : ∀ {m : OrdMap K V}, Sorted m → (k, v) ∈ m → get k m = some v
  | [], _, h => by simp at h
  | (k', v') :: m, hs, h => by
    obtain ⟨h1, h2⟩ := sorted_cons.1 hs
    rw [get_cons]
    rcases List.mem_cons.1 h with e | h
    · cases e
      simp [Std.ReflCmp.compare_self]
    · have h3 := h1 _ h
      rw [if_neg, get_of_mem h2 h]
      intro e
      simp [Std.LawfulEqOrd.compare_eq_iff_eq.1 e, Std.ReflCmp.compare_self] at h3

theorem get_iff_mem {m : OrdMap K V} (h : Sorted m) {k : K} {v : V} :
    get k m = some v ↔ (k, v) ∈ m := ⟨mem_of_get, get_of_mem h⟩

theorem get_eq_none {k : K} : ∀ {m : OrdMap K V}, (∀ x ∈ m, x.1 ≠ k) → get k m = none
  | [], _ => rfl
  | (k', v') :: m, h => by
    rw [get_cons, if_neg, get_eq_none (fun x hx => h x (List.mem_cons_of_mem _ hx))]
    intro e
    exact h (k', v') (by simp) (Std.LawfulEqOrd.compare_eq_iff_eq.1 e).symm

theorem mem_entry_key {k : K} {x : V} {f : V → V} :
    ∀ {m : OrdMap K V} {y : K × V}, y ∈ entry k x f m → y.1 = k ∨ y ∈ m
  | [], y, h => by simp [entry] at h; simp [h]
  | (k', v') :: m, y, h => by
    unfold entry at h
    split at h
    · rcases List.mem_cons.1 h with rfl | h
      · exact Or.inl rfl
      · exact Or.inr h
    · next e =>
      rcases List.mem_cons.1 h with rfl | h
      · exact Or.inl (Std.LawfulEqOrd.compare_eq_iff_eq.1 e).symm
      · exact Or.inr (List.mem_cons_of_mem _ h)
    · rcases List.mem_cons.1 h with rfl | h
      · exact Or.inr (by simp)
      · rcases mem_entry_key h with h | h
        · exact Or.inl h
        · exact Or.inr (List.mem_cons_of_mem _ h)

theorem sorted_entry (k : K) (x : V) (f : V → V) :
    ∀ {m : OrdMap K V}, Sorted m → Sorted (entry k x f m)
  | [], _ => by simp [entry, Sorted]
  | (k', v') :: m, hs => by
    obtain ⟨h1, h2⟩ := sorted_cons.1 hs
    unfold entry
    split
    · next e =>
      refine sorted_cons.2 ⟨fun y hy => ?_, hs⟩
      rcases List.mem_cons.1 hy with rfl | hy
      · exact e
      · exact Std.TransCmp.lt_trans e (h1 y hy)
    · exact sorted_cons.2 ⟨h1, h2⟩
    · next e =>
      refine sorted_cons.2 ⟨fun y hy => ?_, sorted_entry k x f h2⟩
      rcases mem_entry_key hy with h | h
      · rw [h]
        exact Std.OrientedCmp.lt_of_gt e
      · exact h1 y h

theorem get_entry (k : K) (x : V) (f : V → V) (k' : K) [DecidableEq K] :
    ∀ {m : OrdMap K V}, Sorted m →
      get k' (entry k x f m) = if k' = k then some (f ((get k m).getD x)) else get k' m
  | [], _ => by
    simp only [entry, get_cons, Std.LawfulEqOrd.compare_eq_iff_eq]
    rfl
  | (k₁, v₁) :: m, hs => by
    obtain ⟨h1, h2⟩ := sorted_cons.1 hs
    unfold entry
    split
    · next e =>
      have hn : get k ((k₁, v₁) :: m) = none := by
        refine get_eq_none fun y hy => ?_
        rintro rfl
        rcases List.mem_cons.1 hy with rfl | hy
        · simp [Std.ReflCmp.compare_self] at e
        · have := Std.TransCmp.lt_trans e (h1 y hy)
          simp [Std.ReflCmp.compare_self] at this
      rw [hn, get_cons]
      simp only [Std.LawfulEqOrd.compare_eq_iff_eq, Option.getD_none]
    · next e =>
      have := Std.LawfulEqOrd.compare_eq_iff_eq.1 e
      subst this
      simp only [get_cons, Std.LawfulEqOrd.compare_eq_iff_eq]
      by_cases hk : k' = k <;> simp [hk]
    · next e =>
      rw [get_cons, get_cons, get_cons, get_entry k x f k' h2]
      have hne : k ≠ k₁ := by
        rintro rfl
        simp [Std.ReflCmp.compare_self] at e
      simp only [Std.LawfulEqOrd.compare_eq_iff_eq, if_neg hne]
      by_cases hk : k' = k
      · subst hk
        simp [hne]
      · simp [hk]

theorem sorted_insert (k : K) (v : V) {m : OrdMap K V} (h : Sorted m) : Sorted (insert k v m) :=
  sorted_entry k v _ h

theorem get_insert [DecidableEq K] (k : K) (v : V) (k' : K) {m : OrdMap K V} (h : Sorted m) :
    get k' (insert k v m) = if k' = k then some v else get k' m := get_entry k v _ k' h

theorem nodup_keys {m : OrdMap K V} (h : Sorted m) : (m.map Prod.fst).Nodup := by
  rw [List.nodup_iff_pairwise_ne, List.pairwise_map]
  refine List.Pairwise.imp (fun {a b} h => ?_) h
  intro e
  simp [e, Std.ReflCmp.compare_self] at h

theorem mem_keys {m : OrdMap K V} (h : Sorted m) (k : K) :
    k ∈ m.map Prod.fst ↔ ∃ v, get k m = some v := by
  simp only [List.mem_map, Prod.exists, exists_and_right, exists_eq_right, get_iff_mem h]

theorem get_map {W : Type} (f : V → W) (k : K) :
    ∀ (m : OrdMap K V), get k (m.map (fun x => (x.1, f x.2))) = (get k m).map f
  | [] => rfl
  | (k', v) :: m => by
    rw [List.map_cons, get_cons, get_cons, get_map f k m]
    split <;> rfl

theorem sorted_map {W : Type} (f : V → W) {m : OrdMap K V} (h : Sorted m) :
    Sorted (m.map (fun x => (x.1, f x.2))) := by
  unfold Sorted at *
  rwa [List.pairwise_map]

/-- Ordered maps with the same entries. -/
theorem sorted_ext : ∀ {m m' : OrdMap K V}, Sorted m → Sorted m' → (∀ k, get k m = get k m') → m = m'
  | [], [], _, _, _ => rfl
  | [], (k, v) :: m', _, _, h => by
    have := h k
    simp [get] at this
  | (k, v) :: m, [], _, _, h => by
    have := h k
    simp [get] at this
  | (k, v) :: m, (k', v') :: m', hm, hm', h => by
    have hk : k = k' := by
      have h1 := mem_of_get ((h k).symm.trans (get_of_mem hm (List.mem_cons_self ..)))
      have h2 := mem_of_get ((h k').trans (get_of_mem hm' (List.mem_cons_self ..)))
      rcases List.mem_cons.1 h1 with e | h1
      · exact congrArg Prod.fst e
      · rcases List.mem_cons.1 h2 with e | h2
        · exact (congrArg Prod.fst e).symm
        · have := Std.TransCmp.lt_trans ((sorted_cons.1 hm').1 _ h1) ((sorted_cons.1 hm).1 _ h2)
          simp [Std.ReflCmp.compare_self] at this
    subst hk
    have hv : v = v' := by
      have := h k
      rw [get_of_mem hm (List.mem_cons_self ..), get_of_mem hm' (List.mem_cons_self ..)] at this
      exact Option.some.inj this
    subst hv
    rw [sorted_ext (sorted_cons.1 hm).2 (sorted_cons.1 hm').2 fun x => ?_]
    have hx := h x
    rw [get_cons, get_cons] at hx
    by_cases e : compare x k = .eq
    · have := Std.LawfulEqOrd.compare_eq_iff_eq.1 e
      subst this
      have n : ∀ {m : OrdMap K V}, Sorted ((x, v) :: m) → get x m = none := by
        intro m hm
        refine get_eq_none fun y hy e' => ?_
        have := (sorted_cons.1 hm).1 y hy
        rw [e'] at this
        simp [Std.ReflCmp.compare_self] at this
      rw [n hm, n hm']
    · simpa [e] using hx

end OrdMap

namespace OrdSet

variable {K : Type} [Ord K] [Std.TransOrd K] [Std.LawfulEqOrd K]

theorem mem_insert (k x : K) : ∀ (l : OrdSet K), x ∈ OrdSet.insert k l ↔ x = k ∨ x ∈ l
  | [] => by simp [OrdSet.insert]
  | k' :: l => by
    unfold OrdSet.insert
    split
    · simp
    · next e =>
      have := Std.LawfulEqOrd.compare_eq_iff_eq.1 e
      subst this
      simp
    · simp only [List.mem_cons, mem_insert k x l]
      constructor
      · rintro (h | h | h) <;> simp [h]
      · rintro (h | h | h) <;> simp [h]

/-- Elements in ascending order. -/
def Sorted (l : OrdSet K) : Prop := l.Pairwise (fun a b => compare a b = .lt)

theorem sorted_insert (k : K) : ∀ {l : OrdSet K}, Sorted l → Sorted (OrdSet.insert k l)
  | [], _ => List.pairwise_singleton _ _
  | k' :: l, h => by
    obtain ⟨h1, h2⟩ := List.pairwise_cons.1 h
    unfold OrdSet.insert
    split
    · next e =>
      refine List.pairwise_cons.2 ⟨fun x hx => ?_, h⟩
      rcases List.mem_cons.1 hx with rfl | hx
      · exact e
      · exact Std.TransCmp.lt_trans e (h1 x hx)
    · exact h
    · next e =>
      refine List.pairwise_cons.2 ⟨fun x hx => ?_, sorted_insert k h2⟩
      rcases (mem_insert k x l).1 hx with rfl | hx
      · exact Std.OrientedCmp.lt_of_gt e
      · exact h1 x hx

end OrdSet

theorem perm_sortInsert {α : Type} [Ord α] (a : α) :
    ∀ (l : List α), (sortUnstable.insert a l).Perm (a :: l)
  | [] => List.Perm.refl _
  | b :: l => by
    unfold sortUnstable.insert
    split
    · exact List.Perm.refl _
    · exact ((perm_sortInsert a l).cons b).trans (List.Perm.swap a b l)

theorem perm_sortUnstable {α : Type} [Ord α] : ∀ (l : List α), (sortUnstable l).Perm l
  | [] => List.Perm.refl _
  | a :: l => (perm_sortInsert a _).trans ((perm_sortUnstable l).cons a)

section sorted

variable {α : Type} [Ord α] [Std.TransOrd α]

theorem sorted_sortInsert (a : α) : ∀ {l : List α}, l.Pairwise (fun x y => (compare x y).isLE) →
    (sortUnstable.insert a l).Pairwise (fun x y => (compare x y).isLE)
  | [], _ => List.pairwise_singleton _ _
  | b :: l, h => by
    obtain ⟨h1, h2⟩ := List.pairwise_cons.1 h
    unfold sortUnstable.insert
    split
    · next e =>
      refine List.pairwise_cons.2 ⟨fun x hx => ?_, h⟩
      rcases List.mem_cons.1 hx with rfl | hx
      · exact e
      · exact Std.TransCmp.isLE_trans e (h1 x hx)
    · next e =>
      refine List.pairwise_cons.2 ⟨fun x hx => ?_, sorted_sortInsert a h2⟩
      rcases List.mem_cons.1 ((perm_sortInsert a l).mem_iff.1 hx) with rfl | hx
      · rw [Std.OrientedCmp.eq_swap (cmp := compare) (a := b)]
        revert e
        cases compare x b <;> simp
      · exact h1 x hx

theorem sorted_sortUnstable : ∀ (l : List α),
    (sortUnstable l).Pairwise (fun x y => (compare x y).isLE)
  | [] => List.Pairwise.nil
  | a :: l => sorted_sortInsert a (sorted_sortUnstable l)

/-- The result of sorting depends only on which elements there are and how often. -/
theorem sortUnstable_perm [Std.LawfulEqOrd α] {l l' : List α} (h : l.Perm l') :
    sortUnstable l = sortUnstable l' := by
  refine List.Perm.eq_of_pairwise (le := fun x y => (compare x y).isLE)
    (fun a b _ _ h1 h2 => ?_) (sorted_sortUnstable l) (sorted_sortUnstable l')
    ((perm_sortUnstable l).trans (h.trans (perm_sortUnstable l').symm))
  refine Std.LawfulEqOrd.compare_eq_iff_eq.1 ?_
  rw [Std.OrientedCmp.eq_swap (cmp := compare) (a := b)] at h2
  revert h1 h2
  cases compare a b <;> simp

end sorted

end RdfTypes
