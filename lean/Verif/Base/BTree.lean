import Verif.Base.Slab

/-!
# Ordered indexes

`raw_btree::RawBTree<usize>` as used by the four containers: an ordered
sequence of slab keys, compared through a caller supplied comparator. The
comparator reads a slab and may therefore panic.
-/

set_option linter.unusedSectionVars false
set_option linter.unusedSimpArgs false

namespace RdfTypes

/-- `RawBTree<usize>`. Simplification: the tree is the list of its items in
order. -/
abbrev Index := List Nat

namespace Index

/-- What the comparator answers on all the items. -/
def survey (cmp : Nat → Res Ordering) : Index → Res (List Ordering)
  | [] => pure []
  | i :: l => do
    let o ← cmp i
    let os ← survey cmp l
    pure (o :: os)

/-- First `Less`, then at most one `Equal`, then `Greater`. -/
def aligned : List Ordering → Bool
  | [] => true
  | .lt :: os => aligned os
  | _ :: os => os.all (· == .gt)

/-- Which items a tree compares depends on its shape. The model asks the comparator
about all items, and fails when it panics on one of them or when its answers are not
in order; otherwise every search ends with the same result (`Probe.result`). This is
stricter than the crate. -/
def check (cmp : Nat → Res Ordering) (l : Index) : Res Unit := do
  if aligned (← survey cmp l) then pure () else .error .disorder

/-- Linear search, to the first item that is not smaller. -/
def getFrom (cmp : Nat → Res Ordering) : Index → Res (Option Nat)
  | [] => .ok none
  | i :: l => do
    match ← cmp i with
    | .lt => getFrom cmp l
    | .eq => .ok (some i)
    | .gt => .ok none

/-- Insertion before the first item that is not smaller, or in place of it when
it is equal and `rep`. -/
def insertFrom (rep : Bool) (cmp : Nat → Res Ordering) (item : Nat) : Index → Res Index
  | [] => .ok [item]
  | i :: l => do
    match ← cmp i with
    | .lt => do
      let l' ← insertFrom rep cmp item l
      pure (i :: l')
    | .eq => pure ((if rep then item else i) :: l)
    | .gt => pure (item :: i :: l)

/-- Removal of the first item that is not smaller, if it is equal. -/
def removeFrom (cmp : Nat → Res Ordering) : Index → Res (Index × Option Nat)
  | [] => .ok ([], none)
  | i :: l => do
    match ← cmp i with
    | .lt => do
      let (l', r) ← removeFrom cmp l
      pure (i :: l', r)
    | .eq => pure (l, some i)
    | .gt => pure (i :: l, none)

/-- `RawBTree::get(cmp, key)`; `cmp i` is `cmp(&i, key)`. -/
def get (cmp : Nat → Res Ordering) (l : Index) : Res (Option Nat) := do
  check cmp l
  getFrom cmp l

/-- `RawBTree::insert(cmp, item)`; `cmp i` is `cmp(&i, &item)`. When an equal
item is present, it is replaced if `rep` and kept otherwise (the crate is not
available; both behaviours are covered). -/
def insert (rep : Bool) (cmp : Nat → Res Ordering) (item : Nat) (l : Index) : Res Index := do
  check cmp l
  insertFrom rep cmp item l

/-- `RawBTree::remove(cmp, key)`: the tree without the item equal to the key,
and that item. -/
def remove (cmp : Nat → Res Ordering) (l : Index) : Res (Index × Option Nat) := do
  check cmp l
  removeFrom cmp l

variable {V : Type} [Ord V]

/-- `l` is strictly sorted under the partial valuation `v`, and all its items
have a value. -/
structure Sorted (v : Nat → Option V) (l : Index) : Prop where
  defined : ∀ i ∈ l, ∃ x, v i = some x
  sorted : l.Pairwise (fun i j => ∀ x y, v i = some x → v j = some y → compare x y = .lt)

/-- `cmp` compares the value of each item of `l` with `t`. -/
def Compares (v : Nat → Option V) (t : V) (l : Index) (cmp : Nat → Res Ordering) : Prop :=
  ∀ i ∈ l, ∀ x, v i = some x → cmp i = .ok (compare x t)

theorem Sorted.nil (v : Nat → Option V) : Sorted v [] :=
  ⟨by simp, List.Pairwise.nil⟩

theorem Sorted.tail {v : Nat → Option V} {i : Nat} {l : Index} (h : Sorted v (i :: l)) :
    Sorted v l :=
  ⟨fun j hj => h.defined j (List.mem_cons_of_mem _ hj), (List.pairwise_cons.1 h.sorted).2⟩

theorem Sorted.congr {v v' : Nat → Option V} {l : Index} (h : Sorted v l)
    (hv : ∀ i ∈ l, v' i = v i) : Sorted v' l := by
  constructor
  · intro i hi
    rw [hv i hi]
    exact h.defined i hi
  · have := h.sorted
    refine List.Pairwise.imp_of_mem ?_ this
    intro i j hi hj hij x y hx hy
    exact hij x y (by rw [← hv i hi]; exact hx) (by rw [← hv j hj]; exact hy)

variable [Std.TransOrd V] [Std.LawfulEqOrd V]

theorem lt_irrefl (x : V) : compare x x ≠ .lt := by
  simp [Std.ReflCmp.compare_self]

theorem Sorted.nodup {v : Nat → Option V} {l : Index} (h : Sorted v l) : l.Nodup := by
  refine List.Pairwise.imp_of_mem ?_ h.sorted
  intro i j hi _ hij e
  subst e
  obtain ⟨x, hx⟩ := h.defined i hi
  exact lt_irrefl x (hij x x hx hx)

theorem Sorted.inj {v : Nat → Option V} {l : Index} (h : Sorted v l) {i j : Nat} {x : V}
    (hi : i ∈ l) (hj : j ∈ l) (hxi : v i = some x) (hxj : v j = some x) : i = j := by
  induction l with
  | nil => simp at hi
  | cons k l ih =>
    have hp := List.pairwise_cons.1 h.sorted
    rcases List.mem_cons.1 hi with rfl | hi'
    · rcases List.mem_cons.1 hj with rfl | hj'
      · rfl
      · exact absurd (hp.1 j hj' x x hxi hxj) (lt_irrefl x)
    · rcases List.mem_cons.1 hj with rfl | hj'
      · exact absurd (hp.1 i hi' x x hxj hxi) (lt_irrefl x)
      · exact ih h.tail hi' hj'

omit [Std.TransOrd V] [Std.LawfulEqOrd V] in
theorem Compares.tail {v : Nat → Option V} {t : V} {i : Nat} {l : Index}
    {cmp : Nat → Res Ordering} (h : Compares v t (i :: l) cmp) : Compares v t l cmp :=
  fun j hj => h j (List.mem_cons_of_mem _ hj)

theorem ne_of_lt {x t : V} (h : compare x t = .lt) : x ≠ t := by
  rintro rfl
  exact lt_irrefl x h

/-- Past an item greater than `t` there is no item equal to `t`. -/
theorem Sorted.none_after {v : Nat → Option V} {i : Nat} {l : Index} (h : Sorted v (i :: l))
    {x t : V} (hx : v i = some x) (hc : compare x t = .gt) :
    ∀ j ∈ i :: l, v j ≠ some t := by
  intro j hj hjt
  rcases List.mem_cons.1 hj with rfl | hj'
  · rw [hx] at hjt
    cases hjt
    simp [Std.ReflCmp.compare_self] at hc
  · have := (List.pairwise_cons.1 h.sorted).1 j hj' x t hx hjt
    rw [hc] at this
    cases this

theorem Sorted.none_after_eq {v : Nat → Option V} {i : Nat} {l : Index} (h : Sorted v (i :: l))
    {t : V} (hx : v i = some t) : ∀ j ∈ l, v j ≠ some t := by
  intro j hj hjt
  have := (List.pairwise_cons.1 h.sorted).1 j hj t t hx hjt
  exact lt_irrefl t this

/-- A sorted index passes the check. -/
theorem check_ok {v : Nat → Option V} {t : V} {l : Index} {cmp : Nat → Res Ordering}
    (hs : Sorted v l) (hc : Compares v t l cmp) : check cmp l = .ok () := by
  have hsv : ∃ os, survey cmp l = .ok os ∧ aligned os = true ∧
      ((∀ i ∈ l, ∀ x, v i = some x → compare x t = .gt) → os.all (· == .gt) = true) := by
    induction l with
    | nil => exact ⟨[], rfl, rfl, fun _ => rfl⟩
    | cons i l ih =>
      obtain ⟨x, hx⟩ := hs.defined i (by simp)
      have hci := hc i (by simp) x hx
      obtain ⟨os, e, h1, h2⟩ := ih hs.tail hc.tail
      have hgt : compare x t ≠ .lt → ∀ j ∈ l, ∀ y, v j = some y → compare y t = .gt := by
        intro hxt j hj y hy
        have hxy := (List.pairwise_cons.1 hs.sorted).1 j hj x y hx hy
        cases h : compare x t with
        | lt => exact absurd h hxt
        | eq =>
          cases Std.LawfulEqCmp.eq_of_compare h
          exact Std.OrientedCmp.gt_of_lt hxy
        | gt => exact Std.OrientedCmp.gt_of_lt (Std.TransCmp.lt_trans (Std.OrientedCmp.lt_of_gt h) hxy)
      refine ⟨compare x t :: os, by simp [survey, hci, e, bind, Except.bind, pure, Except.pure], ?_, ?_⟩
      · cases h : compare x t with
        | lt => exact h1
        | eq => exact h2 (hgt (by simp [h]))
        | gt => exact h2 (hgt (by simp [h]))
      · intro hg
        simp [hg i (by simp) x hx, h2 (fun j hj => hg j (by simp [hj]))] 
  obtain ⟨os, e, h, -⟩ := hsv
  simp [check, e, h, bind, Except.bind, pure, Except.pure]

theorem getFrom_spec {v : Nat → Option V} {t : V} {l : Index} {cmp : Nat → Res Ordering}
    (hs : Sorted v l) (hc : Compares v t l cmp) :
    ∃ r, getFrom cmp l = .ok r ∧ ∀ i, r = some i ↔ i ∈ l ∧ v i = some t := by
  induction l with
  | nil => exact ⟨none, rfl, by simp⟩
  | cons i l ih =>
    obtain ⟨x, hx⟩ := hs.defined i (by simp)
    have hci := hc i (by simp) x hx
    cases h : compare x t with
    | lt =>
      obtain ⟨r, hr, hri⟩ := ih hs.tail hc.tail
      refine ⟨r, by simp [getFrom, hci, h, hr, bind, Except.bind], ?_⟩
      intro j
      rw [hri]
      constructor
      · rintro ⟨h1, h2⟩
        exact ⟨by simp [h1], h2⟩
      · rintro ⟨h1, h2⟩
        refine ⟨?_, h2⟩
        rcases List.mem_cons.1 h1 with rfl | h1
        · rw [hx] at h2
          cases h2
          exact absurd rfl (ne_of_lt h)
        · exact h1
    | eq =>
      have hxt := Std.LawfulEqCmp.eq_of_compare h
      subst hxt
      refine ⟨some i, by simp [getFrom, hci, h, bind, Except.bind], ?_⟩
      intro j
      constructor
      · intro e
        cases e
        exact ⟨by simp, hx⟩
      · rintro ⟨h1, h2⟩
        rw [hs.inj (by simp) h1 hx h2]
    | gt =>
      refine ⟨none, by simp [getFrom, hci, h, bind, Except.bind], ?_⟩
      intro j
      simp only [reduceCtorEq, false_iff, not_and]
      exact hs.none_after hx h j

theorem removeFrom_spec {v : Nat → Option V} {t : V} {l : Index} {cmp : Nat → Res Ordering}
    (hs : Sorted v l) (hc : Compares v t l cmp) :
    ∃ l' r, removeFrom cmp l = .ok (l', r) ∧ Sorted v l' ∧
      (∀ i, r = some i ↔ i ∈ l ∧ v i = some t) ∧
      (∀ i, i ∈ l' ↔ i ∈ l ∧ v i ≠ some t) := by
  induction l with
  | nil => exact ⟨[], none, rfl, Sorted.nil v, by simp, by simp⟩
  | cons i l ih =>
    obtain ⟨x, hx⟩ := hs.defined i (by simp)
    have hci := hc i (by simp) x hx
    cases h : compare x t with
    | lt =>
      obtain ⟨l', r, hr, hs', hri, hl'⟩ := ih hs.tail hc.tail
      have hit : v i ≠ some t := by
        rw [hx]
        intro e
        cases e
        exact absurd rfl (ne_of_lt h)
      refine ⟨i :: l', r, by simp [removeFrom, hci, h, hr, bind, Except.bind, pure, Except.pure],
        ⟨?_, ?_⟩, ?_, ?_⟩
      · intro j hj
        rcases List.mem_cons.1 hj with rfl | hj
        · exact ⟨x, hx⟩
        · exact hs'.defined j hj
      · refine List.pairwise_cons.2 ⟨?_, hs'.sorted⟩
        intro j hj
        exact (List.pairwise_cons.1 hs.sorted).1 j ((hl' j).1 hj).1
      · intro j
        rw [hri, List.mem_cons]
        constructor
        · rintro ⟨h1, h2⟩
          exact ⟨Or.inr h1, h2⟩
        · rintro ⟨rfl | h1, h2⟩
          · exact absurd h2 hit
          · exact ⟨h1, h2⟩
      · intro j
        rw [List.mem_cons, hl', List.mem_cons]
        constructor
        · rintro (rfl | ⟨h1, h2⟩)
          · exact ⟨Or.inl rfl, hit⟩
          · exact ⟨Or.inr h1, h2⟩
        · rintro ⟨rfl | h1, h2⟩
          · exact Or.inl rfl
          · exact Or.inr ⟨h1, h2⟩
    | eq =>
      have hxt := Std.LawfulEqCmp.eq_of_compare h
      subst hxt
      have hno := hs.none_after_eq hx
      refine ⟨l, some i, by simp [removeFrom, hci, h, bind, Except.bind, pure, Except.pure],
        hs.tail, ?_, ?_⟩
      · intro j
        constructor
        · intro e
          cases e
          exact ⟨by simp, hx⟩
        · rintro ⟨h1, h2⟩
          rw [hs.inj (by simp) h1 hx h2]
      · intro j
        rw [List.mem_cons]
        constructor
        · intro hj
          exact ⟨Or.inr hj, hno j hj⟩
        · rintro ⟨rfl | h1, h2⟩
          · exact absurd hx h2
          · exact h1
    | gt =>
      have hno := hs.none_after hx h
      refine ⟨i :: l, none, by simp [removeFrom, hci, h, bind, Except.bind, pure, Except.pure],
        hs, ?_, ?_⟩
      · intro j
        simp only [reduceCtorEq, false_iff, not_and]
        exact hno j
      · intro j
        exact ⟨fun hj => ⟨hj, hno j hj⟩, fun hj => hj.1⟩

theorem insertFrom_spec {v : Nat → Option V} {t : V} {l : Index} {cmp : Nat → Res Ordering}
    (rep : Bool) (item : Nat) (hs : Sorted v l) (hc : Compares v t l cmp)
    (hitem : v item = some t) :
    ∃ l', insertFrom rep cmp item l = .ok l' ∧ Sorted v l' ∧
      (∀ i, i ∈ l' → i ∈ l ∨ i = item) ∧
      (∀ i, i ∈ l → v i ≠ some t → i ∈ l') ∧
      (∃ i, i ∈ l' ∧ v i = some t) ∧
      ((∀ i ∈ l, v i ≠ some t) → ∀ i, i ∈ l' ↔ i ∈ l ∨ i = item) := by
  induction l with
  | nil =>
    refine ⟨[item], rfl, ⟨?_, by simp⟩, by simp, by simp, ⟨item, by simp, hitem⟩, by simp⟩
    intro i hi
    simp only [List.mem_singleton] at hi
    exact ⟨t, hi ▸ hitem⟩
  | cons i l ih =>
    obtain ⟨x, hx⟩ := hs.defined i (by simp)
    have hci := hc i (by simp) x hx
    cases h : compare x t with
    | lt =>
      obtain ⟨l', hr, hs', h1, h2, h3, h4⟩ := ih hs.tail hc.tail
      have hit : v i ≠ some t := by
        rw [hx]
        intro e
        cases e
        exact absurd rfl (ne_of_lt h)
      refine ⟨i :: l', by simp [insertFrom, hci, h, hr, bind, Except.bind, pure, Except.pure],
        ⟨?_, ?_⟩, ?_, ?_, ?_, ?_⟩
      · intro j hj
        rcases List.mem_cons.1 hj with rfl | hj
        · exact ⟨x, hx⟩
        · exact hs'.defined j hj
      · refine List.pairwise_cons.2 ⟨?_, hs'.sorted⟩
        intro j hj
        rcases h1 j hj with hj | rfl
        · exact (List.pairwise_cons.1 hs.sorted).1 j hj
        · intro a b ha hb
          rw [hx] at ha
          rw [hitem] at hb
          cases ha
          cases hb
          exact h
      · intro j hj
        rcases List.mem_cons.1 hj with rfl | hj
        · simp
        · rcases h1 j hj with hj | hj
          · simp [hj]
          · simp [hj]
      · intro j hj hjt
        rcases List.mem_cons.1 hj with rfl | hj
        · simp
        · simp [h2 j hj hjt]
      · obtain ⟨j, hj, hjt⟩ := h3
        exact ⟨j, by simp [hj], hjt⟩
      · intro hno j
        rw [List.mem_cons, h4 (fun k hk => hno k (by simp [hk])) j, List.mem_cons]
        exact or_assoc.symm
    | eq =>
      have hxt := Std.LawfulEqCmp.eq_of_compare h
      subst hxt
      have hno := hs.none_after_eq hx
      have hv : v (if rep then item else i) = some x := by
        cases rep
        · exact hx
        · exact hitem
      refine ⟨(if rep then item else i) :: l,
        by simp [insertFrom, hci, h, bind, Except.bind, pure, Except.pure], ⟨?_, ?_⟩, ?_, ?_, ?_, ?_⟩
      · intro j hj
        rcases List.mem_cons.1 hj with rfl | hj
        · exact ⟨x, hv⟩
        · exact hs.tail.defined j hj
      · refine List.pairwise_cons.2 ⟨?_, hs.tail.sorted⟩
        intro j hj a b ha hb
        rw [hv] at ha
        cases ha
        exact (List.pairwise_cons.1 hs.sorted).1 j hj x b hx hb
      · intro j hj
        rcases List.mem_cons.1 hj with rfl | hj
        · cases rep <;> simp
        · simp [hj]
      · intro j hj hjt
        rcases List.mem_cons.1 hj with rfl | hj
        · exact absurd hx hjt
        · simp [hj]
      · exact ⟨_, List.mem_cons_self, hv⟩
      · intro hno'
        exact absurd hx (hno' i (by simp))
    | gt =>
      have hno := hs.none_after hx h
      refine ⟨item :: i :: l, by simp [insertFrom, hci, h, bind, Except.bind, pure, Except.pure],
        ⟨?_, ?_⟩, ?_, ?_, ?_, ?_⟩
      · intro j hj
        rcases List.mem_cons.1 hj with rfl | hj
        · exact ⟨t, hitem⟩
        · exact hs.defined j hj
      · refine List.pairwise_cons.2 ⟨?_, hs.sorted⟩
        intro j hj a b ha hb
        rw [hitem] at ha
        cases ha
        have htx : compare t x = .lt := Std.OrientedCmp.lt_of_gt h
        rcases List.mem_cons.1 hj with rfl | hj
        · rw [hx] at hb
          cases hb
          exact htx
        · exact Std.TransCmp.lt_trans htx ((List.pairwise_cons.1 hs.sorted).1 j hj x b hx hb)
      · intro j hj
        rcases List.mem_cons.1 hj with rfl | hj
        · simp
        · exact Or.inl hj
      · intro j hj _
        exact List.mem_cons_of_mem _ hj
      · exact ⟨item, by simp, hitem⟩
      · intro _ j
        rw [List.mem_cons (l := i :: l)]
        exact or_comm

theorem insertFrom_mem {rep : Bool} {cmp : Nat → Res Ordering} {item : Nat} {l l' : Index}
    (h : insertFrom rep cmp item l = .ok l') :
    (rep = true → item ∈ l') ∧ (rep = false → ∀ i ∈ l, i ∈ l') := by
  induction l generalizing l' with
  | nil =>
    simp only [insertFrom, Except.ok.injEq] at h
    subst h
    simp
  | cons i l ih =>
    simp only [insertFrom, bind, Except.bind, pure, Except.pure] at h
    cases hc : cmp i with
    | error e => simp [hc] at h
    | ok o =>
      simp only [hc] at h
      cases o with
      | lt =>
        simp only at h
        cases hr : insertFrom rep cmp item l with
        | error e => simp [hr] at h
        | ok l1 =>
          simp only [hr, Except.ok.injEq] at h
          subst h
          obtain ⟨h1, h2⟩ := ih hr
          exact ⟨fun e => by simp [h1 e], fun e j hj => by
            rcases List.mem_cons.1 hj with rfl | hj
            · simp
            · simp [h2 e j hj]⟩
      | eq =>
        simp only [Except.ok.injEq] at h
        subst h
        cases rep <;> simp
      | gt =>
        simp only [Except.ok.injEq] at h
        subst h
        simp +contextual

theorem check_cases {α : Type} {cmp : Nat → Res Ordering} {l : Index} {f : Res α} {a : α}
    (h : (do check cmp l; f) = .ok a) : check cmp l = .ok () ∧ f = .ok a := by
  simp only [bind, Except.bind] at h
  cases hc : check cmp l with
  | error e => simp [hc] at h
  | ok u => exact ⟨rfl, by simpa [hc] using h⟩

theorem get_spec {v : Nat → Option V} {t : V} {l : Index} {cmp : Nat → Res Ordering}
    (hs : Sorted v l) (hc : Compares v t l cmp) :
    ∃ r, get cmp l = .ok r ∧ ∀ i, r = some i ↔ i ∈ l ∧ v i = some t := by
  simpa only [get, check_ok hs hc, bind, Except.bind] using getFrom_spec hs hc

theorem remove_spec {v : Nat → Option V} {t : V} {l : Index} {cmp : Nat → Res Ordering}
    (hs : Sorted v l) (hc : Compares v t l cmp) :
    ∃ l' r, remove cmp l = .ok (l', r) ∧ Sorted v l' ∧
      (∀ i, r = some i ↔ i ∈ l ∧ v i = some t) ∧
      (∀ i, i ∈ l' ↔ i ∈ l ∧ v i ≠ some t) := by
  simpa only [remove, check_ok hs hc, bind, Except.bind] using removeFrom_spec hs hc

/-- Insertion: the new index is sorted, and contains exactly the old items of
other values together with one item of the inserted value, which is the new item
or the old one of that value. -/
theorem insert_spec {v : Nat → Option V} {t : V} {l : Index} {cmp : Nat → Res Ordering}
    (rep : Bool) (item : Nat) (hs : Sorted v l) (hc : Compares v t l cmp)
    (hitem : v item = some t) :
    ∃ l', insert rep cmp item l = .ok l' ∧ Sorted v l' ∧
      (∀ i, i ∈ l' → i ∈ l ∨ i = item) ∧
      (∀ i, i ∈ l → v i ≠ some t → i ∈ l') ∧
      (∃ i, i ∈ l' ∧ v i = some t) ∧
      ((∀ i ∈ l, v i ≠ some t) → ∀ i, i ∈ l' ↔ i ∈ l ∨ i = item) := by
  simpa only [insert, check_ok hs hc, bind, Except.bind] using insertFrom_spec rep item hs hc hitem

/-- Which of two equal items insertion keeps. -/
theorem insert_mem {rep : Bool} {cmp : Nat → Res Ordering} {item : Nat} {l l' : Index}
    (h : insert rep cmp item l = .ok l') :
    (rep = true → item ∈ l') ∧ (rep = false → ∀ i ∈ l, i ∈ l') :=
  insertFrom_mem (check_cases h).2

end Index

end RdfTypes
