/-!
# Panics and slabs

`slab::Slab<T>` (external crate `slab` 0.4) as used by the four containers of
`/repo/src/dataset`.
-/

namespace RdfTypes

/-- The ways in which the modelled code can panic (or, for `outOfFuel`, fail to
terminate). `invalidKey`: `slab[i]` or `slab.remove(i)` on a vacant slot.
`underflow`: `occurrences -= 1` on zero (`btree_dataset.rs` 229, 236, 243, 251).
`unwrapNone`: `Option::unwrap` on `None` (`isomorphism.rs` 99, 367, 368).
`badSlice`: slicing a string beyond its end or inside a character (`blankid.rs` 57).
`overflow`: `count += 1` on `usize::MAX` (`term/generator/blank.rs` 63).
`disorder`: a tree is searched whose items are not in order; what happens then depends
on its shape (`Base/BTree`). -/
inductive Panic where
  | invalidKey
  | underflow
  | outOfFuel
  | unwrapNone
  | badSlice
  | overflow
  | disorder
  deriving DecidableEq, Repr

/-- Computations that may panic. -/
abbrev Res (α : Type) := Except Panic α

/-- `slab::Slab<T>`: `entries[k]` is the content of slot `k`; `free` is the
stack of vacant keys. Simplification: in the crate the vacant keys form a linked
list threaded through the vacant entries; here it is an explicit stack. -/
structure Slab (α : Type) where
  entries : List (Option α)
  free : List Nat
  deriving DecidableEq, Repr

deriving instance DecidableEq for Except

namespace Slab

variable {α β : Type}

/-- `Slab::new`. -/
def empty : Slab α := ⟨[], []⟩

/-- `Slab::get(k)`. -/
def get (s : Slab α) (k : Nat) : Option α := (s.entries[k]?).join

/-- `slab[k]`: panics on a vacant slot. -/
def index (s : Slab α) (k : Nat) : Res α :=
  match s.get k with
  | some v => .ok v
  | none => .error .invalidKey

/-- `Slab::vacant_entry().key()`: the key the next insertion will use. -/
def vacantKey (s : Slab α) : Nat :=
  match s.free with
  | [] => s.entries.length
  | k :: _ => k

/-- `Slab::insert(v)`, and `VacantEntry::insert(v)` on the entry returned by
`vacant_entry()`; the key used is `vacantKey`. -/
def insert (s : Slab α) (v : α) : Slab α :=
  match s.free with
  | [] => ⟨s.entries ++ [some v], []⟩
  | k :: ks => ⟨s.entries.set k (some v), ks⟩

/-- `Slab::remove(k)`: panics on a vacant slot. -/
def remove (s : Slab α) (k : Nat) : Res (Slab α × α) :=
  match s.get k with
  | some v => .ok (⟨s.entries.set k none, k :: s.free⟩, v)
  | none => .error .invalidKey

/-- `f(&mut slab[k])`: panics on a vacant slot; `f` itself may panic. -/
def modify (s : Slab α) (k : Nat) (f : α → Res α) : Res (Slab α) := do
  let v ← s.index k
  let v' ← f v
  pure ⟨s.entries.set k (some v'), s.free⟩

/-- `Slab::len()`: the number of occupied slots. -/
def len (s : Slab α) : Nat := s.entries.countP (·.isSome)

/-- Drops the trailing vacant slots. -/
def trim (l : List (Option α)) : List (Option α) :=
  (l.reverse.dropWhile (·.isNone)).reverse

/-- `slab.into_iter().map(|(k, v)| (k, f(v))).collect()`: same keys, mapped
values. `Slab::from_iter` creates slots up to the last key only, and links the
holes it leaves so that the highest one is reused first. -/
def mapCollect (f : α → β) (s : Slab α) : Slab β :=
  let e := trim (s.entries.map (Option.map f))
  ⟨e, ((List.range e.length).filter (fun k => ((e[k]?).join).isNone)).reverse⟩

/-- Well-formedness: the stack lists each vacant slot exactly once. -/
structure WF (s : Slab α) : Prop where
  nodup : s.free.Nodup
  mem_free : ∀ k, k ∈ s.free ↔ k < s.entries.length ∧ s.get k = none

/-- The occupied keys, ascending. -/
def keys (s : Slab α) : List Nat :=
  (List.range s.entries.length).filter (fun k => (s.get k).isSome)

theorem get_eq_some_iff {s : Slab α} {k : Nat} {v : α} :
    s.get k = some v ↔ s.entries[k]? = some (some v) := by
  unfold get
  cases h : s.entries[k]? with
  | none => simp
  | some o => cases o <;> simp

theorem lt_of_get {s : Slab α} {k : Nat} {v : α} (h : s.get k = some v) :
    k < s.entries.length := by
  rw [get_eq_some_iff] at h
  exact (List.getElem?_eq_some_iff.1 h).1

theorem index_eq_ok {s : Slab α} {k : Nat} {v : α} :
    s.index k = .ok v ↔ s.get k = some v := by
  unfold index
  cases s.get k <;> simp

theorem wf_empty : (empty : Slab α).WF :=
  ⟨by simp [empty], by intro k; simp [empty]⟩

@[simp] theorem get_empty (k : Nat) : (empty : Slab α).get k = none := by
  simp [empty, get]

theorem get_vacantKey {s : Slab α} (h : s.WF) : s.get s.vacantKey = none := by
  unfold vacantKey
  split
  · simp [get]
  · rename_i k ks hk
    exact ((h.mem_free k).1 (by simp [hk])).2

theorem get_insert {s : Slab α} (h : s.WF) (v : α) (k : Nat) :
    (s.insert v).get k = if k = s.vacantKey then some v else s.get k := by
  unfold insert vacantKey
  split
  · rename_i hf
    unfold get
    simp only [List.getElem?_append]
    by_cases hk : k < s.entries.length
    · have : k ≠ s.entries.length := by omega
      simp [hk, this]
    · by_cases hk' : k = s.entries.length
      · subst hk'; simp
      · have h2 : s.entries.length < k := by omega
        have h3 : ([some v] : List (Option α))[k - s.entries.length]? = none := by
          apply List.getElem?_eq_none
          simp; omega
        simp [hk, hk', h3]
  · rename_i j ks hf
    have hj := (h.mem_free j).1 (by simp [hf])
    unfold get
    simp only [List.getElem?_set]
    by_cases hk : k = j
    · subst hk; simp [hj.1]
    · have : j ≠ k := fun e => hk e.symm
      simp [hk, this]

theorem wf_insert {s : Slab α} (h : s.WF) (v : α) : (s.insert v).WF := by
  constructor
  · unfold insert
    split
    · simp
    · rename_i k ks hf
      have := h.nodup
      rw [hf] at this
      exact (List.nodup_cons.1 this).2
  · intro k
    rw [get_insert h]
    cases hf : s.free with
    | nil =>
      have hv : s.vacantKey = s.entries.length := by simp [vacantKey, hf]
      have hno := h.mem_free k
      simp only [hf, List.not_mem_nil, false_iff, not_and] at hno
      simp only [insert, hf, hv, List.not_mem_nil, List.length_append, List.length_cons,
        List.length_nil, false_iff, not_and]
      intro hlt
      by_cases hk : k = s.entries.length
      · simp [hk]
      · simp only [hk, if_false]
        exact hno (by omega)
    | cons j ks =>
      have hv : s.vacantKey = j := by simp [vacantKey, hf]
      have hno := h.mem_free k
      have hnd := h.nodup
      rw [hf] at hnd
      simp only [hf, List.mem_cons] at hno
      simp only [insert, hf, hv, List.length_set]
      by_cases hk : k = j
      · subst hk
        simp only [if_true, reduceCtorEq, and_false, iff_false]
        exact (List.nodup_cons.1 hnd).1
      · simp only [hk, false_or, if_false] at hno ⊢
        exact hno

theorem remove_eq_ok {s : Slab α} {k : Nat} {v : α} (hk : s.get k = some v) :
    s.remove k = .ok (⟨s.entries.set k none, k :: s.free⟩, v) := by
  simp [remove, hk]

/-- The slab left by a successful `remove`. -/
def erase (s : Slab α) (k : Nat) : Slab α := ⟨s.entries.set k none, k :: s.free⟩

theorem remove_ok {s : Slab α} {k : Nat} {v : α} (hk : s.get k = some v) :
    s.remove k = .ok (s.erase k, v) := by
  simp [remove, hk, erase]

theorem get_erase {s : Slab α} (k j : Nat) :
    (s.erase k).get j = if j = k then none else s.get j := by
  unfold erase get
  simp only [List.getElem?_set]
  by_cases h : j = k
  · subst h
    by_cases hl : j < s.entries.length <;> simp [hl]
  · have : k ≠ j := fun e => h e.symm
    simp [h, this]

theorem wf_erase {s : Slab α} (h : s.WF) {k : Nat} {v : α} (hk : s.get k = some v) :
    (s.erase k).WF := by
  constructor
  · unfold erase
    refine List.nodup_cons.2 ⟨?_, h.nodup⟩
    intro hm
    have := ((h.mem_free k).1 hm).2
    simp [hk] at this
  · intro j
    rw [get_erase]
    have := h.mem_free j
    simp only [erase, List.mem_cons, List.length_set]
    by_cases hj : j = k
    · subst hj
      simp [lt_of_get hk]
    · simp [hj, this]

/-- The slab left by a successful `modify`. -/
def put (s : Slab α) (k : Nat) (v : α) : Slab α := ⟨s.entries.set k (some v), s.free⟩

theorem modify_ok {s : Slab α} {k : Nat} {v v' : α} {f : α → Res α}
    (hk : s.get k = some v) (hf : f v = .ok v') :
    s.modify k f = .ok (s.put k v') := by
  simp [modify, index, hk, hf, put, bind, Except.bind, pure, Except.pure]

theorem get_put {s : Slab α} {k : Nat} {v v' : α} (hk : s.get k = some v) (j : Nat) :
    (s.put k v').get j = if j = k then some v' else s.get j := by
  have hl := lt_of_get hk
  unfold put get
  simp only [List.getElem?_set]
  by_cases h : j = k
  · subst h; simp [hl]
  · have : k ≠ j := fun e => h e.symm
    simp [h, this]

theorem wf_put {s : Slab α} (h : s.WF) {k : Nat} {v v' : α} (hk : s.get k = some v) :
    (s.put k v').WF := by
  constructor
  · exact h.nodup
  · intro j
    rw [get_put hk]
    have := h.mem_free j
    simp only [put, List.length_set]
    by_cases hj : j = k
    · subst hj
      simp only [hk, reduceCtorEq, and_false, iff_false] at this
      simp [this]
    · simp [hj, this]

theorem trim_getElem? (l : List (Option α)) (k : Nat) :
    ((trim l)[k]?).join = (l[k]?).join := by
  have key : ∀ r : List (Option α), (((r.dropWhile (·.isNone)).reverse)[k]?).join
      = ((r.reverse)[k]?).join := by
    intro r
    induction r with
    | nil => simp
    | cons a r ih =>
      cases a with
      | some v => simp
      | none =>
        simp only [List.reverse_cons, List.dropWhile_cons, Option.isNone_none, if_true]
        rw [ih, List.getElem?_append]
        by_cases hk : k < r.reverse.length
        · simp only [hk, if_true]
        · simp only [hk, if_false]
          rw [List.getElem?_eq_none (by omega)]
          cases hj : k - r.reverse.length with
          | zero => simp
          | succ n => simp
  have := key l.reverse
  rwa [List.reverse_reverse] at this

theorem get_mapCollect (f : α → β) (s : Slab α) (k : Nat) :
    (s.mapCollect f).get k = (s.get k).map f := by
  unfold mapCollect get
  simp only
  rw [trim_getElem?, List.getElem?_map]
  cases s.entries[k]? with
  | none => simp
  | some o => cases o <;> simp

theorem wf_mapCollect (f : α → β) (s : Slab α) : (s.mapCollect f).WF := by
  constructor
  · unfold mapCollect
    simp only
    refine List.pairwise_reverse.2 ?_
    exact (List.Pairwise.filter _ List.nodup_range).imp (fun h => Ne.symm h)
  · intro k
    unfold mapCollect get
    simp [List.mem_filter]

theorem mem_keys {s : Slab α} {k : Nat} : k ∈ s.keys ↔ ∃ v, s.get k = some v := by
  unfold keys
  rw [List.mem_filter, List.mem_range]
  constructor
  · intro ⟨_, h⟩
    exact Option.isSome_iff_exists.1 h
  · rintro ⟨v, h⟩
    exact ⟨lt_of_get h, by simp [h]⟩

theorem keys_pairwise (s : Slab α) : s.keys.Pairwise (· < ·) :=
  List.Pairwise.filter _ List.pairwise_lt_range

theorem keys_nodup (s : Slab α) : s.keys.Nodup :=
  (keys_pairwise s).imp (fun h => Nat.ne_of_lt h)

theorem len_eq_keys_length (s : Slab α) : s.len = s.keys.length := by
  unfold len keys get
  rw [← List.countP_eq_length_filter]
  generalize s.entries = l
  induction l with
  | nil => simp
  | cons a l ih =>
    rw [List.countP_cons, List.length_cons, List.range_succ_eq_map, List.countP_cons,
      List.countP_map, ih]
    simp [Function.comp_def]

/-- `len` is the length of any duplicate-free list of the occupied keys. -/
theorem len_eq_length {s : Slab α} {l : List Nat} (hn : l.Nodup)
    (hm : ∀ k, k ∈ l ↔ ∃ v, s.get k = some v) : s.len = l.length := by
  rw [len_eq_keys_length]
  refine List.Perm.length_eq ?_
  refine (List.perm_ext_iff_of_nodup (keys_nodup s) hn).2 ?_
  intro k
  rw [mem_keys, hm]

theorem lt_length_of_get {s : Slab α} {k : Nat} {v : α} (h : s.get k = some v) :
    k < s.entries.length := lt_of_get h

theorem get_eq_none_of_le {s : Slab α} {k : Nat} (h : s.entries.length ≤ k) :
    s.get k = none := by
  simp [get, List.getElem?_eq_none h]

end Slab

end RdfTypes
