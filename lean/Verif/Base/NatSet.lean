/-!
# `BTreeSet<usize>`

A set of keys is the strictly ascending list of its elements.
-/

namespace RdfTypes

/-- `std::collections::BTreeSet<usize>`. Simplification: the list of the
elements in ascending order. -/
abbrev NatSet := List Nat

namespace NatSet

/-- `BTreeSet::insert` (the Boolean result is not used by the code). -/
def insert (k : Nat) : NatSet → NatSet
  | [] => [k]
  | i :: l => if k < i then k :: i :: l else if k = i then i :: l else i :: insert k l

/-- `BTreeSet::remove`; nothing happens when the element is absent. -/
def remove (k : Nat) (l : NatSet) : NatSet := l.filter (· != k)

/-- The elements are strictly ascending. -/
def Asc (l : NatSet) : Prop := l.Pairwise (· < ·)

theorem asc_nil : Asc [] := List.Pairwise.nil

theorem asc_single (k : Nat) : Asc [k] := by simp [Asc]

theorem Asc.nodup {l : NatSet} (h : Asc l) : l.Nodup :=
  List.Pairwise.imp (fun h => Nat.ne_of_lt h) h

theorem mem_insert {k n : Nat} {l : NatSet} : n ∈ insert k l ↔ n = k ∨ n ∈ l := by
  induction l with
  | nil => simp [insert]
  | cons i l ih =>
    unfold insert
    split
    · simp
    · split
      · rename_i h
        subst h
        simp
      · simp only [List.mem_cons, ih]
        grind

theorem asc_insert {k : Nat} {l : NatSet} (h : Asc l) : Asc (insert k l) := by
  induction l with
  | nil => simp [insert, Asc]
  | cons i l ih =>
    obtain ⟨h1, h2⟩ := List.pairwise_cons.1 h
    unfold insert
    split
    · rename_i hk
      refine List.pairwise_cons.2 ⟨?_, h⟩
      intro n hn
      rcases List.mem_cons.1 hn with rfl | hn
      · exact hk
      · have := h1 n hn
        omega
    · split
      · exact h
      · refine List.pairwise_cons.2 ⟨?_, ih h2⟩
        intro n hn
        rcases mem_insert.1 hn with rfl | hn
        · omega
        · exact h1 n hn

theorem mem_remove {k n : Nat} {l : NatSet} : n ∈ remove k l ↔ n ∈ l ∧ n ≠ k := by
  simp [remove]

theorem asc_remove {k : Nat} {l : NatSet} (h : Asc l) : Asc (remove k l) :=
  List.Pairwise.filter _ h

theorem remove_of_not_mem {k : Nat} {l : NatSet} (h : k ∉ l) : remove k l = l := by
  unfold remove
  rw [List.filter_eq_self]
  intro a ha
  simp only [bne_iff_ne, ne_eq]
  rintro rfl
  exact h ha

/-- Two ascending lists with the same elements are equal. -/
theorem Asc.ext {l m : NatSet} (hl : Asc l) (hm : Asc m) (h : ∀ k, k ∈ l ↔ k ∈ m) : l = m := by
  induction l generalizing m with
  | nil =>
    cases m with
    | nil => rfl
    | cons y m => exact absurd ((h y).2 (by simp)) (by simp)
  | cons x l ih =>
    cases m with
    | nil => exact absurd ((h x).1 (by simp)) (by simp)
    | cons y m =>
      obtain ⟨hxl, hl'⟩ := List.pairwise_cons.1 hl
      obtain ⟨hyl, hm'⟩ := List.pairwise_cons.1 hm
      have hxy : x = y := by
        rcases List.mem_cons.1 ((h x).1 (by simp)) with e | hx
        · exact e
        · rcases List.mem_cons.1 ((h y).2 (by simp)) with e | hy
          · exact e.symm
          · have := hxl y hy
            have := hyl x hx
            omega
      subst hxy
      congr 1
      refine ih hl' hm' ?_
      intro z
      constructor
      · intro hz
        rcases List.mem_cons.1 ((h z).1 (by simp [hz])) with e | hz'
        · have := hxl z hz
          omega
        · exact hz'
      · intro hz
        rcases List.mem_cons.1 ((h z).2 (by simp [hz])) with e | hz'
        · have := hyl z hz
          omega
        · exact hz'

end NatSet

end RdfTypes
