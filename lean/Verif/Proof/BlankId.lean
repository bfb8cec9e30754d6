import Verif.Model.BlankId
import Verif.Spec.BlankId

/-!
# Blank node identifiers
-/

namespace RdfTypes

open Spec

namespace BlankId

theorem toNat_inj {c d : Char} (h : c.toNat = d.toNat) : c = d :=
  Char.ext (UInt32.toNat_inj.1 h)

theorem isPnCharBase_iff (c : Char) : isPnCharBase c = true ↔ InClass pnCharsBase c := by
  simp [isPnCharBase, InClass, pnCharsBase, range, or_assoc]

theorem isPnCharU_iff (c : Char) : isPnCharU c = true ↔ InClass pnCharsU c := by
  have h1 : c = '_' ↔ 0x5F ≤ c.toNat ∧ c.toNat ≤ 0x5F := by
    refine ⟨by rintro rfl; decide, fun h => toNat_inj (d := '_') ?_⟩
    have : ('_').toNat = 0x5F := by decide
    omega
  have h2 : c = ':' ↔ 0x3A ≤ c.toNat ∧ c.toNat ≤ 0x3A := by
    refine ⟨by rintro rfl; decide, fun h => toNat_inj (d := ':') ?_⟩
    have : (':').toNat = 0x3A := by decide
    omega
  rw [isPnCharU, Bool.or_eq_true, isPnCharBase_iff]
  simp only [pnCharsU, InClass, List.mem_append, Bool.or_eq_true, beq_iff_eq, or_and_right,
    exists_or, List.mem_cons, List.not_mem_nil, or_false, exists_eq_left, h1, h2]

theorem isPnChar_iff (c : Char) : isPnChar c = true ↔ InClass pnChars c := by
  have h1 : c = '-' ↔ 0x2D ≤ c.toNat ∧ c.toNat ≤ 0x2D := by
    refine ⟨by rintro rfl; decide, fun h => toNat_inj (d := '-') ?_⟩
    have : ('-').toNat = 0x2D := by decide
    omega
  rw [isPnChar, Bool.or_eq_true, isPnCharU_iff]
  simp only [pnChars, digits, InClass, List.mem_append, Bool.or_eq_true, beq_iff_eq, or_and_right,
    exists_or, List.mem_cons, List.not_mem_nil, or_false, exists_eq_left, h1, range,
    Bool.and_eq_true, decide_eq_true_eq, or_assoc]

theorem isDigit_iff (c : Char) : c.isDigit = true ↔ InClass digits c := by
  simp only [Char.isDigit, InClass, digits, List.mem_cons, List.not_mem_nil, or_false,
    exists_eq_left, Bool.and_eq_true, decide_eq_true_eq]
  rfl

theorem digit_isPnChar {c : Char} (h : InClass digits c) : InClass pnChars c := by
  obtain ⟨r, hr, h⟩ := h
  refine ⟨r, ?_, h⟩
  simp only [pnChars, List.mem_append]
  exact Or.inl (Or.inr hr)

theorem checkRest_iff : ∀ s : Text, checkRest s = true ↔ ∀ c ∈ s, InClass pnChars c
  | [] => by simp [checkRest]
  | c :: s => by
    rw [checkRest, List.forall_mem_cons, ← checkRest_iff s, ← isPnChar_iff]
    cases isPnChar c <;> simp

theorem check_iff (s : Text) : check s = true ↔
    ∃ c rest, s = ['_', ':'] ++ c :: rest ∧ (InClass pnCharsU c ∨ InClass digits c) ∧
      ∀ c ∈ rest, InClass pnChars c := by
  constructor
  · intro h
    unfold check at h
    split at h
    · next c rest =>
      split at h
      · next hc =>
        rw [Bool.or_eq_true, isDigit_iff, isPnCharU_iff] at hc
        exact ⟨c, rest, rfl, hc.symm, (checkRest_iff rest).1 h⟩
      · cases h
    · cases h
  · rintro ⟨c, rest, rfl, hc, hr⟩
    have : (c.isDigit || isPnCharU c) = true := by
      rw [Bool.or_eq_true, isDigit_iff, isPnCharU_iff]
      exact hc.symm
    simp only [List.cons_append, List.nil_append, check, this, if_true]
    exact (checkRest_iff rest).2 hr

theorem dot_not_pnChar : ¬ InClass pnChars '.' := by
  rw [← isPnChar_iff]
  decide

theorem dot_not_pnCharU : ¬ InClass pnCharsU '.' := by
  rw [← isPnCharU_iff]
  decide

theorem dot_not_digit : ¬ InClass digits '.' := by
  rw [← isDigit_iff]
  decide

/-- What is accepted. -/
theorem check_iff_label (s : Text) : check s = true ↔ BlankNodeLabel s ∧ '.' ∉ s := by
  rw [check_iff]
  constructor
  · rintro ⟨c, rest, rfl, hc, hr⟩
    refine ⟨⟨c, rest, rfl, hc, ?_⟩, ?_⟩
    · rcases List.eq_nil_or_concat rest with h | ⟨mid, last, rfl⟩
      · exact Or.inl h
      · exact Or.inr ⟨mid, last, by simp, fun c h => Or.inl (hr c (by simp [h])),
          hr last (by simp)⟩
    · intro h
      simp only [List.cons_append, List.nil_append, List.mem_cons] at h
      rcases h with h | h | h | h
      · exact absurd h (by decide)
      · exact absurd h (by decide)
      · rw [← h] at hc
        exact hc.elim dot_not_pnCharU dot_not_digit
      · exact dot_not_pnChar (hr _ h)
  · rintro ⟨⟨c, rest, rfl, hc, hr⟩, hd⟩
    refine ⟨c, rest, rfl, hc, ?_⟩
    rcases hr with rfl | ⟨mid, last, rfl, hm, hl⟩
    · simp
    · intro d hd'
      rcases List.mem_append.1 hd' with h | h
      · rcases hm d h with h' | rfl
        · exact h'
        · exact absurd h (fun h => hd (by simp [h]))
      · rw [List.mem_singleton.1 h]
        exact hl

theorem suffix_eq (s : Text) : suffix ⟨'_' :: ':' :: s⟩ = .ok s := by
  have h1 : ('_').utf8Size = 1 := by decide
  have h2 : (':').utf8Size = 1 := by decide
  simp [suffix, sliceFrom, h1, h2]

end BlankId

theorem decimal_digits (n : Nat) : AllDigits (decimal n) := fun _ h =>
  (BlankId.isDigit_iff _).1 (Nat.isDigit_of_mem_toDigits (by decide) (by decide) h)

theorem decimal_ne_nil (n : Nat) : decimal n ≠ [] := Nat.toDigits_ne_nil

theorem decimal_inj {m n : Nat} (h : decimal m = decimal n) : m = n := by
  rw [← Nat.ofDigitChars_ten_toDigits (n := m), ← Nat.ofDigitChars_ten_toDigits (n := n)]
  exact congrArg (Nat.ofDigitChars 10 · 0) h

theorem check_decimal (n : Nat) : BlankId.check ('_' :: ':' :: decimal n) = true := by
  rw [BlankId.check_iff]
  cases h : decimal n with
  | nil => exact absurd h (decimal_ne_nil n)
  | cons c rest =>
    have hd := decimal_digits n
    rw [h] at hd
    exact ⟨c, rest, rfl, Or.inr (hd c (by simp)), fun d hd' =>
      BlankId.digit_isPnChar (hd d (by simp [hd']))⟩

/-- Adding digits to a label gives a label. -/
theorem check_append {s t : Text} (h : BlankId.check s = true) (ht : AllDigits t) :
    BlankId.check (s ++ t) = true := by
  rw [BlankId.check_iff] at h ⊢
  obtain ⟨c, rest, rfl, hc, hr⟩ := h
  refine ⟨c, rest ++ t, by simp, hc, fun d hd => ?_⟩
  rcases List.mem_append.1 hd with h | h
  · exact hr d h
  · exact BlankId.digit_isPnChar (ht d h)

namespace Blank

/-- The identifier of a number. -/
def idOf (pre : Text) (n : Nat) : BlankIdBuf := ⟨['_', ':'] ++ pre ++ decimal n⟩

theorem idOf_inj {pre : Text} {m n : Nat} (h : idOf pre m = idOf pre n) : m = n := by
  simp only [idOf, BlankIdBuf.mk.injEq, List.append_cancel_left_eq] at h
  exact decimal_inj h

theorem take_eq : ∀ (n : Nat) (g : Blank), g.count + n ≤ usizeMax →
    g.take n = .ok ((List.range' g.count n).map (idOf g.pre), { g with count := g.count + n })
  | 0, g, _ => rfl
  | n + 1, g, h => by
    have h1 : g.count < usizeMax := by omega
    rw [take, nextBlankId, if_pos h1]
    have := take_eq n { g with count := g.count + 1 } (by simp only; omega)
    simp only [bind, Except.bind, this, List.range'_succ, List.map_cons]
    congr 2
    · simp only [Blank.mk.injEq, true_and]
      omega

theorem take_overflow : ∀ (n : Nat) (g : Blank), g.count ≤ usizeMax → usizeMax < g.count + n →
    g.take n = .error .overflow
  | 0, g, h, h' => by omega
  | n + 1, g, h, h' => by
    rw [take, nextBlankId]
    by_cases h1 : g.count < usizeMax
    · rw [if_pos h1]
      have := take_overflow n { g with count := g.count + 1 } (by simp only; omega) (by simp only; omega)
      simp only [bind, Except.bind, this]
    · rw [if_neg h1]
      rfl

/-- Equal strings that end in digits: one beginning is the other one with more digits. -/
theorem append_digits {s s' t t' : Text} (ht : AllDigits t) (ht' : AllDigits t')
    (h : s ++ t = s' ++ t') : (∃ d, AllDigits d ∧ s' = s ++ d) ∨ ∃ d, AllDigits d ∧ s = s' ++ d := by
  rcases List.append_eq_append_iff.1 h with ⟨d, h1, h2⟩ | ⟨d, h1, h2⟩
  · exact Or.inl ⟨d, fun c hc => ht c (by rw [h2]; simp [hc]), h1⟩
  · exact Or.inr ⟨d, fun c hc => ht' c (by rw [h2]; simp [hc]), h1⟩

end Blank

end RdfTypes
