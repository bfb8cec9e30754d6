import Verif.Proof.BlankId

/-!
# C42 to C45: blank node identifiers and their generator

Labels with a dot inside are rejected, though the grammar allows them (C43).
-/

namespace RdfTypes.Property

open Spec

/-- Accepted strings are labels, labels without a dot are accepted, and the other
strings are returned. -/
theorem C42_accepted (s : Text) :
    (∀ b, BlankId.new s = .ok b → b.asStr = s ∧ BlankNodeLabel s) ∧
    (∀ b, BlankIdBuf.new s = .ok b → b.str = s ∧ BlankNodeLabel s) ∧
    (∀ b, BlankIdBuf.fromStr s = .ok b → b.str = s ∧ BlankNodeLabel s) ∧
    (∀ b, BlankIdBuf.fromSuffix s = .ok b → b.str = ['_', ':'] ++ s ∧ BlankNodeLabel (['_', ':'] ++ s)) ∧
    (BlankNodeLabel s → '.' ∉ s →
      BlankId.new s = .ok ⟨s⟩ ∧ BlankIdBuf.new s = .ok ⟨s⟩ ∧ BlankIdBuf.fromStr s = .ok ⟨s⟩) ∧
    (BlankNodeLabel (['_', ':'] ++ s) → '.' ∉ s → BlankIdBuf.fromSuffix s = .ok ⟨['_', ':'] ++ s⟩) ∧
    (∀ e, BlankId.new s = .error e → e = s) ∧ (∀ e, BlankIdBuf.new s = .error e → e = s) ∧
    (∀ e, BlankIdBuf.fromStr s = .error e → e = s) ∧
    (∀ e, BlankIdBuf.fromSuffix s = .error e → e = ['_', ':'] ++ s) := by
  have h := BlankId.check_iff_label s
  have h' := BlankId.check_iff_label (['_', ':'] ++ s)
  simp only [List.cons_append, List.nil_append] at h' ⊢
  have hd : '.' ∉ s → '.' ∉ '_' :: ':' :: s := by
    intro h
    simp [h]
  unfold BlankIdBuf.fromSuffix BlankIdBuf.fromStr BlankId.new BlankIdBuf.new
  refine ⟨?_, ?_, ?_, ?_, ?_, ?_, ?_, ?_, ?_, ?_⟩ <;> grind

/-- Letters outside ASCII, and a space. -/
example : BlankId.new "_:é9-·b".toList = .ok ⟨"_:é9-·b".toList⟩ ∧
    BlankId.new "_:a b".toList = .error "_:a b".toList ∧
    BlankIdBuf.fromSuffix "-a".toList = .error "_:-a".toList := by decide

/-- Exactly the labels without a dot are accepted. Missing: labels with a dot. -/
theorem C43_labels_partial (s : Text) :
    (∃ b, BlankId.new s = .ok b) ↔ BlankNodeLabel s ∧ '.' ∉ s := by
  rw [← BlankId.check_iff_label]
  unfold BlankId.new
  cases BlankId.check s <;> simp

example : (∃ x, BlankId.new "_:a1".toList = .ok x) ↔
    BlankNodeLabel "_:a1".toList ∧ '.' ∉ "_:a1".toList := C43_labels_partial _

/-- The code violates the claim: `_:a.b` is a label that is rejected. -/
theorem C43_false :
    ∃ s, BlankNodeLabel s ∧ BlankId.new s = .error s ∧ BlankIdBuf.new s = .error s := by
  refine ⟨"_:a.b".toList, ⟨'a', ".b".toList, by decide, Or.inl ?_, Or.inr
    ⟨['.'], 'b', by decide, fun c h => Or.inr (List.mem_singleton.1 h), ?_⟩⟩, by decide, by decide⟩
  · rw [← BlankId.isPnCharU_iff]
    decide
  · rw [← BlankId.isPnChar_iff]
    decide

example : (∃ b, BlankId.new "_:0".toList = .ok b) ∧ ¬ ∃ b, BlankId.new "_:".toList = .ok b := by
  refine ⟨⟨⟨"_:0".toList⟩, by decide⟩, ?_⟩
  rintro ⟨b, h⟩
  have : BlankId.new "_:".toList = .error "_:".toList := by decide
  rw [this] at h
  cases h

/-- Numbered labels are valid and tell the numbers apart, also numbers of different
widths. -/
theorem C44_numbers :
    (∀ i, BlankNodeLabel (BlankIdBuf.fromU8 i).str ∧
      BlankIdBuf.new (BlankIdBuf.fromU8 i).str = .ok (BlankIdBuf.fromU8 i)) ∧
    (∀ i, BlankNodeLabel (BlankIdBuf.fromU16 i).str ∧
      BlankIdBuf.new (BlankIdBuf.fromU16 i).str = .ok (BlankIdBuf.fromU16 i)) ∧
    (∀ i, BlankNodeLabel (BlankIdBuf.fromU32 i).str ∧
      BlankIdBuf.new (BlankIdBuf.fromU32 i).str = .ok (BlankIdBuf.fromU32 i)) ∧
    (∀ i, BlankNodeLabel (BlankIdBuf.fromU64 i).str ∧
      BlankIdBuf.new (BlankIdBuf.fromU64 i).str = .ok (BlankIdBuf.fromU64 i)) ∧
    (∀ i j, BlankIdBuf.fromU8 i = BlankIdBuf.fromU64 j ↔ i.toNat = j.toNat) ∧
    (∀ i j, BlankIdBuf.fromU16 i = BlankIdBuf.fromU64 j ↔ i.toNat = j.toNat) ∧
    (∀ i j, BlankIdBuf.fromU32 i = BlankIdBuf.fromU64 j ↔ i.toNat = j.toNat) ∧
    (∀ i j, BlankIdBuf.fromU8 i = BlankIdBuf.fromU8 j → i = j) ∧
    (∀ i j, BlankIdBuf.fromU16 i = BlankIdBuf.fromU16 j → i = j) ∧
    (∀ i j, BlankIdBuf.fromU32 i = BlankIdBuf.fromU32 j → i = j) ∧
    (∀ i j, BlankIdBuf.fromU64 i = BlankIdBuf.fromU64 j → i = j) := by
  have h : ∀ n, BlankNodeLabel ('_' :: ':' :: decimal n) ∧
      BlankIdBuf.new ('_' :: ':' :: decimal n) = .ok ⟨'_' :: ':' :: decimal n⟩ := by
    intro n
    refine ⟨((BlankId.check_iff_label _).1 (check_decimal n)).1, ?_⟩
    rw [BlankIdBuf.new, check_decimal]
    rfl
  have hi : ∀ m n, (⟨'_' :: ':' :: decimal m⟩ : BlankIdBuf) = ⟨'_' :: ':' :: decimal n⟩ ↔ m = n := by
    intro m n
    simp only [BlankIdBuf.mk.injEq, List.cons.injEq, true_and]
    exact ⟨decimal_inj, fun h => by rw [h]⟩
  exact ⟨fun i => h _, fun i => h _, fun i => h _, fun i => h _, fun i j => hi _ _,
    fun i j => hi _ _, fun i j => hi _ _, fun i j e => UInt8.toNat_inj.1 ((hi _ _).1 e),
    fun i j e => UInt16.toNat_inj.1 ((hi _ _).1 e), fun i j e => UInt32.toNat_inj.1 ((hi _ _).1 e),
    fun i j e => UInt64.toNat_inj.1 ((hi _ _).1 e)⟩

example : (BlankIdBuf.fromU64 18446744073709551615).str = "_:18446744073709551615".toList := by decide

/-- The suffix of an accepted label is what follows `_:`, without panic, and is what the
label was made of. -/
theorem C44_suffix :
    (∀ s b, BlankId.new s = .ok b → ∃ t, b.suffix = .ok t ∧ b.asStr = ['_', ':'] ++ t) ∧
    (∀ s b, BlankIdBuf.new s = .ok b → ∃ t, b.asBlankIdRef.suffix = .ok t ∧ b.str = ['_', ':'] ++ t) ∧
    (∀ s b, BlankIdBuf.fromSuffix s = .ok b → b.asBlankIdRef.suffix = .ok s) ∧
    (∀ s s' b, BlankIdBuf.fromSuffix s = .ok b → BlankIdBuf.fromSuffix s' = .ok b → s = s') ∧
    (∀ b t, BlankIdBuf.new b.str = .ok b → b.asBlankIdRef.suffix = .ok t →
      BlankIdBuf.fromSuffix t = .ok b) := by
  have key : ∀ s, BlankId.check s = true → ∃ t, s = '_' :: ':' :: t := by
    intro s h
    obtain ⟨c, rest, rfl, -⟩ := (BlankId.check_iff s).1 h
    exact ⟨c :: rest, rfl⟩
  refine ⟨fun s b h => ?_, fun s b h => ?_, fun s b h => ?_, fun s s' b h h' => ?_,
    fun b t h h' => ?_⟩
  · unfold BlankId.new at h
    split at h
    · next hc =>
      cases h
      obtain ⟨t, rfl⟩ := key s hc
      exact ⟨t, BlankId.suffix_eq t, rfl⟩
    · cases h
  · unfold BlankIdBuf.new at h
    split at h
    · next hc =>
      cases h
      obtain ⟨t, rfl⟩ := key s hc
      exact ⟨t, BlankId.suffix_eq t, rfl⟩
    · cases h
  · unfold BlankIdBuf.fromSuffix BlankIdBuf.new at h
    split at h
    · cases h
      exact BlankId.suffix_eq s
    · cases h
  · unfold BlankIdBuf.fromSuffix BlankIdBuf.new at h h'
    split at h
    · split at h'
      · cases h
        simp at h'
        exact h'.symm
      · cases h'
    · cases h
  · unfold BlankIdBuf.new at h
    split at h
    · next hc =>
      obtain ⟨s, hs⟩ := key _ hc
      have : b.asBlankIdRef = ⟨'_' :: ':' :: s⟩ := by
        rw [BlankIdBuf.asBlankIdRef, hs]
      rw [this, BlankId.suffix_eq] at h'
      cases h'
      rw [BlankIdBuf.fromSuffix, BlankIdBuf.new, ← hs, hc]
      rfl
    · cases h

example : (⟨"_:né".toList⟩ : BlankId).suffix = .ok "né".toList ∧
    (⟨"_é".toList⟩ : BlankId).suffix = .error .badSlice ∧
    (⟨"_".toList⟩ : BlankId).suffix = .error .badSlice := by decide

/-- A generator gives pairwise distinct labels, `_:` then the prefix then consecutive
numbers, as long as the counter does not overflow; then it panics. -/
theorem C45_distinct (pre : Text) (offset n : Nat) :
    (offset + n ≤ Blank.usizeMax → ∃ ids g, (Blank.newFull pre offset).take n = .ok (ids, g) ∧
      ids.length = n ∧ ids.Nodup ∧ g = Blank.newFull pre (offset + n) ∧
      ∀ k, k < n → ∃ b, ids[k]? = some b ∧ b.str = ['_', ':'] ++ pre ++ decimal (offset + k)) ∧
    (offset ≤ Blank.usizeMax → Blank.usizeMax < offset + n →
      (Blank.newFull pre offset).take n = .error .overflow) := by
  refine ⟨fun h => ⟨_, _, Blank.take_eq n _ h, by simp, ?_, rfl, fun k hk => ?_⟩,
    fun h h' => Blank.take_overflow n _ h h'⟩
  · rw [List.nodup_iff_pairwise_ne, List.pairwise_map]
    have := List.nodup_range' (step := 1) (s := offset) (n := n) (by decide)
    rw [List.nodup_iff_pairwise_ne] at this
    exact this.imp fun hne e => hne (Blank.idOf_inj e)
  · refine ⟨Blank.idOf pre (offset + k), ?_, rfl⟩
    simp [Blank.newFull, List.getElem?_range' hk]

example : ∃ ids g, (Blank.newFull "a".toList 8).take 3 = .ok (ids, g) ∧ ids.length = 3 ∧
    ids.Nodup ∧ g = Blank.newFull "a".toList 11 ∧
    ∀ k, k < 3 → ∃ x, ids[k]? = some x ∧ x.str = ['_', ':'] ++ "a".toList ++ decimal (8 + k) :=
  (C45_distinct "a".toList 8 3).1 (by decide)

/-- What the other constructors give: no prefix and no offset unless told. -/
theorem C45_constructors (pre : Text) (offset n : Nat) (h : offset + n ≤ Blank.usizeMax) :
    (∃ g, Blank.new.take n =
      .ok ((List.range n).map (fun k => ⟨['_', ':'] ++ decimal k⟩), g)) ∧
    (∃ g, (Blank.newWithOffset offset).take n =
      .ok ((List.range n).map (fun k => ⟨['_', ':'] ++ decimal (offset + k)⟩), g)) ∧
    (∃ g, (Blank.newWithPrefix pre).take n =
      .ok ((List.range n).map (fun k => ⟨['_', ':'] ++ pre ++ decimal k⟩), g)) := by
  have key : ∀ (p : Text) (o : Nat), o + n ≤ Blank.usizeMax →
      ∃ g, (Blank.newFull p o).take n =
        .ok ((List.range n).map (fun k => ⟨['_', ':'] ++ p ++ decimal (o + k)⟩), g) := by
    intro p o ho
    refine ⟨Blank.newFull p (o + n), (Blank.take_eq n (Blank.newFull p o) ho).trans ?_⟩
    rw [List.range'_eq_map_range, List.map_map]
    rfl
  refine ⟨?_, ?_, ?_⟩
  · simpa [Blank.new] using key [] 0 (by omega)
  · simpa [Blank.newWithOffset] using key [] offset h
  · simpa [Blank.newWithPrefix] using key pre 0 (by omega)

example : ∃ g, (Blank.newWithPrefix "a".toList).take 2 =
    .ok ((List.range 2).map (fun k => ⟨['_', ':'] ++ "a".toList ++ decimal k⟩), g) :=
  (C45_constructors "a".toList 0 2 (by decide)).2.2

/-- With an empty prefix or one that is the suffix of a label, all labels are valid. -/
theorem C45_valid (pre : Text) (offset n : Nat) (ids : List BlankIdBuf) (g : Blank)
    (hp : pre = [] ∨ ∃ b, BlankIdBuf.fromSuffix pre = .ok b)
    (h : (Blank.newFull pre offset).take n = .ok (ids, g)) (ho : offset ≤ Blank.usizeMax) :
    ∀ b ∈ ids, BlankNodeLabel b.str ∧ BlankIdBuf.new b.str = .ok b := by
  have hn : offset + n ≤ Blank.usizeMax := by
    apply Decidable.byContradiction
    intro hn
    rw [Blank.take_overflow n _ ho (by simp only [Blank.newFull]; omega)] at h
    cases h
  rw [Blank.take_eq n _ hn] at h
  cases h
  intro b hb
  obtain ⟨k, -, rfl⟩ := List.mem_map.1 hb
  have : BlankId.check (Blank.idOf pre k).str = true := by
    rcases hp with rfl | ⟨b, hb⟩
    · exact check_decimal k
    · unfold BlankIdBuf.fromSuffix BlankIdBuf.new at hb
      split at hb
      · next hc => exact check_append hc (decimal_digits k)
      · cases hb
  refine ⟨((BlankId.check_iff_label _).1 this).1, ?_⟩
  simp only [Blank.newFull]
  rw [BlankIdBuf.new, this]
  rfl

example : ∃ ids g, (Blank.newFull "a".toList 8).take 3 = .ok (ids, g) ∧
    ∀ x ∈ ids, BlankNodeLabel x.str ∧ BlankIdBuf.new x.str = .ok x := by
  obtain ⟨ids, g, e, -⟩ := (C45_distinct "a".toList 8 3).1 (by decide)
  exact ⟨ids, g, e, C45_valid _ _ _ _ _ (.inr ⟨⟨"_:a".toList⟩, by decide⟩) e (by decide)⟩

/-- Two generators collide only if the prefix of one is that of the other followed by
digits. -/
theorem C45_apart {pre pre' : Text} {offset offset' n n' : Nat} {ids ids' : List BlankIdBuf}
    {g g' : Blank} (h : (Blank.newFull pre offset).take n = .ok (ids, g))
    (h' : (Blank.newFull pre' offset').take n' = .ok (ids', g'))
    (ho : offset ≤ Blank.usizeMax) (ho' : offset' ≤ Blank.usizeMax)
    (hp : ∀ d, AllDigits d → pre' ≠ pre ++ d) (hp' : ∀ d, AllDigits d → pre ≠ pre' ++ d) :
    ∀ b ∈ ids, b ∉ ids' := by
  have hn : offset + n ≤ Blank.usizeMax := by
    apply Decidable.byContradiction
    intro hn
    rw [Blank.take_overflow n _ ho (by simp only [Blank.newFull]; omega)] at h
    cases h
  have hn' : offset' + n' ≤ Blank.usizeMax := by
    apply Decidable.byContradiction
    intro hn
    rw [Blank.take_overflow n' _ ho' (by simp only [Blank.newFull]; omega)] at h'
    cases h'
  rw [Blank.take_eq n _ hn] at h
  rw [Blank.take_eq n' _ hn'] at h'
  cases h
  cases h'
  intro b hb hb'
  obtain ⟨k, -, rfl⟩ := List.mem_map.1 hb
  obtain ⟨k', -, e⟩ := List.mem_map.1 hb'
  simp only [Blank.idOf, Blank.newFull, BlankIdBuf.mk.injEq, List.append_assoc,
    List.append_cancel_left_eq] at e
  rcases Blank.append_digits (decimal_digits k) (decimal_digits k') e.symm with ⟨d, h1, h2⟩ | ⟨d, h1, h2⟩
  · exact hp d h1 h2
  · exact hp' d h1 h2

/-- In particular with different prefixes that do not end in a digit. -/
theorem C45_apart_no_digit {pre pre' : Text} (hne : pre ≠ pre')
    (hd : ∀ c, pre.getLast? = some c → ¬ InClass digits c)
    (hd' : ∀ c, pre'.getLast? = some c → ¬ InClass digits c) :
    (∀ d, AllDigits d → pre' ≠ pre ++ d) ∧ ∀ d, AllDigits d → pre ≠ pre' ++ d := by
  have key : ∀ p p' : Text, p ≠ p' → (∀ c, p'.getLast? = some c → ¬ InClass digits c) →
      ∀ d, AllDigits d → p' ≠ p ++ d := by
    intro p p' hne hd' d h e
    rcases List.eq_nil_or_concat d with rfl | ⟨d', c, rfl⟩
    · exact hne (by simpa using e.symm)
    · refine hd' c ?_ (h c (by simp))
      rw [e]
      simp
  exact ⟨key _ _ hne hd', key _ _ (Ne.symm hne) hd⟩

example : ∃ ids g ids' g', (Blank.newFull "a".toList 8).take 3 = .ok (ids, g) ∧
    (Blank.newFull "ab".toList 8).take 3 = .ok (ids', g') ∧ ∀ x ∈ ids, x ∉ ids' := by
  obtain ⟨ids, g, e, -⟩ := (C45_distinct "a".toList 8 3).1 (by decide)
  obtain ⟨ids', g', e', -⟩ := (C45_distinct "ab".toList 8 3).1 (by decide)
  have h := C45_apart_no_digit (pre := "a".toList) (pre' := "ab".toList) (by decide)
    (by simp [InClass, digits]) (by simp [InClass, digits])
  exact ⟨ids, g, ids', g', e, e', C45_apart e e' (by decide) (by decide) h.1 h.2⟩

/-- A prefix is not checked: some give labels that are not valid. -/
theorem C45_unchecked_prefix : ∃ pre b g, (Blank.newWithPrefix pre).nextBlankId = .ok (b, g) ∧
    ¬ BlankNodeLabel b.str := by
  refine ⟨" ".toList, ⟨"_: 0".toList⟩, ⟨" ".toList, 1⟩, by decide, ?_⟩
  intro h
  have := (BlankId.check_iff_label "_: 0".toList).2 ⟨h, by decide⟩
  exact absurd this (by decide)

example : (Blank.newFull "b".toList 9).take 2 =
    .ok ([⟨"_:b9".toList⟩, ⟨"_:b10".toList⟩], ⟨"b".toList, 11⟩) := by decide

/-- The prefixes `b` and `b1` collide. -/
example : (Blank.newFull "b".toList 10).take 1 = .ok ([⟨"_:b10".toList⟩], ⟨"b".toList, 11⟩) ∧
    (Blank.newFull "b1".toList 0).take 1 = .ok ([⟨"_:b10".toList⟩], ⟨"b1".toList, 1⟩) := by decide

end RdfTypes.Property
