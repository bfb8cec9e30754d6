import Verif.Spec.Uuid
import Verif.Model.Display

/-!
# Proofs about the generators of UUIDs
-/

namespace RdfTypes

namespace Uuid

variable {ρ L : Type}

theorem hexByte_hex (b : UInt8) : ∀ c ∈ hexByte b, Spec.LowerHex c := by
  have key : ∀ a < 16, Spec.LowerHex (Nat.digitChar a) := by
    unfold Spec.LowerHex
    decide
  have hb : b.toNat < 256 := UInt8.toNat_lt b
  intro c hc
  simp only [hexByte, List.mem_cons, List.not_mem_nil, or_false] at hc
  rcases hc with rfl | rfl
  · exact key _ (by omega)
  · exact key _ (by omega)

theorem hexByte_inj {a b : UInt8} (h : hexByte a = hexByte b) : a = b := by
  have key : ∀ a < 16, ∀ b < 16, Nat.digitChar a = Nat.digitChar b → a = b := by decide
  have ha : a.toNat < 256 := UInt8.toNat_lt a
  have hb : b.toNat < 256 := UInt8.toNat_lt b
  simp only [hexByte, List.cons.injEq, and_true] at h
  have h1 := key _ (by omega) _ (by omega) h.1
  have h2 := key _ (by omega) _ (by omega) h.2
  exact UInt8.toNat_inj.1 (by omega)

theorem flatMap_hex (l : List UInt8) : Spec.HexGroup (2 * l.length) (l.flatMap hexByte) := by
  induction l with
  | nil => exact ⟨rfl, fun _ h => by cases h⟩
  | cons b l ih =>
    refine ⟨by simp only [List.flatMap_cons, List.length_append, ih.1, List.length_cons]
               simp only [hexByte, List.length_cons, List.length_nil]; omega, fun c hc => ?_⟩
    rw [List.flatMap_cons, List.mem_append] at hc
    rcases hc with hc | hc
    · exact hexByte_hex b c hc
    · exact ih.2 c hc

theorem flatMap_inj {l m : List UInt8} (h : l.flatMap hexByte = m.flatMap hexByte) : l = m := by
  induction l generalizing m with
  | nil =>
    cases m with
    | nil => rfl
    | cons b m => simp [hexByte] at h
  | cons a l ih =>
    cases m with
    | nil => simp [hexByte] at h
    | cons b m =>
      rw [List.flatMap_cons, List.flatMap_cons] at h
      obtain ⟨h1, h2⟩ := List.append_inj h rfl
      rw [hexByte_inj h1, ih h2]

theorem encodeLower_urn (u : UuidValue) : Spec.UuidUrn (encodeLower u) := by
  obtain ⟨l, h⟩ := u
  have g : ∀ (m : List UInt8) n, 2 * m.length = n → Spec.HexGroup n (m.flatMap hexByte) :=
    fun m n h => h ▸ flatMap_hex m
  refine ⟨_, _, _, _, _, g (l.take 4) 8 ?_, g ((l.drop 4).take 2) 4 ?_, g ((l.drop 6).take 2) 4 ?_,
    g ((l.drop 8).take 2) 4 ?_, g (l.drop 10) 12 ?_, by simp [encodeLower]⟩ <;>
    simp only [List.length_take, List.length_drop, h] <;> omega

theorem encodeLower_length (u : UuidValue) : (encodeLower u).length = 45 := by
  obtain ⟨a, b, c, d, e, ha, hb, hc, hd, he, h⟩ := encodeLower_urn u
  rw [h]
  simp [ha.1, hb.1, hc.1, hd.1, he.1]

theorem encodeLower_inj {u v : UuidValue} (h : encodeLower u = encodeLower v) : u = v := by
  obtain ⟨l, hl⟩ := u
  obtain ⟨m, hm⟩ := v
  have len : ∀ x : List UInt8, (x.flatMap hexByte).length = 2 * x.length := fun x => (flatMap_hex x).1
  simp only [encodeLower, List.append_assoc, List.cons_append, List.cons.injEq, true_and,
    List.nil_append] at h
  obtain ⟨h1, h⟩ := List.append_inj h (by simp [len, hl, hm])
  simp only [List.cons.injEq, true_and] at h
  obtain ⟨h2, h⟩ := List.append_inj h (by simp [len, hl, hm])
  simp only [List.cons.injEq, true_and] at h
  obtain ⟨h3, h⟩ := List.append_inj h (by simp [len, hl, hm])
  simp only [List.cons.injEq, true_and] at h
  obtain ⟨h4, h⟩ := List.append_inj h (by simp [len, hl, hm])
  simp only [List.cons.injEq, true_and] at h
  have e1 := flatMap_inj h1
  have e2 := flatMap_inj h2
  have e3 := flatMap_inj h3
  have e4 := flatMap_inj h4
  have e5 := flatMap_inj h
  have split : ∀ x : List UInt8, x = x.take 4 ++ ((x.drop 4).take 2 ++ ((x.drop 6).take 2 ++
      ((x.drop 8).take 2 ++ x.drop 10))) := by
    intro x
    have s : ∀ (n k : Nat), (x.drop n).take k ++ x.drop (n + k) = x.drop n := by
      intro n k
      rw [← List.drop_drop, List.take_append_drop]
    rw [s 8 2, s 6 2, s 4 2, List.take_append_drop]
  have : l = m := by rw [split l, split m, e1, e2, e3, e4, e5]
  subst this
  rfl

theorem nextUuid_makes (c : UuidCrate ρ) (g : Uuid) (r : ρ) :
    Spec.Makes c g r (g.nextUuid c r).1 (g.nextUuid c r).2 := by
  cases g <;> constructor

theorem makes_eq {c : UuidCrate ρ} {g : Uuid} {r r' : ρ} {u : UuidValue}
    (h : Spec.Makes c g r u r') : u = (g.nextUuid c r).1 := by
  cases h <;> rfl

theorem hexByte_value (b : UInt8) (n : Nat) :
    (hexByte b).foldl (fun n c => 16 * n + Spec.hexValue c) n = 256 * n + b.toNat := by
  have key : ∀ a < 16, Spec.hexValue (Nat.digitChar a) = a := by decide
  have hb : b.toNat < 256 := UInt8.toNat_lt b
  simp only [hexByte, List.foldl_cons, List.foldl_nil]
  rw [key _ (by omega), key _ (by omega)]
  omega

theorem flatMap_value (l : List UInt8) (n : Nat) :
    (l.flatMap hexByte).foldl (fun n c => 16 * n + Spec.hexValue c) n =
      l.foldl (fun n b => 256 * n + b.toNat) n := by
  induction l generalizing n with
  | nil => rfl
  | cons b l ih => rw [List.flatMap_cons, List.foldl_append, hexByte_value, ih, List.foldl_cons]

theorem flatMap_no_hyphen (l : List UInt8) :
    (l.flatMap hexByte).filter (· ≠ '-') = l.flatMap hexByte := by
  rw [List.filter_eq_self]
  intro c hc
  have h := (flatMap_hex l).2 c hc
  rw [decide_eq_true_iff]
  rintro rfl
  revert h
  unfold Spec.LowerHex
  decide

/-- The digits are the number that the bytes are. -/
theorem encodeLower_number (u : UuidValue) :
    Spec.urnNumber (encodeLower u) = Spec.bigEndian u.bytes := by
  have e : ((encodeLower u).drop 9).filter (· ≠ '-') = u.bytes.flatMap hexByte := by
    have s : ∀ (n k : Nat), (u.bytes.drop n).take k ++ u.bytes.drop (n + k) = u.bytes.drop n := by
      intro n k
      rw [← List.drop_drop, List.take_append_drop]
    have h : (encodeLower u).drop 9 = (u.bytes.take 4).flatMap hexByte ++
        '-' :: (((u.bytes.drop 4).take 2).flatMap hexByte ++
        '-' :: (((u.bytes.drop 6).take 2).flatMap hexByte ++
        '-' :: (((u.bytes.drop 8).take 2).flatMap hexByte ++
        '-' :: (u.bytes.drop 10).flatMap hexByte))) := by
      simp [encodeLower]
    have hy : ∀ t : Text, ('-' :: t).filter (· ≠ '-') = t.filter (· ≠ '-') := fun t => by simp
    rw [h]
    simp only [List.filter_append, hy, flatMap_no_hyphen]
    simp only [← List.flatMap_append]
    rw [s 8 2, s 6 2, s 4 2, List.take_append_drop]
  rw [Spec.urnNumber, e, flatMap_value, Spec.bigEndian]

/-- The buffer is large enough and holds the URN in the end. -/
theorem next_eq (c : UuidCrate ρ) (g : Uuid) (r : ρ) : (next c (g, r) : Res (Term Text L × _)) =
    .ok (.iri (encodeLower (g.nextUuid c r).1), g, (g.nextUuid c r).2) := by
  unfold next
  simp only [encodeLower_length, List.length_replicate, Nat.lt_irrefl, if_false]
  congr 3
  rw [List.take_append_of_le_length (by rw [encodeLower_length]; exact Nat.le_refl _)]
  exact List.take_of_length_le (by rw [encodeLower_length]; exact Nat.le_refl _)

theorem take_fixed {c : UuidCrate ρ} {g : Uuid} {u : UuidValue} (h : ∀ r, g.nextUuid c r = (u, r))
    (n : Nat) (r : ρ) : (take c n (g, r) : Res (List (Term Text L) × _)) =
      .ok (List.replicate n (.iri (encodeLower u)), g, r) := by
  induction n with
  | zero => rfl
  | succ n ih =>
    simp only [take, next_eq, h, bind, Except.bind, ih]
    rfl

theorem take_v4 (c : UuidCrate ρ) (n : Nat) (r : ρ) : ∃ r',
    (take c n (.v4, r) : Res (List (Term Text L) × _)) =
      .ok ((Spec.draws c.newV4 n r).map fun u => .iri (encodeLower u), .v4, r') := by
  induction n generalizing r with
  | zero => exact ⟨r, rfl⟩
  | succ n ih =>
    obtain ⟨r', h⟩ := ih (c.newV4 r).2
    refine ⟨r', ?_⟩
    simp only [take, next_eq, nextUuid, bind, Except.bind, h]
    rfl

theorem iri_plain {t : Text} (h : ∀ c ∈ t, Display.isEscapedInIri c = false) :
    Display.iri t = '<' :: t ++ ['>'] := by
  unfold Display.iri
  have : ∀ l : Text, (∀ c ∈ l, Display.isEscapedInIri c = false) → l.flatMap Display.iriChar = l := by
    intro l hl
    induction l with
    | nil => rfl
    | cons c l ih =>
      rw [List.flatMap_cons, ih fun d hd => hl d (by simp [hd])]
      simp [Display.iriChar, hl c (by simp)]
  rw [this t h]

theorem hex_plain {c : Char} (h : Spec.LowerHex c) : Display.isEscapedInIri c = false := by
  have hn : (48 ≤ c.toNat ∧ c.toNat ≤ 57) ∨ (97 ≤ c.toNat ∧ c.toNat ≤ 102) := h
  have ne : ∀ d : Char, ¬ ((48 ≤ d.toNat ∧ d.toNat ≤ 57) ∨ (97 ≤ d.toNat ∧ d.toNat ≤ 102)) →
      (c == d) = false := by
    intro d hd
    have : c ≠ d := fun e => hd (e ▸ hn)
    simpa using this
  unfold Display.isEscapedInIri
  rw [ne '<' (by decide), ne '>' (by decide), ne '"' (by decide), ne '{' (by decide),
    ne '}' (by decide), ne '|' (by decide), ne '^' (by decide), ne '`' (by decide),
    ne '\\' (by decide)]
  simp
  omega

theorem urn_plain {t : Text} (h : Spec.UuidUrn t) :
    ∀ c ∈ t, Display.isEscapedInIri c = false := by
  obtain ⟨a, b, c, d, e, ha, hb, hc, hd, he, rfl⟩ := h
  intro x hx
  simp only [List.mem_append] at hx
  have begins : ∀ x ∈ ['u', 'r', 'n', ':', 'u', 'u', 'i', 'd', ':'],
      Display.isEscapedInIri x = false := by decide
  have hyphen : ∀ x ∈ ['-'], Display.isEscapedInIri x = false := by decide
  rcases hx with (((((((( h | h) | h) | h) | h) | h) | h) | h) | h) | h
  · exact begins x h
  · exact hex_plain (ha.2 x h)
  · exact hyphen x h
  · exact hex_plain (hb.2 x h)
  · exact hyphen x h
  · exact hex_plain (hc.2 x h)
  · exact hyphen x h
  · exact hex_plain (hd.2 x h)
  · exact hyphen x h
  · exact hex_plain (he.2 x h)

end Uuid

end RdfTypes
