import Verif.Spec.Walk
import Verif.Proof.Found

/-! # The way of a search -/

set_option linter.unusedSectionVars false
set_option linter.unusedSimpArgs false

namespace RdfTypes

open Spec

/-! ## Walks -/

namespace Spec

variable {S : Type} {ts : List (Test S)} {l : List (Option S)}

theorem FirstFailed.unique {x : S} {t t' : Test S} (h : FirstFailed ts x t)
    (h' : FirstFailed ts x t') : t = t' := by
  obtain ⟨b, a, e, hb, hn⟩ := h
  obtain ⟨b', a', e', hb', hn'⟩ := h'
  subst e
  induction b generalizing b' with
  | nil =>
    cases b' with
    | nil => simp at e'; exact e'.1
    | cons u b' =>
      simp at e'
      obtain ⟨rfl, -⟩ := e'
      exact absurd (hb' t (by simp)) hn
  | cons u b ih =>
    cases b' with
    | nil =>
      simp at e'
      obtain ⟨rfl, -⟩ := e'
      exact absurd (hb u (by simp)) hn'
    | cons u' b' =>
      simp at e'
      obtain ⟨rfl, e'⟩ := e'
      exact ih (fun v hv => hb v (by simp [hv])) b' (fun v hv => hb' v (by simp [hv])) e'

theorem FirstFailed.mem {x : S} {t : Test S} (h : FirstFailed ts x t) : t ∈ ts ∧ ¬ t.holds x := by
  obtain ⟨b, a, rfl, -, hn⟩ := h
  exact ⟨by simp, hn⟩

theorem firstFailed_exists {x : S} : ∀ {ts : List (Test S)}, (∀ t ∈ ts, t.holds x) ∨
    ∃ t, FirstFailed ts x t := by
  intro ts
  induction ts with
  | nil => exact .inl (by simp)
  | cons t ts ih =>
    by_cases ht : t.holds x
    · rcases ih with h | ⟨u, b, a, rfl, hb, hn⟩
      · left
        intro v hv
        rcases List.mem_cons.1 hv with rfl | hv
        · exact ht
        · exact h v hv
      · right
        refine ⟨u, t :: b, a, rfl, ?_, hn⟩
        intro v hv
        rcases List.mem_cons.1 hv with rfl | hv
        · exact ht
        · exact hb v hv
    · exact .inr ⟨t, [], ts, rfl, by simp, ht⟩

theorem Walk.unique {i n n' : Nat} {xs xs' : List S} (h : Walk ts l i xs n)
    (h' : Walk ts l i xs' n') : xs = xs' ∧ n = n' := by
  induction h generalizing xs' n' with
  | @past i hi =>
    have hno : ∀ x, l[i]? = some x → False := fun x hx =>
      absurd (List.getElem?_eq_some_iff.1 hx).1 (Nat.not_lt.2 hi)
    cases h' with
    | past => exact ⟨rfl, rfl⟩
    | hole h => exact (hno _ h).elim
    | found h => exact (hno _ h).elim
    | next h => exact (hno _ h).elim
    | jump h => exact (hno _ h).elim
    | gone h => exact (hno _ h).elim
  | hole hi =>
    cases h' with
    | past h => exact absurd (List.getElem?_eq_some_iff.1 hi).1 (Nat.not_lt.2 h)
    | hole h => exact ⟨rfl, rfl⟩
    | found h => rw [hi] at h; cases h
    | next h => rw [hi] at h; cases h
    | jump h => rw [hi] at h; cases h
    | gone h => rw [hi] at h; cases h
  | @found i n x xs hi hall _ ih =>
    have hno : ∀ {x' t}, l[i]? = some (some x') → FirstFailed ts x' t → False := by
      intro x' t hx hf
      rw [hi] at hx
      cases hx
      exact hf.mem.2 (hall t hf.mem.1)
    cases h' with
    | past h => exact absurd (List.getElem?_eq_some_iff.1 hi).1 (Nat.not_lt.2 h)
    | hole h => rw [hi] at h; cases h
    | found h _ h' =>
      rw [hi] at h
      cases h
      obtain ⟨rfl, rfl⟩ := ih h'
      exact ⟨rfl, rfl⟩
    | next h hf => exact (hno h hf).elim
    | jump h hf => exact (hno h hf).elim
    | gone h hf => exact (hno h hf).elim
  | next hi hff hg _ ih =>
    cases h' with
    | past h => exact absurd (List.getElem?_eq_some_iff.1 hi).1 (Nat.not_lt.2 h)
    | hole h => rw [hi] at h; cases h
    | found h hall _ => rw [hi] at h; cases h; exact (hff.mem.2 (hall _ hff.mem.1)).elim
    | next h hf _ h' => exact ih h'
    | jump h hf hg' => rw [hi] at h; cases h; cases hff.unique hf; rw [hg] at hg'; cases hg'
    | gone h hf hg' => rw [hi] at h; cases h; cases hff.unique hf; rw [hg] at hg'; cases hg'
  | @jump i j n x y xs t hi hff hg hij hj hy hno _ ih =>
    cases h' with
    | past h => exact absurd (List.getElem?_eq_some_iff.1 hi).1 (Nat.not_lt.2 h)
    | hole h => rw [hi] at h; cases h
    | found h hall _ => rw [hi] at h; cases h; exact (hff.mem.2 (hall _ hff.mem.1)).elim
    | next h hf hg' => rw [hi] at h; cases h; cases hff.unique hf; rw [hg] at hg'; cases hg'
    | @jump _ j' _ _ y' _ _ h hf _ hij' hj' hy' hno' h' =>
      rw [hi] at h
      cases h
      cases hff.unique hf
      have : j = j' := by
        rcases Nat.lt_trichotomy j j' with hlt | he | hgt
        · exact absurd hy (hno' j y hij hlt hj)
        · exact he
        · exact absurd hy' (hno j' y' hij' hgt hj')
      subst this
      exact ih h'
    | gone h hf _ hn => rw [hi] at h; cases h; cases hff.unique hf; exact absurd hy (hn j y hij hj)
  | @gone i x t hi hff hg hn =>
    cases h' with
    | past h => exact ⟨rfl, rfl⟩
    | hole h => rw [hi] at h; cases h
    | found h hall _ => rw [hi] at h; cases h; exact (hff.mem.2 (hall _ hff.mem.1)).elim
    | next h hf hg' => rw [hi] at h; cases h; cases hff.unique hf; rw [hg] at hg'; cases hg'
    | jump h hf _ hij hj hy =>
      rw [hi] at h; cases h; cases hff.unique hf; exact absurd hy (hn _ _ hij hj)
    | gone => exact ⟨rfl, rfl⟩

theorem Walk.le {i n : Nat} {xs : List S} (h : Walk ts l i xs n) : n ≤ l.length ∧
    (i ≤ l.length → i ≤ n) := by
  induction h with
  | past hi => exact ⟨Nat.le_refl _, fun h => h⟩
  | hole hi =>
    have := (List.getElem?_eq_some_iff.1 hi).1
    exact ⟨by omega, fun _ => Nat.le_refl _⟩
  | found hi _ _ ih =>
    have := (List.getElem?_eq_some_iff.1 hi).1
    exact ⟨ih.1, fun _ => by have := ih.2 this; omega⟩
  | next hi _ _ _ ih =>
    have := (List.getElem?_eq_some_iff.1 hi).1
    exact ⟨ih.1, fun _ => by have := ih.2 this; omega⟩
  | jump hi _ _ hij hj _ _ _ ih =>
    have := (List.getElem?_eq_some_iff.1 hj).1
    exact ⟨ih.1, fun _ => by have := ih.2 (by omega); omega⟩
  | gone hi =>
    have := (List.getElem?_eq_some_iff.1 hi).1
    exact ⟨Nat.le_refl _, fun _ => by omega⟩

/-- A walk yields, in order, the wanted statements between its ends. -/
theorem Walk.keys {i n : Nat} {xs : List S} (h : Walk ts l i xs n) :
    ∃ ks : List Nat, ks.Pairwise (· < ·) ∧ ks.map (fun k => l[k]?.join) = xs.map some ∧
      (∀ k, k ∈ ks ↔ i ≤ k ∧ k < n ∧ ∃ x, l[k]? = some (some x) ∧ ∀ t ∈ ts, t.holds x) := by
  have skip : ∀ {i j n : Nat} {x : S} {xs : List S} {t : Test S}, l[i]? = some (some x) →
      FirstFailed ts x t → i < j →
      (∀ (k : Nat) (z : S), i < k → k < j → l[k]? = some (some z) → ¬ t.holds z) →
      (∃ ks : List Nat, ks.Pairwise (· < ·) ∧ ks.map (fun k => l[k]?.join) = xs.map some ∧
      (∀ k, k ∈ ks ↔ j ≤ k ∧ k < n ∧ ∃ x, l[k]? = some (some x) ∧ ∀ t ∈ ts, t.holds x)) →
      ∃ ks : List Nat, ks.Pairwise (· < ·) ∧ ks.map (fun k => l[k]?.join) = xs.map some ∧
      (∀ k, k ∈ ks ↔ i ≤ k ∧ k < n ∧ ∃ x, l[k]? = some (some x) ∧ ∀ t ∈ ts, t.holds x) := by
    rintro i j n x xs t hi hff hij hno ⟨ks, h1, h2, h3⟩
    refine ⟨ks, h1, h2, fun k => (h3 k).trans ?_⟩
    constructor
    · rintro ⟨a, b, c⟩
      exact ⟨by omega, b, c⟩
    · rintro ⟨a, b, y, hy, hall⟩
      refine ⟨?_, b, y, hy, hall⟩
      refine Nat.le_of_not_lt fun hk => ?_
      rcases Nat.lt_or_ge i k with hik | hik
      · exact hno k y hik hk hy (hall t hff.mem.1)
      · have : k = i := by omega
        subst this
        rw [hi] at hy
        cases hy
        exact hff.mem.2 (hall t hff.mem.1)
  induction h with
  | past hi =>
    refine ⟨[], .nil, rfl, fun k => ?_⟩
    simp only [List.not_mem_nil, false_iff]
    rintro ⟨a, b, -⟩
    omega
  | hole hi =>
    refine ⟨[], .nil, rfl, fun k => ?_⟩
    simp only [List.not_mem_nil, false_iff]
    rintro ⟨a, b, -⟩
    omega
  | @found i n x xs hi hall h ih =>
    obtain ⟨ks, h1, h2, h3⟩ := ih
    have hlt := (List.getElem?_eq_some_iff.1 hi).1
    have hin := h.le.2 hlt
    refine ⟨i :: ks, List.pairwise_cons.2 ⟨?_, h1⟩, by simp [hi, h2], ?_⟩
    · intro k hk
      have := ((h3 k).1 hk).1
      omega
    · intro k
      rw [List.mem_cons, h3]
      constructor
      · rintro (rfl | ⟨a, b, c⟩)
        · exact ⟨Nat.le_refl _, by omega, x, hi, hall⟩
        · exact ⟨by omega, b, c⟩
      · rintro ⟨a, b, c⟩
        rcases Nat.lt_or_ge i k with hik | hik
        · exact .inr ⟨hik, b, c⟩
        · exact .inl (by omega)
  | next hi hff _ _ ih => exact skip hi hff (Nat.lt_succ_self _) (fun k _ _ _ => by omega) ih
  | jump hi hff _ hij _ _ hno _ ih => exact skip hi hff hij hno ih
  | @gone i x t hi hff _ hno =>
    have hlt := (List.getElem?_eq_some_iff.1 hi).1
    refine skip hi hff hlt (fun k z h1 _ h3 => hno k z h1 h3) ⟨[], .nil, rfl, fun k => ?_⟩
    simp only [List.not_mem_nil, false_iff]
    rintro ⟨a, b, -⟩
    omega

theorem Walk.picks {n : Nat} {xs : List S} (h : Walk ts l 0 xs n) :
    Picks (fun x => ∀ t ∈ ts, t.holds x) (l.take n) xs := by
  obtain ⟨ks, h1, h2, h3⟩ := h.keys
  refine picks_of_keys h1 ?_ ?_
  · intro k
    rw [h3]
    constructor
    · rintro ⟨-, hk, x, hx, hw⟩
      exact ⟨x, by rw [List.getElem?_take_of_lt hk, hx], hw⟩
    · rintro ⟨x, hx, hw⟩
      have hk : k < n := by
        have := (List.getElem?_eq_some_iff.1 hx).1
        rw [List.length_take] at this
        omega
      rw [List.getElem?_take_of_lt hk] at hx
      exact ⟨Nat.zero_le _, hk, x, hx, hw⟩
  · rw [← h2]
    refine List.map_congr_left ?_
    intro k hk
    rw [List.getElem?_take_of_lt ((h3 k).1 hk).2.1]

/-- From every place there is a walk. -/
theorem walk_exists (ts : List (Test S)) (l : List (Option S)) (i : Nat) :
    ∃ xs n, Walk ts l i xs n := by
  suffices ∀ m i, l.length ≤ i + m → ∃ xs n, Walk ts l i xs n from
    this l.length i (by omega)
  intro m
  induction m with
  | zero => intro i hi; exact ⟨_, _, .past hi⟩
  | succ m ih =>
    intro i hi
    cases hl : l[i]? with
    | none => exact ⟨_, _, .past (List.getElem?_eq_none_iff.1 hl)⟩
    | some o =>
      cases o with
      | none => exact ⟨_, _, .hole hl⟩
      | some x =>
        rcases firstFailed_exists (ts := ts) (x := x) with h | ⟨t, ht⟩
        · obtain ⟨xs, n, h'⟩ := ih (i + 1) (by omega)
          exact ⟨_, _, .found hl h h'⟩
        · cases hg : t.given with
          | false =>
            obtain ⟨xs, n, h'⟩ := ih (i + 1) (by omega)
            exact ⟨_, _, .next hl ht hg h'⟩
          | true =>
            by_cases hex : ∃ k z, i < k ∧ l[k]? = some (some z) ∧ t.holds z
            · -- the first one
              have : ∃ k z, (i < k ∧ l[k]? = some (some z) ∧ t.holds z) ∧
                  ∀ k' z', i < k' → k' < k → l[k']? = some (some z') → ¬ t.holds z' := by
                obtain ⟨k, hk⟩ := hex
                induction k using Nat.strongRecOn with
                | ind k ihk =>
                  by_cases hs : ∃ k', k' < k ∧ ∃ z', i < k' ∧ l[k']? = some (some z') ∧ t.holds z'
                  · obtain ⟨k', hlt, h'⟩ := hs
                    exact ihk k' hlt h'
                  · obtain ⟨z, hz⟩ := hk
                    exact ⟨k, z, hz, fun k' z' h1 h2 h3 h4 => hs ⟨k', h2, z', h1, h3, h4⟩⟩
              obtain ⟨k, z, ⟨h1, h2, h3⟩, h4⟩ := this
              obtain ⟨xs, n, h'⟩ := ih k (by omega)
              exact ⟨_, _, .jump hl ht hg h1 h2 h3 h4 h'⟩
            · exact ⟨_, _, .gone hl ht hg fun k z h1 h2 h3 => hex ⟨k, z, h1, h2, h3⟩⟩

/-- When no part is given after a repeated one, a walk stops at the first empty place that
comes first or just after a statement with the given parts. -/
theorem Walk.stop (hts : ts.Pairwise fun t u => u.given = true → t.given = true) {n : Nat}
    {xs : List S} (h : Walk ts l 0 xs n) :
    (n = l.length ∨ Barrier (fun x => ∀ t ∈ ts, t.given = true → t.holds x) l n) ∧
      ∀ k < n, ¬ Barrier (fun x => ∀ t ∈ ts, t.given = true → t.holds x) l k := by
  generalize hG : (fun x => ∀ t ∈ ts, t.given = true → t.holds x) = G
  have hno : ∀ {i : Nat} {x : S} {t : Test S} {k : Nat}, l[i]? = some (some x) →
      FirstFailed ts x t → t.given = true →
      (∀ (k' : Nat) (z : S), i < k' → k' < k → l[k']? = some (some z) → ¬ t.holds z) → i < k →
      ¬ Barrier G l k := by
    intro i x t k hi hff hg hnone hik hb
    obtain ⟨y, hy, hw⟩ := hb.2 (k - 1) (by omega)
    rw [← hG] at hw
    have ht := hw t hff.mem.1 hg
    rcases Nat.lt_or_ge i (k - 1) with h' | h'
    · exact hnone (k - 1) y h' (by omega) hy ht
    · have : k - 1 = i := by omega
      rw [this, hi] at hy
      cases hy
      exact hff.mem.2 ht
  have key : ∀ {i n : Nat} {xs : List S}, Walk ts l i xs n → (l[i]? = some none → Barrier G l i) →
      (n = l.length ∨ Barrier G l n) ∧ ∀ k, i ≤ k → k < n → ¬ Barrier G l k := by
    intro i n xs h
    induction h with
    | past hi => exact fun _ => ⟨.inl rfl, fun k h1 h2 => by omega⟩
    | hole hi => exact fun ha => ⟨.inr (ha hi), fun k h1 h2 => by omega⟩
    | @found i n x xs hi hall _ ih =>
      intro _
      obtain ⟨h1, h2⟩ := ih fun he => ⟨he, fun k hk => by
        have : i = k := by omega
        subst this
        exact ⟨x, hi, by rw [← hG]; exact fun t ht _ => hall t ht⟩⟩
      refine ⟨h1, fun k hk hkn hb => ?_⟩
      by_cases hki : k = i
      · subst hki
        have := hb.1
        rw [hi] at this
        cases this
      · exact h2 k (by omega) hkn hb
    | @next i n x xs t hi hff hg _ ih =>
      intro _
      obtain ⟨h1, h2⟩ := ih fun he => ⟨he, fun k hk => by
        have : i = k := by omega
        subst this
        refine ⟨x, hi, ?_⟩
        rw [← hG]
        intro u hu hug
        obtain ⟨b, a, e, hb, -⟩ := hff
        rw [e] at hts hu
        rcases List.mem_append.1 hu with hu | hu
        · exact hb u hu
        · rcases List.mem_cons.1 hu with rfl | hu
          · rw [hg] at hug; cases hug
          · have := (List.pairwise_cons.1 (List.pairwise_append.1 hts).2.1).1 u hu hug
            rw [hg] at this
            cases this⟩
      refine ⟨h1, fun k hk hkn hb => ?_⟩
      by_cases hki : k = i
      · subst hki
        have := hb.1
        rw [hi] at this
        cases this
      · exact h2 k (by omega) hkn hb
    | @jump i j n x y xs t hi hff hg hij hj hy hnone _ ih =>
      intro _
      obtain ⟨h1, h2⟩ := ih fun he => by rw [hj] at he; cases he
      refine ⟨h1, fun k hk hkn hb => ?_⟩
      by_cases hki : k = i
      · subst hki
        have := hb.1
        rw [hi] at this
        cases this
      · rcases Nat.lt_or_ge k j with hkj | hkj
        · exact hno hi hff hg (fun k' z h1 h2 h3 => hnone k' z h1 (by omega) h3) (by omega) hb
        · exact h2 k hkj hkn hb
    | @gone i x t hi hff hg hnone =>
      intro _
      refine ⟨.inl rfl, fun k hk hkn hb => ?_⟩
      by_cases hki : k = i
      · subst hki
        have := hb.1
        rw [hi] at this
        cases this
      · exact hno hi hff hg (fun k' z h1 h2 h3 => hnone k' z h1 h3) (by omega) hb
  obtain ⟨h1, h2⟩ := key h fun he => ⟨he, fun k hk => by omega⟩
  exact ⟨h1, fun k hk => h2 k (Nat.zero_le _) hk⟩

end Spec

/-! ## Constraints as tests -/

section checks

variable {σ S : Type}

/-- A test on keys and stored statements. -/
structure Check (σ : Type) where
  given : Bool
  allows : Nat → σ → Prop

/-- The first key after `i` that the check allows. -/
def Jumps (get : Nat → Option σ) (c : Check σ) (i : Nat) : Option Nat → Prop
  | some j => i < j ∧ (∃ q', get j = some q' ∧ c.allows j q') ∧
    ∀ n q', i < n → n < j → get n = some q' → ¬ c.allows n q'
  | none => ∀ n q', i < n → get n = some q' → ¬ c.allows n q'

/-- The answer about key `i`, holding `q`, is the one that the checks tell. -/
def CheckAnswer (get : Nat → Option σ) (cs : List (Check σ)) (i : Nat) (q : σ) :
    Except (Option Nat) Unit → Prop
  | .ok () => ∀ c ∈ cs, c.allows i q
  | .error e => ∃ before c after, cs = before ++ c :: after ∧ (∀ u ∈ before, u.allows i q) ∧
      ¬ c.allows i q ∧ (c.given = false → e = some (i + 1)) ∧
      (c.given = true → Jumps get c i e)

theorem CheckAnswer.left {get : Nat → Option σ} {cs cs' : List (Check σ)} {i : Nat} {q : σ}
    {e : Option Nat} (h : CheckAnswer get cs i q (.error e)) :
    CheckAnswer get (cs ++ cs') i q (.error e) := by
  obtain ⟨b, c, a, rfl, h⟩ := h
  exact ⟨b, c, a ++ cs', by simp, h⟩

theorem CheckAnswer.right {get : Nat → Option σ} {cs cs' : List (Check σ)} {i : Nat} {q : σ}
    {r : Except (Option Nat) Unit} (h : CheckAnswer get cs i q (.ok ()))
    (h' : CheckAnswer get cs' i q r) : CheckAnswer get (cs ++ cs') i q r := by
  rcases r with e | u
  · obtain ⟨b, c, a, rfl, hb, h'⟩ := h'
    refine ⟨cs ++ b, c, a, by simp, ?_, h'⟩
    intro u hu
    rcases List.mem_append.1 hu with hu | hu
    · exact h u hu
    · exact hb u hu
  · intro c hc
    rcases List.mem_append.1 hc with hc | hc
    · exact h c hc
    · exact h' c hc

/-- The keys listed are in use. -/
def ListsUsed (get : Nat → Option σ) (l : List Nat) : Prop := ∀ k ∈ l, get k ≠ none

theorem fixedNext_answer {get : Nat → Option σ} {i : Nat} {l : List Nat} {q : σ}
    (h : NonDecreasing l) (hu : ListsUsed get l) :
    CheckAnswer get [⟨true, fun n _ => n ∈ l⟩] i q (fixedNext i l).2 := by
  obtain ⟨h1, h2⟩ := skipTo_spec (i := i) h
  unfold fixedNext
  cases hs : skipTo i l with
  | nil =>
    rw [hs] at h2
    refine ⟨[], _, [], rfl, by simp, ?_, by simp, fun _ => ?_⟩
    · intro hm
      have := (h2 i).2 ⟨hm, Nat.le_refl _⟩
      simp at this
    · intro n q' hn _ hm
      have := (h2 n).2 ⟨hm, by omega⟩
      simp at this
  | cons j l' =>
    rw [hs] at h1 h2
    have hj := (h2 j).1 (by simp)
    show CheckAnswer get _ i q (if j = i then .ok () else .error (some j))
    have hmin : ∀ n, i ≤ n → n < j → ¬ n ∈ l := by
      intro n hn hnj hm
      rcases List.mem_cons.1 ((h2 n).2 ⟨hm, hn⟩) with rfl | hl
      · omega
      · have := (List.pairwise_cons.1 h1).1 n hl
        omega
    split
    · rename_i e
      subst e
      intro c hc
      simp at hc
      subst hc
      exact hj.1
    · rename_i hne
      refine ⟨[], _, [], rfl, by simp, hmin i (Nat.le_refl _) (by omega), by simp, fun _ => ?_⟩
      obtain ⟨q', hq'⟩ := Option.ne_none_iff_exists'.1 (hu j hj.1)
      exact ⟨by omega, ⟨q', hq', hj.1⟩, fun n _ hn hnj _ => hmin n (by omega) hnj⟩

theorem sameNext_answer {get : Nat → Option σ} {i : Nat} {b : Bool} {q : σ} {A : Nat → σ → Prop}
    (h : b = true ↔ A i q) : CheckAnswer get [⟨false, A⟩] i q (sameNext i b) := by
  unfold sameNext
  split
  · rename_i hb
    intro c hc
    simp at hc
    subst hc
    exact h.1 hb
  · rename_i hb
    exact ⟨[], _, [], rfl, by simp, fun ha => hb (h.2 ha), fun _ => rfl, by simp⟩

theorem none_answer {get : Nat → Option σ} {i : Nat} {q : σ} :
    CheckAnswer get [⟨true, fun _ _ => False⟩] i q (.error none) :=
  ⟨[], _, [], rfl, by simp, id, by simp, fun _ _ _ _ _ => id⟩

/-- From key `i` on, the checks on the stored statements are the tests on the statements in
the places. -/
def Models (get : Nat → Option σ) (l : List (Option S)) (i : Nat) :
    List (Check σ) → List (Test S) → Prop
  | [], [] => True
  | c :: cs, t :: ts => c.given = t.given ∧
    (∀ (n : Nat) q x, i ≤ n → get n = some q → l[n]? = some (some x) →
      (c.allows n q ↔ t.holds x)) ∧
    Models get l i cs ts
  | _, _ => False

namespace Models

variable {get : Nat → Option σ} {l : List (Option S)} {i : Nat}

theorem later {j : Nat} (hij : i ≤ j) : ∀ {cs : List (Check σ)} {ts : List (Test S)},
    Models get l i cs ts → Models get l j cs ts
  | [], [], _ => trivial
  | _ :: _, _ :: _, h =>
    ⟨h.1, fun n q x hn => h.2.1 n q x (Nat.le_trans hij hn), later hij h.2.2⟩
  | [], _ :: _, h => h.elim
  | _ :: _, [], h => h.elim

theorem append : ∀ {cs cs' : List (Check σ)} {ts ts' : List (Test S)},
    Models get l i cs ts → Models get l i cs' ts' → Models get l i (cs ++ cs') (ts ++ ts')
  | [], _, [], _, _, h' => h'
  | _ :: _, _, _ :: _, _, h, h' => ⟨h.1, h.2.1, append h.2.2 h'⟩
  | [], _, _ :: _, _, h, _ => h.elim
  | _ :: _, _, [], _, h, _ => h.elim

theorem split : ∀ {b : List (Check σ)} {c : Check σ} {a : List (Check σ)} {ts : List (Test S)},
    Models get l i (b ++ c :: a) ts → ∃ b' t a', ts = b' ++ t :: a' ∧ Models get l i b b' ∧
      c.given = t.given ∧ ∀ (n : Nat) q x, i ≤ n → get n = some q → l[n]? = some (some x) →
        (c.allows n q ↔ t.holds x)
  | [], _, _, [], h => h.elim
  | [], _, _, t :: ts, h => ⟨[], t, ts, rfl, trivial, h.1, h.2.1⟩
  | _ :: _, _, _, [], h => h.elim
  | _ :: _, _, _, t :: _, h => by
    obtain ⟨b', u, a', rfl, h1, h2⟩ := split h.2.2
    exact ⟨t :: b', u, a', rfl, ⟨h.1, h.2.1, h1⟩, h2⟩

theorem all {q : σ} {x : S} (hq : get i = some q) (hx : l[i]? = some (some x)) :
    ∀ {cs : List (Check σ)} {ts : List (Test S)}, Models get l i cs ts →
    (∀ c ∈ cs, c.allows i q) → ∀ t ∈ ts, t.holds x
  | [], [], _, _ => by simp
  | c :: cs, t :: ts, h, h' => by
    intro u hu
    rcases List.mem_cons.1 hu with rfl | hu
    · exact (h.2.1 i q x (Nat.le_refl _) hq hx).1 (h' c (by simp))
    · exact all hq hx h.2.2 (fun c hc => h' c (by simp [hc])) u hu
  | [], _ :: _, h, _ => h.elim
  | _ :: _, [], h, _ => h.elim

end Models

/-- What a search does at place `i`, holding `x`, given the answer of the filter. -/
def TestAnswer (ts : List (Test S)) (l : List (Option S)) (i : Nat) (x : S) :
    Except (Option Nat) Unit → Prop
  | .ok () => ∀ t ∈ ts, t.holds x
  | .error (some j) => i < j ∧ ∀ xs n, Walk ts l j xs n → Walk ts l i xs n
  | .error none => Walk ts l i [] l.length

theorem CheckAnswer.test {get : Nat → Option σ} {l : List (Option S)} {cs : List (Check σ)}
    {ts : List (Test S)} {i : Nat} {q : σ} {x : S} {r : Except (Option Nat) Unit}
    (hget : ∀ n : Nat, get n ≠ none ↔ ∃ x, l[n]? = some (some x)) (hm : Models get l i cs ts)
    (hq : get i = some q) (hx : l[i]? = some (some x)) (h : CheckAnswer get cs i q r) :
    TestAnswer ts l i x r := by
  rcases r with e | u
  · obtain ⟨b, c, a, rfl, hb, hn, h1, h2⟩ := h
    obtain ⟨b', t, a', rfl, hmb, hg, hc⟩ := hm.split
    have hff : FirstFailed (b' ++ t :: a') x t :=
      ⟨b', a', rfl, hmb.all hq hx hb, fun ht => hn ((hc i q x (Nat.le_refl _) hq hx).2 ht)⟩
    have hno : ∀ (k : Nat) z, i < k → l[k]? = some (some z) → (∀ q', get k = some q' →
        ¬ c.allows k q') → ¬ t.holds z := by
      intro k z hk hz hno ht
      obtain ⟨q', hq'⟩ := Option.ne_none_iff_exists'.1 ((hget k).2 ⟨z, hz⟩)
      exact hno q' hq' ((hc k q' z (by omega) hq' hz).2 ht)
    cases hgc : c.given with
    | false =>
      cases h1 hgc
      exact ⟨Nat.lt_succ_self _, fun xs n w => .next hx hff (by rw [← hg, hgc]) w⟩
    | true =>
      have h2 := h2 hgc
      rw [hgc] at hg
      cases e with
      | none => exact .gone hx hff hg.symm fun k z hk hz => hno k z hk hz fun q' hq' => h2 k q' hk hq'
      | some j =>
        obtain ⟨hij, ⟨q', hq', ha⟩, hbetween⟩ := h2
        obtain ⟨y, hy⟩ := (hget j).1 (by simp [hq'])
        refine ⟨hij, fun xs n w => .jump hx hff hg.symm hij hy
          ((hc j q' y (by omega) hq' hy).1 ha) ?_ w⟩
        exact fun k z hk hkj hz => hno k z hk hz fun q' hq' => hbetween k q' hk hkj hq'
  · exact hm.all hq hx h

end checks

/-! ## The loop -/

/-- What the loop needs to know to follow a walk. -/
structure WalkLaws {F σ S : Type} (filter : Nat → σ → F → F × Except (Option Nat) Unit)
    (get : Nat → Option σ) (ts : List (Test S)) (l : List (Option S)) (Inv : F → Nat → Prop) :
    Prop where
  later : ∀ {f i j}, Inv f i → i ≤ j → Inv f j
  step : ∀ {f i q x}, Inv f i → get i = some q → l[i]? = some (some x) →
    Inv (filter i q f).1 i ∧ TestAnswer ts l i x (filter i q f).2

namespace Matcher

variable {F σ S : Type} {filter : Nat → σ → F → F × Except (Option Nat) Unit}
  {Good : F → Prop} {Allows : F → Nat → σ → Prop} {get : Nat → Option σ}
  {Inv : F → Nat → Prop} {cap : Nat} {ts : List (Test S)} {l : List (Option S)}

theorem walk_vacant (hget : ∀ n : Nat, get n ≠ none ↔ ∃ x, l[n]? = some (some x)) {i : Nat}
    (h : get i = none) : ∃ n, Walk ts l i [] n := by
  cases hl : l[i]? with
  | none => exact ⟨_, .past (List.getElem?_eq_none_iff.1 hl)⟩
  | some o =>
    cases o with
    | none => exact ⟨_, .hole hl⟩
    | some x => exact absurd h ((hget i).2 ⟨x, hl⟩)

theorem loop_walk (W : WalkLaws filter get ts l Inv)
    (hget : ∀ n : Nat, get n ≠ none ↔ ∃ x, l[n]? = some (some x))
    (hcap : ∀ n q, get n = some q → n < cap) :
    ∀ (fuel : Nat) (m : Matcher F), m.subject = .any → Inv m.filter m.i →
    ∀ o m', m.loop get filter cap fuel = .ok (o, m') →
    match o with
    | some (k, _) => m'.subject = .any ∧ Inv m'.filter m'.i ∧ m'.i = k + 1 ∧
        ∃ x, l[k]? = some (some x) ∧
          ∀ xs n, Walk ts l (k + 1) xs n → Walk ts l m.i (x :: xs) n
    | none => ∃ n, Walk ts l m.i [] n := by
  intro fuel
  have hout : ∀ m : Matcher F, ¬ m.i < cap → ∃ n, Walk ts l m.i [] n := by
    intro m h
    refine walk_vacant hget ?_
    cases hg : get m.i with
    | none => rfl
    | some q => exact absurd (hcap _ _ hg) h
  induction fuel with
  | zero =>
    intro m _ _ o m' e
    unfold loop at e
    split at e
    · cases e
    · cases e
      exact hout m ‹_›
  | succ fuel ih =>
    intro m hs hI o m' e
    unfold loop at e
    by_cases hi : m.i < cap
    · simp only [hi, if_true, hs, SubjectConstraints.next] at e
      cases hg : get m.i with
      | none =>
        simp only [hg] at e
        cases e
        exact walk_vacant hget hg
      | some q =>
        obtain ⟨x, hx⟩ := (hget m.i).1 (by simp [hg])
        obtain ⟨v1, v2⟩ := W.step hI hg hx
        cases hF : filter m.i q m.filter with
        | mk f r =>
        simp only [hF] at v1 v2
        simp only [hF, hg] at e
        rcases r with j | u
        · cases j with
          | none =>
            cases e
            exact ⟨_, v2⟩
          | some j =>
            obtain ⟨hij, hw⟩ := v2
            have := ih ⟨.any, f, j⟩ rfl (W.later v1 (Nat.le_of_lt hij)) o m' e
            cases o with
            | none =>
              obtain ⟨n, w⟩ := this
              exact ⟨n, hw _ _ w⟩
            | some p =>
              obtain ⟨k, q'⟩ := p
              obtain ⟨h1, h2, h3, y, hy, h4⟩ := this
              exact ⟨h1, h2, h3, y, hy, fun xs n w => hw _ _ (h4 xs n w)⟩
        · cases e
          exact ⟨rfl, W.later v1 (Nat.le_succ _), rfl, x, hx, fun xs n w => .found hx v2 w⟩
    · simp only [hi, if_false] at e
      cases e
      exact hout m hi

/-- Running the iterator to the end, when the subject is not given, is a walk. -/
theorem collectAll_walk (L : FilterLaws filter Good Allows) (W : WalkLaws filter get ts l Inv)
    (hget : ∀ n : Nat, get n ≠ none ↔ ∃ x, l[n]? = some (some x))
    (hcap : ∀ n q, get n = some q → n < cap) {read : σ → Res S}
    (hread : ∀ n q, get n = some q → ∃ x, read q = .ok x ∧ l[n]? = some (some x)) :
    ∀ (fuel : Nat) (m : Matcher F), m.Ok Good → m.subject = .any → Inv m.filter m.i →
    m.i ≤ cap → cap < m.i + fuel →
    ∃ xs n, collectAll (nextWith get filter cap read) fuel m = .ok xs ∧ Walk ts l m.i xs n := by
  intro fuel
  induction fuel with
  | zero =>
    intro m hm hs hI hi hf
    omega
  | succ fuel ih =>
    intro m hm hs hI hi hf
    obtain ⟨⟨o, m'⟩, e, hr⟩ := loop_spec L hcap cap m hm (by omega)
    have hp := loop_walk W hget hcap cap m hs hI o m' e
    cases o with
    | none =>
      obtain ⟨n, w⟩ := hp
      exact ⟨[], n, by simp [collectAll, nextWith, e, bind, Except.bind, pure, Except.pure], w⟩
    | some p =>
      obtain ⟨k, q⟩ := p
      obtain ⟨h1, h2, h3, h4, h5, h6⟩ := hr
      obtain ⟨s, I, -, y, hy, hw⟩ := hp
      obtain ⟨x, hx, hv⟩ := hread k q h2
      rw [hy] at hv
      cases hv
      have hle := hcap k q h2
      obtain ⟨xs, n, e', w⟩ := ih m' h5.ok s I (by omega) (by omega)
      rw [h4] at w
      exact ⟨y :: xs, n,
        by simp [collectAll, nextWith, e, e', hx, bind, Except.bind, pure, Except.pure], hw _ _ w⟩

end Matcher

/-! ## The filters -/

section filters

variable {σ S : Type}

theorem fixedNext_used {get : Nat → Option σ} {i : Nat} {k : List Nat} (h : ListsUsed get k) :
    ListsUsed get (fixedNext i k).1 := by
  intro n hn
  have : n ∈ skipTo i k := by
    unfold fixedNext at hn
    split at hn
    · cases hn
    · rename_i e; rw [e]; exact hn
  exact h n (mem_skipTo this)

namespace PredicateConstraints

def checks (s₀ p₀ : σ → Nat) : PredicateConstraints → List (Check σ)
  | .none => [⟨true, fun _ _ => False⟩]
  | .any => []
  | .sameAsSubject => [⟨false, fun _ q => s₀ q = p₀ q⟩]
  | .fixed l => [⟨true, fun n _ => n ∈ l⟩]

def Used (get : Nat → Option σ) : PredicateConstraints → Prop
  | .fixed l => NonDecreasing l ∧ ListsUsed get l
  | _ => True

theorem next_walk {get : Nat → Option σ} {l : List (Option S)} {s₀ p₀ : σ → Nat}
    {c : PredicateConstraints} (h : c.Used get) {i : Nat} {q : σ} {ts : List (Test S)}
    (hm : Models get l i (c.checks s₀ p₀) ts) :
    (c.next i (s₀ q) (p₀ q)).1.Used get ∧ Models get l i ((c.next i (s₀ q) (p₀ q)).1.checks s₀ p₀) ts ∧
      CheckAnswer get (c.checks s₀ p₀) i q (c.next i (s₀ q) (p₀ q)).2 := by
  cases c with
  | none => exact ⟨trivial, hm, none_answer⟩
  | any => exact ⟨trivial, hm, fun c hc => nomatch hc⟩
  | sameAsSubject => exact ⟨trivial, hm, sameNext_answer (by simp)⟩
  | fixed k =>
    obtain ⟨h1, h2, -⟩ := fixedNext_spec (i := i) h.1 (fun _ => True)
    refine ⟨⟨h1, fixedNext_used h.2⟩, ?_, fixedNext_answer h.1 h.2⟩
    cases ts with
    | nil => exact hm.elim
    | cons t ts =>
      exact ⟨hm.1, fun n q x hn hq hx => (h2 n hn).trans (hm.2.1 n q x hn hq hx), hm.2.2⟩

end PredicateConstraints

namespace ObjectConstraints

def checks (s₀ p₀ o₀ : σ → Nat) : ObjectConstraints → List (Check σ)
  | .none => [⟨true, fun _ _ => False⟩]
  | .any => []
  | .sameAsSubject => [⟨false, fun _ q => s₀ q = o₀ q⟩]
  | .sameAsPredicate => [⟨false, fun _ q => p₀ q = o₀ q⟩]
  | .fixed l => [⟨true, fun n _ => n ∈ l⟩]

def Used (get : Nat → Option σ) : ObjectConstraints → Prop
  | .fixed l => NonDecreasing l ∧ ListsUsed get l
  | _ => True

theorem next_walk {get : Nat → Option σ} {l : List (Option S)} {s₀ p₀ o₀ : σ → Nat}
    {c : ObjectConstraints} (h : c.Used get) {i : Nat} {q : σ} {ts : List (Test S)}
    (hm : Models get l i (c.checks s₀ p₀ o₀) ts) :
    (c.next i (s₀ q) (p₀ q) (o₀ q)).1.Used get ∧
      Models get l i ((c.next i (s₀ q) (p₀ q) (o₀ q)).1.checks s₀ p₀ o₀) ts ∧
      CheckAnswer get (c.checks s₀ p₀ o₀) i q (c.next i (s₀ q) (p₀ q) (o₀ q)).2 := by
  cases c with
  | none => exact ⟨trivial, hm, none_answer⟩
  | any => exact ⟨trivial, hm, fun c hc => nomatch hc⟩
  | sameAsSubject => exact ⟨trivial, hm, sameNext_answer (by simp)⟩
  | sameAsPredicate => exact ⟨trivial, hm, sameNext_answer (by simp)⟩
  | fixed k =>
    obtain ⟨h1, h2, -⟩ := fixedNext_spec (i := i) h.1 (fun _ => True)
    refine ⟨⟨h1, fixedNext_used h.2⟩, ?_, fixedNext_answer h.1 h.2⟩
    cases ts with
    | nil => exact hm.elim
    | cons t ts =>
      exact ⟨hm.1, fun n q x hn hq hx => (h2 n hn).trans (hm.2.1 n q x hn hq hx), hm.2.2⟩

end ObjectConstraints

namespace GraphConstraints

def checks : GraphConstraints → List (Check (Quad Nat))
  | .none => [⟨true, fun _ _ => False⟩]
  | .any => []
  | .sameAsSubject => [⟨false, fun _ q => some q.s = q.g⟩]
  | .sameAsPredicate => [⟨false, fun _ q => some q.p = q.g⟩]
  | .sameAsObject => [⟨false, fun _ q => some q.o = q.g⟩]
  | .fixed l => [⟨true, fun n _ => n ∈ l⟩]

def Used (get : Nat → Option σ) : GraphConstraints → Prop
  | .fixed l => NonDecreasing l ∧ ListsUsed get l
  | _ => True

theorem next_walk {get : Nat → Option (Quad Nat)} {l : List (Option S)}
    {c : GraphConstraints} (h : c.Used get) {i : Nat} {q : Quad Nat} {ts : List (Test S)}
    (hm : Models get l i c.checks ts) :
    (c.next i q).1.Used get ∧ Models get l i (c.next i q).1.checks ts ∧
      CheckAnswer get c.checks i q (c.next i q).2 := by
  cases c with
  | none => exact ⟨trivial, hm, none_answer⟩
  | any => exact ⟨trivial, hm, fun c hc => nomatch hc⟩
  | sameAsSubject => exact ⟨trivial, hm, sameNext_answer (by simp)⟩
  | sameAsPredicate => exact ⟨trivial, hm, sameNext_answer (by simp)⟩
  | sameAsObject => exact ⟨trivial, hm, sameNext_answer (by simp)⟩
  | fixed k =>
    obtain ⟨h1, h2, -⟩ := fixedNext_spec (i := i) h.1 (fun _ => True)
    refine ⟨⟨h1, fixedNext_used h.2⟩, ?_, fixedNext_answer h.1 h.2⟩
    cases ts with
    | nil => exact hm.elim
    | cons t ts =>
      exact ⟨hm.1, fun n q x hn hq hx => (h2 n hn).trans (hm.2.1 n q x hn hq hx), hm.2.2⟩

end GraphConstraints

/-- The constraints are the tests, from key `i` on. -/
def QuadFilter.Tests (get : Nat → Option (Quad Nat)) (l : List (Option S))
    (tp to tg : List (Test S)) (f : QuadFilter) (i : Nat) : Prop :=
  (f.predicate.Used get ∧ Models get l i (f.predicate.checks (·.s) (·.p)) tp) ∧
  (f.object.Used get ∧ Models get l i (f.object.checks (·.s) (·.p) (·.o)) to) ∧
  f.graph.Used get ∧ Models get l i f.graph.checks tg

theorem QuadFilter.follows {get : Nat → Option (Quad Nat)} {l : List (Option S)}
    (hget : ∀ n : Nat, get n ≠ none ↔ ∃ x, l[n]? = some (some x)) (tp to tg : List (Test S)) :
    WalkLaws QuadFilter.next get (tp ++ (to ++ tg)) l (QuadFilter.Tests get l tp to tg) where
  later h hij := ⟨⟨h.1.1, h.1.2.later hij⟩, ⟨h.2.1.1, h.2.1.2.later hij⟩, h.2.2.1, h.2.2.2.later hij⟩
  step := by
    intro f i q x ⟨⟨u1, m1⟩, ⟨u2, m2⟩, u3, m3⟩ hq hx
    obtain ⟨a1, b1, c1⟩ := PredicateConstraints.next_walk u1 (q := q) m1
    obtain ⟨a2, b2, c2⟩ := ObjectConstraints.next_walk u2 (q := q) m2
    obtain ⟨a3, b3, c3⟩ := GraphConstraints.next_walk u3 (q := q) m3
    have hm := m1.append (m2.append m3)
    unfold QuadFilter.next
    generalize f.predicate.next i q.s q.p = P at *
    generalize f.object.next i q.s q.p q.o = O at *
    generalize f.graph.next i q = G at *
    obtain ⟨pc, pr⟩ := P
    obtain ⟨oc, or⟩ := O
    obtain ⟨gc, gr⟩ := G
    rcases pr with _ | _
    · exact ⟨⟨⟨a1, b1⟩, ⟨u2, m2⟩, u3, m3⟩, CheckAnswer.test hget hm hq hx c1.left⟩
    · rcases or with _ | _
      · exact ⟨⟨⟨a1, b1⟩, ⟨a2, b2⟩, u3, m3⟩,
          CheckAnswer.test hget hm hq hx (c1.right c2.left)⟩
      · rcases gr with _ | _
        · exact ⟨⟨⟨a1, b1⟩, ⟨a2, b2⟩, a3, b3⟩,
            CheckAnswer.test hget hm hq hx (c1.right (c2.right c3))⟩
        · exact ⟨⟨⟨a1, b1⟩, ⟨a2, b2⟩, a3, b3⟩,
            CheckAnswer.test hget hm hq hx (c1.right (c2.right c3))⟩

def TripleFilter.Tests (get : Nat → Option (Triple Nat)) (l : List (Option S))
    (tp to : List (Test S)) (f : TripleFilter) (i : Nat) : Prop :=
  (f.predicate.Used get ∧ Models get l i (f.predicate.checks (·.s) (·.p)) tp) ∧
  f.object.Used get ∧ Models get l i (f.object.checks (·.s) (·.p) (·.o)) to

theorem TripleFilter.follows {get : Nat → Option (Triple Nat)} {l : List (Option S)}
    (hget : ∀ n : Nat, get n ≠ none ↔ ∃ x, l[n]? = some (some x)) (tp to : List (Test S)) :
    WalkLaws TripleFilter.next get (tp ++ to) l (TripleFilter.Tests get l tp to) where
  later h hij := ⟨⟨h.1.1, h.1.2.later hij⟩, h.2.1, h.2.2.later hij⟩
  step := by
    intro f i q x ⟨⟨u1, m1⟩, u2, m2⟩ hq hx
    obtain ⟨a1, b1, c1⟩ := PredicateConstraints.next_walk u1 (q := q) m1
    obtain ⟨a2, b2, c2⟩ := ObjectConstraints.next_walk u2 (q := q) m2
    have hm := m1.append m2
    unfold TripleFilter.next
    generalize f.predicate.next i q.s q.p = P at *
    generalize f.object.next i q.s q.p q.o = O at *
    obtain ⟨pc, pr⟩ := P
    obtain ⟨oc, or⟩ := O
    rcases pr with _ | _
    · exact ⟨⟨⟨a1, b1⟩, u2, m2⟩, CheckAnswer.test hget hm hq hx c1.left⟩
    · rcases or with _ | _
      · exact ⟨⟨⟨a1, b1⟩, a2, b2⟩, CheckAnswer.test hget hm hq hx (c1.right c2)⟩
      · exact ⟨⟨⟨a1, b1⟩, a2, b2⟩, CheckAnswer.test hget hm hq hx (c1.right c2)⟩

end filters

/-! ## Patterns as tests -/

section parts

variable {α S : Type} (a : S → Ask α)

def predicateTests : PatternPredicate α → List (Test S)
  | .any => []
  | .sameAsSubject => [sameTest a .subj .pred]
  | .given x => [givenTest a x .pred]

def objectTests : PatternObject α → List (Test S)
  | .any => []
  | .sameAsSubject => [sameTest a .subj .obj]
  | .sameAsPredicate => [sameTest a .pred .obj]
  | .given x => [givenTest a x .obj]

def graphTests : PatternGraph α → List (Test S)
  | .any => []
  | .sameAsSubject => [sameTest a .subj .graph]
  | .sameAsPredicate => [sameTest a .pred .graph]
  | .sameAsObject => [sameTest a .obj .graph]
  | .given g => [graphTest a g]

theorem quadTests_parts (q : QPat.AnySubject α) :
    quadTests a q = predicateTests a (CanonicalQuadPattern.anySubject q).predicate ++
      (objectTests a (CanonicalQuadPattern.anySubject q).object ++
        graphTests a (CanonicalQuadPattern.anySubject q).graph) := by
  rcases q with (g | g | g | ⟨o, g⟩) | (g | g | ⟨o, g⟩) | ⟨p, g | g | ⟨o, g⟩⟩ <;> cases g <;> rfl

theorem tripleTests_parts (q : TPat.AnySubject α) :
    tripleTests a q = predicateTests a (CanonicalTriplePattern.anySubject q).predicate ++
      objectTests a (CanonicalTriplePattern.anySubject q).object := by
  rcases q with (_ | _ | _ | o) | (_ | _ | o) | ⟨p, _ | _ | o⟩ <;> rfl

end parts

variable {R : Type} [Ord R] [Std.TransOrd R] [Std.LawfulEqOrd R]

section reads

variable {σ S α : Type} [Ord S] [Std.TransOrd S] [Std.LawfulEqOrd S] {sh : Shape σ S R}
variable {res : Slab (IndexedResource R)} {ridx : Index} {st : Slab σ} {sidx : Index}

/-- What is asked of a stored statement is read from the slots. -/
structure Reads (sh : Shape σ S R) (res : Slab (IndexedResource R)) (ridx : Index) (st : Slab σ)
    (I : α → R → Prop) (a : S → Ask α) : Prop where
  same : ∀ {n q y}, st.get n = some q → sh.sval (indexOps R) res st n = some y →
    ∀ {p i}, sh.comp q p = some i → ∀ p', (sh.comp q p' = some i ↔ (a y).same p p')
  given : ∀ {n q y}, st.get n = some q → sh.sval (indexOps R) res st n = some y →
    ∀ x p, ((∃ i, sh.comp q p = some i ∧ SlotIn res ridx (I x) i) ↔ (a y).given x p)
  unnamed : ∀ {n q y}, st.get n = some q → sh.sval (indexOps R) res st n = some y →
    (sh.comp q .graph = none ↔ (a y).unnamed)

theorem comp_graph_none (H : ShapeLaws sh) {n : Nat} {q : σ} {y : S} (hq : st.get n = some q)
    (hy : sh.sval (indexOps R) res st n = some y) (p : Pos) :
    sh.comp q p = none ↔ sh.compV y p = none := by
  obtain ⟨q', hq', hcomp⟩ := Shape.sval_comp H hy
  rw [hq] at hq'
  cases hq'
  have := hcomp p
  cases hg : sh.comp q p with
  | none => simp_all
  | some g =>
    simp only [hg] at this
    obtain ⟨r, -, hr⟩ := this
    simp [hr]

/-- Terms are read from slots when each term has one record. -/
theorem reads_terms (H : ShapeLaws sh) (inv : Inv sh (indexOps R) IndexRep res ridx st sidx)
    (hc : (indexOps R).Clean res ridx) {I : α → R → Prop} {a : S → Ask α}
    (h1 : ∀ y p p', (a y).same p p' ↔ sh.compV y p' = sh.compV y p)
    (h2 : ∀ y x p, (a y).given x p ↔ ∃ r, sh.compV y p = some r ∧ I x r)
    (h3 : ∀ y, (a y).unnamed ↔ sh.compV y .graph = none) : Reads sh res ridx st I a where
  same {n q y} hq hy {p i} hi p' := by
    rw [h1]
    obtain ⟨q', hq', hcomp⟩ := Shape.sval_comp H hy
    rw [hq] at hq'
    cases hq'
    have e1 := hcomp p
    have e2 := hcomp p'
    simp only [hi] at e1
    obtain ⟨r, hr, e1⟩ := e1
    cases hj : sh.comp q p' with
    | none =>
      simp only [hj] at e2
      simp [e1, e2]
    | some j =>
      simp only [hj] at e2
      obtain ⟨r', hr', e2⟩ := e2
      rw [e1, e2]
      constructor
      · intro h
        cases h
        rw [hr] at hr'
        exact hr'.symm
      · intro h
        cases h
        rw [inv.table.sorted.inj (hc i r hr) (hc j r hr') hr hr']
  given {n q y} hq hy x p := by
    rw [h2]
    obtain ⟨q', hq', hcomp⟩ := Shape.sval_comp H hy
    rw [hq] at hq'
    cases hq'
    have e1 := hcomp p
    cases hi : sh.comp q p with
    | none =>
      simp only [hi] at e1
      simp [e1]
    | some i =>
      simp only [hi] at e1
      obtain ⟨r, hr, e1⟩ := e1
      rw [e1]
      constructor
      · rintro ⟨i', h, -, r', hr', hI⟩
        cases h
        rw [hr] at hr'
        cases hr'
        exact ⟨r, rfl, hI⟩
      · rintro ⟨r', h, hI⟩
        cases h
        exact ⟨i, rfl, hc i r hr, r, hr, hI⟩
  unnamed hq hy := (comp_graph_none H hq hy .graph).trans (h3 _).symm

/-- Records are read from slots. -/
theorem reads_records [DecidableEq R] [DecidableEq S] (H : ShapeLaws sh)
    (inv : Inv sh (indexOps R) IndexRep res ridx st sidx) {hs : R → Records S}
    (k : AllRecorded sh (indexOps R) res ridx st hs) {I : α → R → Prop} {a : S → Ask α}
    (h1 : ∀ y p p', (a y).same p p' ↔ ∃ r, ∃ g ∈ (hs r).groups, (y, p) ∈ g ∧ (y, p') ∈ g)
    (h2 : ∀ y x p, (a y).given x p ↔ ∃ r, I x r ∧ (y, p) ∈ (hs r).current)
    (h3 : ∀ y, (a y).unnamed ↔ sh.compV y .graph = none) : Reads sh res ridx st I a where
  same {n q y} hq hy {p i} hi p' := by
    rw [h1]
    exact k.same_iff H inv hq hy hi p'
  given {n q y} hq hy x p := by
    rw [h2]
    cases hi : sh.comp q p with
    | some i =>
      refine Iff.trans ?_ (k.current_iff H inv hq hy hi (I x))
      simp
    | none =>
      simp only [reduceCtorEq, false_and, exists_false, false_iff]
      rintro ⟨r, -, hm⟩
      have hm' : (y, p) ∈ (hs r).groups.flatten := by
        revert hm
        cases hs r with
        | mk b gs => cases b <;> cases gs <;> simp [Records.current] <;> intro h <;> exact .inl h
      have := ((k.occurrences H inv r).2.2 y p).1 hm'
      have hc := (comp_graph_none H hq hy p).1 hi
      rw [this.2] at hc
      cases hc
  unnamed hq hy := (comp_graph_none H hq hy .graph).trans (h3 _).symm

/-- One constraint, one test. -/
theorem models_one {get : Nat → Option σ} {l : List (Option S)} {c : Check σ} {t : Test S}
    (h1 : c.given = t.given) (h2 : ∀ (n : Nat) q x, get n = some q → l[n]? = some (some x) →
      (c.allows n q ↔ t.holds x)) : Models get l 0 [c] [t] :=
  ⟨h1, fun n q x _ => h2 n q x, trivial⟩

variable {get : Nat → Option σ} {l : List (Option S)}

theorem fixedOf_form {C : Type} {g : R → Res (Option (IndexedResource R))} {none : C}
    {fixed : List Nat → C} {p : Pos} {r : R} {c : C} (h : fixedOf g none fixed p r = .ok c) :
    c = none ∨ ∃ k, c = fixed k := by
  unfold fixedOf at h
  cases hr : g r with
  | error e => simp [hr, bind, Except.bind] at h
  | ok o =>
    cases o with
    | none =>
      simp [hr, bind, Except.bind, pure, Except.pure] at h
      exact .inl h.symm
    | some x =>
      simp [hr, bind, Except.bind, pure, Except.pure] at h
      exact .inr ⟨_, h.symm⟩

theorem fixedOfMulti_form {C : Type} {g : R → Res (Option (IndexedResource R))} {none : C}
    {fixed : List Nat → C} {p : Pos} {rs : List R} {c : C}
    (h : fixedOfMulti g none fixed p rs = .ok c) : c = none ∨ ∃ k, c = fixed k := by
  unfold fixedOfMulti at h
  cases hr : multiIndexes g p rs with
  | error e => simp [hr, bind, Except.bind] at h
  | ok k =>
    simp only [hr, bind, Except.bind, pure, Except.pure, Except.ok.injEq] at h
    split at h
    · exact .inl h.symm
    · exact .inr ⟨_, h.symm⟩

/-- The kind of constraint that a part of a pattern becomes. -/
def PredicateConstraints.Form (c : PredicateConstraints) : PatternPredicate α → Prop
  | .any => c = .any
  | .sameAsSubject => c = .sameAsSubject
  | .given _ => c = .none ∨ ∃ k, c = .fixed k

def ObjectConstraints.Form (c : ObjectConstraints) : PatternObject α → Prop
  | .any => c = .any
  | .sameAsSubject => c = .sameAsSubject
  | .sameAsPredicate => c = .sameAsPredicate
  | .given _ => c = .none ∨ ∃ k, c = .fixed k

def GraphConstraints.Form (c : GraphConstraints) : PatternGraph α → Prop
  | .any => c = .any
  | .sameAsSubject => c = .sameAsSubject
  | .sameAsPredicate => c = .sameAsPredicate
  | .sameAsObject => c = .sameAsObject
  | .given _ => c = .none ∨ ∃ k, c = .fixed k

theorem PredicateConstraints.new_form {g : R → Res (Option (IndexedResource R))}
    {c : PredicateConstraints} {pat : PatternPredicate R}
    (h : PredicateConstraints.new g pat = .ok c) : c.Form pat := by
  cases pat with
  | any => cases h; rfl
  | sameAsSubject => cases h; rfl
  | given x => exact fixedOf_form h

theorem PredicateConstraints.newMulti_form {g : R → Res (Option (IndexedResource R))}
    {c : PredicateConstraints} {pat : PatternPredicate (List R)}
    (h : PredicateConstraints.newMulti g pat = .ok c) : c.Form pat := by
  cases pat with
  | any => cases h; rfl
  | sameAsSubject => cases h; rfl
  | given x => exact fixedOfMulti_form h

theorem ObjectConstraints.new_form {g : R → Res (Option (IndexedResource R))}
    {c : ObjectConstraints} {pat : PatternObject R}
    (h : ObjectConstraints.new g pat = .ok c) : c.Form pat := by
  cases pat with
  | any => cases h; rfl
  | sameAsSubject => cases h; rfl
  | sameAsPredicate => cases h; rfl
  | given x => exact fixedOf_form h

theorem ObjectConstraints.newMulti_form {g : R → Res (Option (IndexedResource R))}
    {c : ObjectConstraints} {pat : PatternObject (List R)}
    (h : ObjectConstraints.newMulti g pat = .ok c) : c.Form pat := by
  cases pat with
  | any => cases h; rfl
  | sameAsSubject => cases h; rfl
  | sameAsPredicate => cases h; rfl
  | given x => exact fixedOfMulti_form h

theorem GraphConstraints.new_form {g : R → Res (Option (IndexedResource R))} {df : NatSet}
    {c : GraphConstraints} {pat : PatternGraph R}
    (h : GraphConstraints.new g df pat = .ok c) : c.Form pat := by
  cases pat with
  | any => cases h; rfl
  | sameAsSubject => cases h; rfl
  | sameAsPredicate => cases h; rfl
  | sameAsObject => cases h; rfl
  | given x =>
    cases x with
    | none => cases h; exact .inr ⟨_, rfl⟩
    | some x => exact fixedOf_form h

theorem GraphConstraints.newMulti_form {g : R → Res (Option (IndexedResource R))} {df : NatSet}
    {c : GraphConstraints} {pat : PatternGraph (List R)}
    (h : GraphConstraints.newMulti g df pat = .ok c) : c.Form pat := by
  cases pat with
  | any => cases h; rfl
  | sameAsSubject => cases h; rfl
  | sameAsPredicate => cases h; rfl
  | sameAsObject => cases h; rfl
  | given x =>
    cases x with
    | none => cases h; exact .inr ⟨_, rfl⟩
    | some x => exact fixedOfMulti_form h

/-- The constraints on the predicate are the tests on the predicate. -/
theorem predicate_models {I : α → R → Prop} {a : S → Ask α} (rd : Reads sh res ridx st I a)
    (hl : ∀ (n : Nat) x, l[n]? = some (some x) → sh.sval (indexOps R) res st n = some x)
    {s₀ p₀ : σ → Nat} (hs : ∀ y, sh.comp y .subj = some (s₀ y))
    (hp : ∀ y, sh.comp y .pred = some (p₀ y)) {c : PredicateConstraints}
    {pat : PatternPredicate α} {g r : Prop} (hf : c.Form pat) (hg : c.Good) (hk : c.Kind st.get g r)
    (ha : ∀ k q, st.get k = some q → (c.Allows k (s₀ q) (p₀ q) ↔
        PredicateIn (fun x => SlotIn res ridx (I x)) pat (s₀ q) (p₀ q))) :
    c.Used st.get ∧ Models st.get l 0 (c.checks s₀ p₀) (predicateTests a pat) := by
  cases pat with
  | any => cases hf; exact ⟨trivial, trivial⟩
  | sameAsSubject =>
    cases hf
    refine ⟨trivial, models_one rfl ?_⟩
    intro n q x hq hx
    refine Iff.trans ?_ (rd.same hq (hl n x hx) (hs q) .pred)
    show s₀ q = p₀ q ↔ _
    rw [hp, Option.some.injEq, eq_comm]
  | given x =>
    rcases hf with rfl | ⟨k, rfl⟩
    · refine ⟨trivial, models_one rfl fun n q y hq hy => (ha n q hq).trans ?_⟩
      refine Iff.trans ?_ (rd.given hq (hl n y hy) x .pred)
      simp [PredicateIn, hp]
    · refine ⟨⟨hg, hk.2⟩, models_one rfl fun n q y hq hy => (ha n q hq).trans ?_⟩
      refine Iff.trans ?_ (rd.given hq (hl n y hy) x .pred)
      simp [PredicateIn, hp]

theorem object_models {I : α → R → Prop} {a : S → Ask α} (rd : Reads sh res ridx st I a)
    (hl : ∀ (n : Nat) x, l[n]? = some (some x) → sh.sval (indexOps R) res st n = some x)
    {s₀ p₀ o₀ : σ → Nat} (hs : ∀ y, sh.comp y .subj = some (s₀ y))
    (hp : ∀ y, sh.comp y .pred = some (p₀ y)) (ho : ∀ y, sh.comp y .obj = some (o₀ y))
    {c : ObjectConstraints} {pat : PatternObject α} {g r : Prop} (hf : c.Form pat) (hg : c.Good)
    (hk : c.Kind st.get g r)
    (ha : ∀ k q, st.get k = some q → (c.Allows k (s₀ q) (p₀ q) (o₀ q) ↔
        ObjectIn (fun x => SlotIn res ridx (I x)) pat (s₀ q) (p₀ q) (o₀ q))) :
    c.Used st.get ∧ Models st.get l 0 (c.checks s₀ p₀ o₀) (objectTests a pat) := by
  cases pat with
  | any => cases hf; exact ⟨trivial, trivial⟩
  | sameAsSubject =>
    cases hf
    refine ⟨trivial, models_one rfl ?_⟩
    intro n q x hq hx
    refine Iff.trans ?_ (rd.same hq (hl n x hx) (hs q) .obj)
    show s₀ q = o₀ q ↔ _
    rw [ho, Option.some.injEq, eq_comm]
  | sameAsPredicate =>
    cases hf
    refine ⟨trivial, models_one rfl ?_⟩
    intro n q x hq hx
    refine Iff.trans ?_ (rd.same hq (hl n x hx) (hp q) .obj)
    show p₀ q = o₀ q ↔ _
    rw [ho, Option.some.injEq, eq_comm]
  | given x =>
    rcases hf with rfl | ⟨k, rfl⟩
    · refine ⟨trivial, models_one rfl fun n q y hq hy => (ha n q hq).trans ?_⟩
      refine Iff.trans ?_ (rd.given hq (hl n y hy) x .obj)
      simp [ObjectIn, ho]
    · refine ⟨⟨hg, hk.2⟩, models_one rfl fun n q y hq hy => (ha n q hq).trans ?_⟩
      refine Iff.trans ?_ (rd.given hq (hl n y hy) x .obj)
      simp [ObjectIn, ho]

end reads

namespace IndexedBTreeDataset

theorem graph_models {d : IndexedBTreeDataset R} {l : List (Option (Quad R))} {α : Type}
    {I : α → R → Prop} {a : Quad R → Ask α}
    (rd : Reads (quadShape R) d.resources d.resourcesIndexes d.quads I a)
    (hl : ∀ (n : Nat) x, l[n]? = some (some x) → d.sval n = some x)
    {c : GraphConstraints} {pat : PatternGraph α} {g r : Prop} (hf : c.Form pat) (hg : c.Good)
    (hk : c.Kind d.quads.get g r)
    (ha : ∀ k q, d.quads.get k = some q → (c.Allows k q ↔
        GraphIn (fun x => SlotIn d.resources d.resourcesIndexes (I x)) pat q)) :
    c.Used d.quads.get ∧ Models d.quads.get l 0 c.checks (graphTests a pat) := by
  have same : ∀ {n q y} (p : Pos) (i : Nat), d.quads.get n = some q → l[n]? = some (some y) →
      (quadShape R).comp q p = some i → (some i = q.g ↔ (a y).same p .graph) := by
    intro n q y p i hq hy hi
    refine Iff.trans ?_ (rd.same hq (hl n y hy) hi .graph)
    exact eq_comm
  have given : ∀ {n q y} x, d.quads.get n = some q → l[n]? = some (some y) →
      (GraphIn (fun x => SlotIn d.resources d.resourcesIndexes (I x)) (.given x) q ↔
        (a y).graph x) := by
    intro n q y x hq hy
    cases x with
    | none => exact rd.unnamed hq (hl n y hy)
    | some x => exact rd.given hq (hl n y hy) x .graph
  cases pat with
  | any => cases hf; exact ⟨trivial, trivial⟩
  | sameAsSubject =>
    cases hf
    exact ⟨trivial, models_one rfl fun n q x hq hx => same .subj q.s hq hx rfl⟩
  | sameAsPredicate =>
    cases hf
    exact ⟨trivial, models_one rfl fun n q x hq hx => same .pred q.p hq hx rfl⟩
  | sameAsObject =>
    cases hf
    exact ⟨trivial, models_one rfl fun n q x hq hx => same .obj q.o hq hx rfl⟩
  | given x =>
    rcases hf with rfl | ⟨k, rfl⟩
    · exact ⟨trivial, models_one rfl fun n q y hq hy => (ha n q hq).trans (given x hq hy)⟩
    · exact ⟨⟨hg, hk.2⟩, models_one rfl fun n q y hq hy => (ha n q hq).trans (given x hq hy)⟩

theorem kept_sval {d : IndexedBTreeDataset R} {h : Shelf (Quad R)} (hk : d.Kept h) (n : Nat)
    (x : Quad R) : h.places[n]? = some (some x) ↔ d.sval n = some x := by
  rw [hk.val]
  simp [Option.join_eq_some_iff]

/-- Running a matcher without a given subject. -/
theorem run_walk {d : IndexedBTreeDataset R} (w : d.WF) {h : Shelf (Quad R)} (hk : d.Kept h)
    {cap : Nat} (hcap : d.quads.entries.length ≤ cap) {m : Matcher QuadFilter}
    (hm : m.Ok QuadFilter.Good) (hi : m.i = 0) (hs : m.subject = .any)
    {tp to tg : List (Test (Quad R))}
    (hf : m.filter.Tests d.quads.get h.places tp to tg 0) :
    ∃ xs n, collectAll (d.matchNext cap) (cap + 1) m = .ok xs ∧
      Walk (tp ++ (to ++ tg)) h.places 0 xs n := by
  rw [matchNext_eq]
  obtain ⟨xs, n, e, hw⟩ := Matcher.collectAll_walk QuadFilter.laws
    (QuadFilter.follows (kept_get hk w) tp to tg) (kept_get hk w) (cap := cap)
    (fun n q hq => Nat.lt_of_lt_of_le (Slab.lt_of_get hq) hcap)
    (read := (indexOps R).quadWithResources d.resources) (fun n q hq => by
      obtain ⟨x, h1, h2⟩ := read_ok w n q hq
      exact ⟨x, h1, (kept_sval hk n x).2 h2⟩)
    (cap + 1) m hm hs (by rw [hi]; exact hf) (by omega) (by omega)
  rw [hi] at hw
  exact ⟨xs, n, e, hw⟩

theorem patternMatching_walk {d : IndexedBTreeDataset R} (w : d.WF) {h : Shelf (Quad R)}
    (hk : d.Kept h) {cap : Nat} (hcap : d.quads.entries.length ≤ cap) {a : Quad R → Ask R}
    (rd : Reads (quadShape R) d.resources d.resourcesIndexes d.quads (fun a r => r = a) a)
    (q : QPat.AnySubject R) :
    ∃ xs n, d.patternMatching cap (.anySubject q) = .ok xs ∧
      Walk (quadTests a q) h.places 0 xs n := by
  have H := quadShape_laws (R := R)
  have hl := fixedOf_loads H w.inv (looks w)
  let pat := CanonicalQuadPattern.anySubject q
  obtain ⟨p, ep, gp, -, kp, tp⟩ := predicate_right H w.inv hl (S₀ := fun y : Quad R => y.s)
    (P₀ := fun y : Quad R => y.p) (fun _ => rfl) (fun _ => rfl) (s₀ := fun y : Quad Nat => y.s)
    (p₀ := fun y : Quad Nat => y.p) (fun _ => rfl) (fun _ => rfl)
    (new := PredicateConstraints.new d.getResource) rfl rfl (fun _ => rfl) pat.predicate
  obtain ⟨o, eo, go, -, ko, to⟩ := object_right H w.inv hl (S₀ := fun y : Quad R => y.s)
    (P₀ := fun y : Quad R => y.p) (O₀ := fun y : Quad R => y.o) (fun _ => rfl) (fun _ => rfl)
    (fun _ => rfl) (s₀ := fun y : Quad Nat => y.s) (p₀ := fun y : Quad Nat => y.p)
    (o₀ := fun y : Quad Nat => y.o) (fun _ => rfl) (fun _ => rfl) (fun _ => rfl)
    (new := ObjectConstraints.new d.getResource) rfl rfl rfl (fun _ => rfl) pat.object
  obtain ⟨g, eg, gg, -, kg, tg⟩ := graph_right w hl
    (new := GraphConstraints.new d.getResource d.defaultGraph) rfl rfl rfl rfl (fun _ => rfl) rfl
    pat.graph
  have hsv : ∀ (n : Nat) x, h.places[n]? = some (some x) → d.sval n = some x :=
    fun n x => (kept_sval hk n x).1
  have mp := predicate_models (l := h.places) rd hsv (s₀ := fun y : Quad Nat => y.s)
    (p₀ := fun y : Quad Nat => y.p) (fun _ => rfl) (fun _ => rfl)
    (PredicateConstraints.new_form ep) gp kp tp
  have mo := object_models (l := h.places) rd hsv (s₀ := fun y : Quad Nat => y.s)
    (p₀ := fun y : Quad Nat => y.p) (o₀ := fun y : Quad Nat => y.o) (fun _ => rfl) (fun _ => rfl)
    (fun _ => rfl) (ObjectConstraints.new_form eo) go ko to
  have mg := graph_models (l := h.places) rd hsv (GraphConstraints.new_form eg) gg kg tg
  obtain ⟨xs, n, e, hw⟩ := run_walk w hk hcap (m := ⟨.any, ⟨p, o, g⟩, 0⟩) ⟨trivial, gp, go, gg⟩ rfl
    rfl ⟨mp, mo, mg⟩
  refine ⟨xs, n, ?_, by rw [quadTests_parts]; exact hw⟩
  have em : d.matcher (.anySubject q) = .ok ⟨.any, ⟨p, o, g⟩, 0⟩ := by
    have es : SubjectConstraints.new d.getResource (CanonicalQuadPattern.anySubject q).subject =
      .ok .any := rfl
    simp only [pat] at ep eo eg
    simp [matcher, es, ep, eo, eg, bind, Except.bind, pure, Except.pure]
  simp [patternMatching, em, e, bind, Except.bind]

theorem multiPatternMatching_walk {d : IndexedBTreeDataset R} (w : d.WF) {h : Shelf (Quad R)}
    (hk : d.Kept h) {cap : Nat} (hcap : d.quads.entries.length ≤ cap) {a : Quad R → Ask (List R)}
    (rd : Reads (quadShape R) d.resources d.resourcesIndexes d.quads (fun a r => r ∈ a) a)
    (q : QPat.AnySubject (List R)) :
    ∃ xs n, d.multiPatternMatching cap (.anySubject q) = .ok xs ∧
      Walk (quadTests a q) h.places 0 xs n := by
  have H := quadShape_laws (R := R)
  have hl := fixedOfMulti_loads H w.inv (looks w)
  let pat := CanonicalQuadPattern.anySubject q
  obtain ⟨p, ep, gp, -, kp, tp⟩ := predicate_right H w.inv hl (S₀ := fun y : Quad R => y.s)
    (P₀ := fun y : Quad R => y.p) (fun _ => rfl) (fun _ => rfl) (s₀ := fun y : Quad Nat => y.s)
    (p₀ := fun y : Quad Nat => y.p) (fun _ => rfl) (fun _ => rfl)
    (new := PredicateConstraints.newMulti d.getResource) rfl rfl (fun _ => rfl) pat.predicate
  obtain ⟨o, eo, go, -, ko, to⟩ := object_right H w.inv hl (S₀ := fun y : Quad R => y.s)
    (P₀ := fun y : Quad R => y.p) (O₀ := fun y : Quad R => y.o) (fun _ => rfl) (fun _ => rfl)
    (fun _ => rfl) (s₀ := fun y : Quad Nat => y.s) (p₀ := fun y : Quad Nat => y.p)
    (o₀ := fun y : Quad Nat => y.o) (fun _ => rfl) (fun _ => rfl) (fun _ => rfl)
    (new := ObjectConstraints.newMulti d.getResource) rfl rfl rfl (fun _ => rfl) pat.object
  obtain ⟨g, eg, gg, -, kg, tg⟩ := graph_right w hl
    (new := GraphConstraints.newMulti d.getResource d.defaultGraph) rfl rfl rfl rfl (fun _ => rfl)
    rfl pat.graph
  have hsv : ∀ (n : Nat) x, h.places[n]? = some (some x) → d.sval n = some x :=
    fun n x => (kept_sval hk n x).1
  have mp := predicate_models (l := h.places) rd hsv (s₀ := fun y : Quad Nat => y.s)
    (p₀ := fun y : Quad Nat => y.p) (fun _ => rfl) (fun _ => rfl)
    (PredicateConstraints.newMulti_form ep) gp kp tp
  have mo := object_models (l := h.places) rd hsv (s₀ := fun y : Quad Nat => y.s)
    (p₀ := fun y : Quad Nat => y.p) (o₀ := fun y : Quad Nat => y.o) (fun _ => rfl) (fun _ => rfl)
    (fun _ => rfl) (ObjectConstraints.newMulti_form eo) go ko to
  have mg := graph_models (l := h.places) rd hsv (GraphConstraints.newMulti_form eg) gg kg tg
  obtain ⟨xs, n, e, hw⟩ := run_walk w hk hcap (m := ⟨.any, ⟨p, o, g⟩, 0⟩) ⟨trivial, gp, go, gg⟩ rfl
    rfl ⟨mp, mo, mg⟩
  refine ⟨xs, n, ?_, by rw [quadTests_parts]; exact hw⟩
  have em : d.multiMatcher (.anySubject q) = .ok ⟨.any, ⟨p, o, g⟩, 0⟩ := by
    have es : SubjectConstraints.newMulti d.getResource
      (CanonicalQuadPattern.anySubject q).subject = .ok .any := rfl
    simp only [pat] at ep eo eg
    simp [multiMatcher, Proof.intoParts_eq, es, ep, eo, eg, bind, Except.bind, pure, Except.pure]
  simp [multiPatternMatching, em, e, bind, Except.bind]

end IndexedBTreeDataset

namespace IndexedBTreeGraph

theorem kept_sval {d : IndexedBTreeGraph R} {h : Shelf (Triple R)} (hk : d.Kept h) (n : Nat)
    (x : Triple R) : h.places[n]? = some (some x) ↔ d.sval n = some x := by
  rw [hk.val]
  simp [Option.join_eq_some_iff]

theorem patternMatching_walk {d : IndexedBTreeGraph R} (w : d.WF) {h : Shelf (Triple R)}
    (hk : d.Kept h) {cap : Nat} (hcap : d.triples.entries.length ≤ cap) {a : Triple R → Ask R}
    (rd : Reads (tripleShape R) d.resources d.resourcesIndexes d.triples (fun a r => r = a) a)
    (q : TPat.AnySubject R) :
    ∃ xs n, d.patternMatching cap (.anySubject q) = .ok xs ∧
      Walk (tripleTests a q) h.places 0 xs n := by
  have H := tripleShape_laws (R := R)
  have hl := fixedOf_loads H w.inv (looks w)
  let pat := CanonicalTriplePattern.anySubject q
  obtain ⟨p, ep, gp, -, kp, tp⟩ := predicate_right H w.inv hl (S₀ := fun y : Triple R => y.s)
    (P₀ := fun y : Triple R => y.p) (fun _ => rfl) (fun _ => rfl) (s₀ := fun y : Triple Nat => y.s)
    (p₀ := fun y : Triple Nat => y.p) (fun _ => rfl) (fun _ => rfl)
    (new := PredicateConstraints.new d.getResource) rfl rfl (fun _ => rfl) pat.predicate
  obtain ⟨o, eo, go, -, ko, to⟩ := object_right H w.inv hl (S₀ := fun y : Triple R => y.s)
    (P₀ := fun y : Triple R => y.p) (O₀ := fun y : Triple R => y.o) (fun _ => rfl) (fun _ => rfl)
    (fun _ => rfl) (s₀ := fun y : Triple Nat => y.s) (p₀ := fun y : Triple Nat => y.p)
    (o₀ := fun y : Triple Nat => y.o) (fun _ => rfl) (fun _ => rfl) (fun _ => rfl)
    (new := ObjectConstraints.new d.getResource) rfl rfl rfl (fun _ => rfl) pat.object
  have hsv : ∀ (n : Nat) x, h.places[n]? = some (some x) → d.sval n = some x :=
    fun n x => (kept_sval hk n x).1
  have mp := predicate_models (l := h.places) rd hsv (s₀ := fun y : Triple Nat => y.s)
    (p₀ := fun y : Triple Nat => y.p) (fun _ => rfl) (fun _ => rfl)
    (PredicateConstraints.new_form ep) gp kp tp
  have mo := object_models (l := h.places) rd hsv (s₀ := fun y : Triple Nat => y.s)
    (p₀ := fun y : Triple Nat => y.p) (o₀ := fun y : Triple Nat => y.o) (fun _ => rfl)
    (fun _ => rfl) (fun _ => rfl) (ObjectConstraints.new_form eo) go ko to
  obtain ⟨xs, n, e, hw⟩ := Matcher.collectAll_walk TripleFilter.laws
    (TripleFilter.follows (kept_get hk w) _ _) (kept_get hk w) (cap := cap)
    (fun n q hq => Nat.lt_of_lt_of_le (Slab.lt_of_get hq) hcap)
    (read := (indexOps R).tripleWithResources d.resources) (fun n q hq => by
      obtain ⟨x, h1, h2⟩ := read_ok w n q hq
      exact ⟨x, h1, (kept_sval hk n x).2 h2⟩)
    (cap + 1) ⟨.any, ⟨p, o⟩, 0⟩ ⟨trivial, gp, go⟩ rfl ⟨mp, mo⟩ (Nat.zero_le _)
    (by simp)
  refine ⟨xs, n, ?_, by rw [tripleTests_parts]; exact hw⟩
  have em : d.matcher (.anySubject q) = .ok ⟨.any, ⟨p, o⟩, 0⟩ := by
    have es : SubjectConstraints.new d.getResource (CanonicalTriplePattern.anySubject q).subject =
      .ok .any := rfl
    simp only [pat] at ep eo
    simp [matcher, es, ep, eo, bind, Except.bind, pure, Except.pure]
  rw [← matchNext_eq] at e
  simp [patternMatching, em, e, bind, Except.bind]

end IndexedBTreeGraph

end RdfTypes
