import Verif.Proof.PatternMatching
import Verif.Spec.Shelf

/-! # How far a search goes -/

set_option linter.unusedSectionVars false
set_option linter.unusedSimpArgs false

namespace RdfTypes

/-! ## Moves of the cursor -/

section hops

variable {σ : Type} {get : Nat → Option σ} {Acc : Nat → Prop} {T : Nat → Nat → Prop}

/-- The cursor goes from `i`, in use, to `j`: just after an accepted key, or else
where `T` says. -/
structure Hop (get : Nat → Option σ) (Acc : Nat → Prop) (T : Nat → Nat → Prop) (i j : Nat) :
    Prop where
  occ : get i ≠ none
  lt : i < j
  acc : Acc i → j = i + 1
  skip : ∀ n, i < n → n < j → ¬ Acc n
  move : ¬ Acc i → T i j

inductive Path (get : Nat → Option σ) (Acc : Nat → Prop) (T : Nat → Nat → Prop) :
    Nat → Nat → Prop
  | refl {i : Nat} : Path get Acc T i i
  | hop {i j v : Nat} : Hop get Acc T i j → Path get Acc T j v → Path get Acc T i v

namespace Path

theorem le {i v : Nat} (h : Path get Acc T i v) : i ≤ v := by
  induction h with
  | refl => exact Nat.le_refl _
  | hop h _ ih => exact Nat.le_trans (Nat.le_of_lt h.lt) ih

theorem trans {i j v : Nat} (h : Path get Acc T i j) (h' : Path get Acc T j v) :
    Path get Acc T i v := by
  induction h with
  | refl => exact h'
  | hop h _ ih => exact .hop h (ih h')

/-- From a vacant key the cursor does not move. -/
theorem vacant {i v : Nat} (h : Path get Acc T i v) (hi : get i = none) : v = i := by
  cases h with
  | refl => rfl
  | hop h _ => exact absurd hi h.occ

/-- The cursor goes through every accepted key, and then to the next key. -/
theorem through {i v a : Nat} (h : Path get Acc T i v) (hi : i ≤ a) (hv : a < v) (ha : Acc a) :
    Path get Acc T (a + 1) v := by
  induction h with
  | refl => omega
  | @hop i j v h p ih =>
    rcases Nat.lt_or_ge a j with hj | hj
    · by_cases hia : i = a
      · subst hia
        rw [← h.acc ha]
        exact p
      · exact absurd ha (h.skip a (by omega) hj)
    · exact ih hj hv

/-- How the cursor arrived. -/
theorem last {i v : Nat} (h : Path get Acc T i v) :
    v = i ∨ ∃ u, i ≤ u ∧ Hop get Acc T u v := by
  induction h with
  | refl => exact .inl rfl
  | @hop i j v h p ih =>
    rcases ih with rfl | ⟨u, h1, h2⟩
    · exact .inr ⟨i, Nat.le_refl _, h⟩
    · exact .inr ⟨u, by have := h.lt; omega, h2⟩

/-- When the cursor moves one by one, all keys on the way are in use. -/
theorem steps {i v : Nat} (h : Path get Acc T i v) (hT : ∀ i j, T i j → j = i + 1) :
    ∀ n, i ≤ n → n < v → get n ≠ none := by
  induction h with
  | refl => intro n _ _; omega
  | @hop i j v h p ih =>
    intro n h1 h2
    have hj : j = i + 1 := by
      by_cases ha : Acc i
      · exact h.acc ha
      · exact hT i j (h.move ha)
    by_cases hn : n = i
    · subst hn; exact h.occ
    · exact ih n (by omega) h2

end Path

end hops

/-- What is known of the moves of a filter: `T i j` when it asks to go from `i` to `j`,
and `E` when it asks to end. -/
structure Moves {F σ : Type} (filter : Nat → σ → F → F × Except (Option Nat) Unit)
    (get : Nat → Option σ) (Inv : F → Prop) (T : Nat → Nat → Prop) (E : Prop) : Prop where
  inv : ∀ {f i q}, Inv f → get i = some q → Inv (filter i q f).1
  move : ∀ {f i q j}, Inv f → get i = some q → (filter i q f).2 = .error (some j) → T i j
  ends : ∀ {f i q}, Inv f → get i = some q → (filter i q f).2 = .error none → E

namespace Matcher

variable {F σ X : Type} {filter : Nat → σ → F → F × Except (Option Nat) Unit}
  {Good : F → Prop} {Allows : F → Nat → σ → Prop} {get : Nat → Option σ} {Acc : Nat → Prop}
  {Inv : F → Prop} {T : Nat → Nat → Prop} {E : Prop} {cap : Nat}

/-- Where the search stops. -/
def Stops (get : Nat → Option σ) (Acc : Nat → Prop) (E : Prop) (v : Nat) : Prop :=
  get v = none ∨ (E ∧ get v ≠ none ∧ ∀ n, v ≤ n → ¬ Acc n)

def Agrees (Allows : F → Nat → σ → Prop) (get : Nat → Option σ) (Acc : Nat → Prop)
    (m : Matcher F) : Prop :=
  ∀ n, m.i ≤ n → (Acc n ↔ ∃ q, get n = some q ∧ m.Accepts Allows n q)

theorem loop_path (L : FilterLaws filter Good Allows) (Mv : Moves filter get Inv T E)
    (hcap : ∀ n q, get n = some q → n < cap) :
    ∀ (fuel : Nat) (m : Matcher F), m.Ok Good → m.subject = .any → Inv m.filter →
    Agrees Allows get Acc m → ∀ o m', m.loop get filter cap fuel = .ok (o, m') →
    match o with
    | some (k, _) => m'.subject = .any ∧ Inv m'.filter ∧ Path get Acc T m.i k ∧
        ∀ n, m.i ≤ n → n < k → ¬ Acc n
    | none => ∃ v, Path get Acc T m.i v ∧ Stops get Acc E v ∧ ∀ n, m.i ≤ n → n < v → ¬ Acc n := by
  intro fuel
  have hout : ∀ m : Matcher F, ¬ m.i < cap →
      ∃ v, Path get Acc T m.i v ∧ Stops get Acc E v ∧ ∀ n, m.i ≤ n → n < v → ¬ Acc n := by
    intro m h
    refine ⟨m.i, .refl, .inl ?_, fun n h1 h2 => by omega⟩
    cases hg : get m.i with
    | none => rfl
    | some q => exact absurd (hcap _ _ hg) h
  induction fuel with
  | zero =>
    intro m _ _ _ _ o m' e
    unfold loop at e
    split at e
    · cases e
    · cases e
      exact hout m ‹_›
  | succ fuel ih =>
    intro m hm hs hI hA o m' e
    unfold loop at e
    by_cases hi : m.i < cap
    · simp only [hi, if_true, hs, SubjectConstraints.next] at e
      cases hg : get m.i with
      | none =>
        simp only [hg] at e
        cases e
        exact ⟨m.i, .refl, .inl hg, fun n h1 h2 => by omega⟩
      | some q =>
        obtain ⟨f1, f2⟩ := L.good (i := m.i) (q := q) hm.2
        have f3 := L.answers (i := m.i) (q := q) hm.2 hg
        have v1 := Mv.inv hI hg
        have v2 := @Mv.move m.filter m.i q
        have v3 := @Mv.ends m.filter m.i q
        cases hF : filter m.i q m.filter with
        | mk f r =>
        simp only [hF] at f1 f2 f3 v1 v2 v3
        simp only [hF, hg] at e
        have hocc : get m.i ≠ none := by simp [hg]
        have hacc : ∀ n, m.i ≤ n → Acc n → At get (Allows m.filter) n := by
          intro n hn ha
          obtain ⟨q', h1, h2⟩ := (hA n hn).1 ha
          exact ⟨q', h1, h2.2⟩
        rcases r with j | u
        · cases j with
          | none =>
            cases e
            refine ⟨m.i, .refl, .inr ⟨v3 hI hg rfl, hocc, ?_⟩, fun n h1 h2 => by omega⟩
            intro n hn ha
            have h := hacc n hn ha
            exact f3 n hn ⟨h.choose, h.choose_spec.1⟩ h
          | some j =>
            obtain ⟨hij, hno⟩ := f3
            have hno' : ∀ n, m.i ≤ n → n < j → ¬ Acc n := by
              intro n hn hj ha
              have h := hacc n hn ha
              exact hno n hn hj ⟨h.choose, h.choose_spec.1⟩ h
            have hhop : Hop get Acc T m.i j :=
              ⟨hocc, hij, fun ha => absurd ha (hno' _ (Nat.le_refl _) hij),
                fun n h1 h2 => hno' n (by omega) h2, fun _ => v2 hI hg rfl⟩
            have := ih ⟨.any, f, j⟩ ⟨trivial, f1⟩ rfl v1 (by
              intro n hn
              simp only at hn
              rw [hA n (by omega)]
              refine exists_congr fun q' => and_congr_right fun _ => ?_
              simp only [Accepts, hs]
              exact and_congr Iff.rfl (f2 n (by omega) q').symm) o m' e
            cases o with
            | none =>
              obtain ⟨v, p, st, nn⟩ := this
              refine ⟨v, .hop hhop p, st, ?_⟩
              intro n h1 h2
              by_cases hj : n < j
              · exact hno' n h1 hj
              · exact nn n (by simp only; omega) h2
            | some x =>
              obtain ⟨k, q'⟩ := x
              obtain ⟨s, v, p, nn⟩ := this
              refine ⟨s, v, .hop hhop p, ?_⟩
              intro n h1 h2
              by_cases hj : n < j
              · exact hno' n h1 hj
              · exact nn n (by simp only; omega) h2
        · cases e
          exact ⟨rfl, v1, .refl, fun n h1 h2 => by omega⟩
    · simp only [hi, if_false] at e
      cases e
      exact hout m hi

/-- Running the iterator to the end, when the subject is not given: the items are those
accepted before the place where the cursor stops. -/
theorem collectAll_path (L : FilterLaws filter Good Allows) (Mv : Moves filter get Inv T E)
    (hcap : ∀ n q, get n = some q → n < cap) {read : σ → Res X} {V : Nat → Option X}
    (hread : ∀ n q, get n = some q → ∃ x, read q = .ok x ∧ V n = some x) :
    ∀ (fuel : Nat) (m : Matcher F), m.Ok Good → m.subject = .any → Inv m.filter →
    Agrees Allows get Acc m → m.i ≤ cap → cap < m.i + fuel →
    ∃ xs ks v, collectAll (nextWith get filter cap read) fuel m = .ok xs ∧
      ks.map V = xs.map some ∧ NatSet.Asc ks ∧ (∀ k ∈ ks, m.i ≤ k) ∧
      Path get Acc T m.i v ∧ Stops get Acc E v ∧ ∀ k, m.i ≤ k → (k ∈ ks ↔ k < v ∧ Acc k) := by
  intro fuel
  induction fuel with
  | zero =>
    intro m hm hs hI hA hi hf
    omega
  | succ fuel ih =>
    intro m hm hs hI hA hi hf
    obtain ⟨⟨o, m'⟩, e, hr⟩ := loop_spec L hcap cap m hm (by omega)
    have hp := loop_path L Mv hcap cap m hm hs hI hA o m' e
    cases o with
    | none =>
      obtain ⟨v, p, st, nn⟩ := hp
      refine ⟨[], [], v, by simp [collectAll, nextWith, e, bind, Except.bind, pure, Except.pure],
        rfl, NatSet.asc_nil, by simp, p, st, ?_⟩
      intro k hk
      simp only [List.not_mem_nil, false_iff, not_and]
      exact fun h => nn k hk h
    | some x =>
      obtain ⟨k, q⟩ := x
      obtain ⟨h1, h2, h3, h4, h5, h6⟩ := hr
      obtain ⟨s, I, p, nn⟩ := hp
      obtain ⟨x, hx, hv⟩ := hread k q h2
      have hk : Acc k := (hA k h1).2 ⟨q, h2, h3⟩
      have hle := hcap k q h2
      obtain ⟨xs, ks, v, e', hmap, hasc, hin, p', st, hall⟩ := ih m' h5.ok s I (by
        intro n hn
        rw [hA n (Nat.le_trans h5.le hn)]
        exact exists_congr fun q' => and_congr_right fun _ => (h5.same n q' hn).symm)
        (by omega) (by omega)
      rw [h4] at p' hin hall
      have hkv : k < v := p'.le
      refine ⟨x :: xs, k :: ks, v, ?_, by simp [hv, hmap], ?_, ?_, ?_, st, ?_⟩
      · simp [collectAll, nextWith, e, e', hx, bind, Except.bind, pure, Except.pure]
      · refine List.pairwise_cons.2 ⟨?_, hasc⟩
        intro n hn
        have := hin n hn
        omega
      · intro n hn
        rcases List.mem_cons.1 hn with rfl | hn
        · exact h1
        · have := hin n hn
          omega
      · refine p.trans (.hop ⟨by simp [h2], Nat.lt_succ_self _, fun _ => rfl, ?_, ?_⟩ p')
        · intro n h1 h2; omega
        · intro h; exact absurd hk h
      · intro n hn
        rcases Nat.lt_trichotomy n k with hlt | rfl | hgt
        · constructor
          · intro hm
            rcases List.mem_cons.1 hm with rfl | hm
            · omega
            · have := hin n hm
              omega
          · intro ⟨_, ha⟩
            exact absurd ha (nn n hn hlt)
        · simp [hkv, hk]
        · rw [List.mem_cons, ← hall n (by omega)]
          constructor
          · rintro (rfl | h)
            · omega
            · exact h
          · exact .inr

end Matcher

/-! ## Picking from places -/

namespace Spec

variable {S : Type}

theorem picks_of_keys {W : S → Prop} : ∀ {l : List (Option S)} {ks : List Nat} {xs : List S},
    ks.Pairwise (· < ·) → (∀ k, k ∈ ks ↔ ∃ x, l[k]? = some (some x) ∧ W x) →
    ks.map (fun k => l[k]?.join) = xs.map some → Picks W l xs := by
  intro l
  induction l with
  | nil =>
    intro ks xs _ h e
    have : ks = [] := by
      cases ks with
      | nil => rfl
      | cons k ks =>
        obtain ⟨x, hx, _⟩ := (h k).1 List.mem_cons_self
        simp at hx
    subst this
    have : xs = [] := by simpa using e.symm
    subst this
    exact .nil
  | cons a l ih =>
    intro ks xs hs h e
    -- the keys after the first, shifted
    have key : ∀ (ks : List Nat) (xs : List S), ks.Pairwise (· < ·) → (∀ k ∈ ks, 0 < k) →
        (∀ k, k + 1 ∈ ks ↔ ∃ x, l[k]? = some (some x) ∧ W x) →
        ks.map (fun k => (a :: l)[k]?.join) = xs.map some → Picks W l xs := by
      intro ks xs hs hpos h e
      refine ih (ks := ks.map (· - 1)) ?_ ?_ ?_
      · rw [List.pairwise_map]
        refine hs.imp_of_mem ?_
        intro m n hm hn hlt
        have := hpos m hm
        omega
      · intro k
        rw [← h k, List.mem_map]
        constructor
        · rintro ⟨n, hn, rfl⟩
          have := hpos n hn
          rwa [Nat.sub_add_cancel this]
        · intro hk
          exact ⟨k + 1, hk, rfl⟩
      · rw [← e, List.map_map]
        refine List.map_congr_left ?_
        intro k hk
        have := hpos k hk
        obtain ⟨n, rfl⟩ : ∃ n, k = n + 1 := ⟨k - 1, by omega⟩
        simp
    have hsucc : ∀ k, k + 1 ∈ ks ↔ ∃ x, l[k]? = some (some x) ∧ W x := by
      intro k
      rw [h (k + 1)]
      simp
    by_cases h0 : 0 ∈ ks
    · obtain ⟨x, hx, hw⟩ := (h 0).1 h0
      simp at hx
      subst hx
      cases ks with
      | nil => cases h0
      | cons k ks =>
        obtain ⟨hk, hs'⟩ := List.pairwise_cons.1 hs
        have : k = 0 := by
          rcases List.mem_cons.1 h0 with rfl | h'
          · rfl
          · have := hk 0 h'
            omega
        subst this
        cases xs with
        | nil => simp at e
        | cons y xs =>
          simp at e
          obtain ⟨rfl, e⟩ := e
          refine .wanted hw (key ks xs hs' (fun k hk' => hk k hk') ?_ (by simpa using e))
          intro k
          rw [← hsucc k]
          simp
    · have hpos : ∀ k ∈ ks, 0 < k := by
        intro k hk
        rcases Nat.eq_zero_or_pos k with rfl | h
        · exact absurd hk h0
        · exact h
      have hp := key ks xs hs hpos hsucc e
      cases a with
      | none => exact .empty hp
      | some x =>
        refine .other ?_ hp
        intro hw
        exact h0 ((h 0).2 ⟨x, by simp, hw⟩)

theorem Picks.unique {W : S → Prop} {l : List (Option S)} {xs ys : List S} (h : Picks W l xs)
    (h' : Picks W l ys) : xs = ys := by
  induction h generalizing ys with
  | nil => cases h'; rfl
  | empty _ ih => cases h' with | empty h' => exact ih h'
  | other hn _ ih =>
    cases h' with
    | other _ h' => exact ih h'
    | wanted hw _ => exact absurd hw hn
  | wanted hw _ ih =>
    cases h' with
    | other hn _ => exact absurd hw hn
    | wanted _ h' => rw [ih h']

theorem Picks.mem {W : S → Prop} {l : List (Option S)} {xs : List S} (h : Picks W l xs) (x : S) :
    x ∈ xs ↔ some x ∈ l ∧ W x := by
  induction h with
  | nil => simp
  | empty _ ih => simp [ih]
  | other hn _ ih =>
    rw [ih]
    simp only [List.mem_cons, Option.some.injEq]
    grind
  | wanted hw _ ih =>
    simp only [List.mem_cons, ih, Option.some.injEq]
    grind

/-- From the way of the cursor to what the search goes through. -/
theorem goesTo_of_path {σ : Type} {get : Nat → Option σ} {Acc : Nat → Prop} {W : S → Prop}
    {l : List (Option S)} {s g r : Prop} {ks : List Nat} {xs : List S} {v : Nat} (hs : ¬ s)
    (hget : ∀ n, get n ≠ none ↔ ∃ x, l[n]? = some (some x))
    (hacc : ∀ n, Acc n ↔ ∃ x, l[n]? = some (some x) ∧ W x)
    (hmap : ks.map (fun k => l[k]?.join) = xs.map some) (hasc : ks.Pairwise (· < ·))
    (p : Path get Acc (fun i j => (r ∧ j = i + 1) ∨ (g ∧ get j ≠ none)) 0 v)
    (st : Matcher.Stops get Acc g v) (hks : ∀ k, k ∈ ks ↔ k < v ∧ Acc k) :
    ∃ n, Picks W (l.take n) xs ∧ GoesTo W l s g r n := by
  have hlt : ∀ n, get n ≠ none → n < l.length := by
    intro n hn
    obtain ⟨x, hx⟩ := (hget n).1 hn
    exact (List.getElem?_eq_some_iff.1 hx).1
  have haccg : ∀ n, Acc n → get n ≠ none := by
    intro n ha
    obtain ⟨x, hx, -⟩ := (hacc n).1 ha
    exact (hget n).2 ⟨x, hx⟩
  have hempty : ∀ n, n < l.length → get n = none → l[n]? = some none := by
    intro n hn hg
    rw [List.getElem?_eq_getElem hn]
    cases hx : l[n] with
    | none => rfl
    | some x => exact absurd hg ((hget n).2 ⟨x, by rw [List.getElem?_eq_getElem hn, hx]⟩)
  have hnone : ∀ n, l[n]? = some none → get n = none := by
    intro n hn
    cases hg : get n with
    | none => rfl
    | some q =>
      obtain ⟨x, hx⟩ := (hget n).1 (by simp [hg])
      rw [hn] at hx
      cases hx
  -- no barrier on the way
  have hbar : ¬ r → ∀ k, Barrier W l k → ¬ k < v := by
    intro _ k hk hkv
    have hgk := hnone k hk.1
    cases k with
    | zero =>
      have := p.vacant hgk
      omega
    | succ a =>
      have ha : Acc a := by
        obtain ⟨x, hx, hw⟩ := hk.2 a rfl
        exact (hacc a).2 ⟨x, hx, hw⟩
      have := (p.through (Nat.zero_le a) (by omega) ha).vacant hgk
      omega
  have hpick : ∀ n, (∀ k, k ∈ ks ↔ k < n ∧ Acc k) → Picks W (l.take n) xs := by
    intro n hn
    refine picks_of_keys hasc ?_ ?_
    · intro k
      rw [hn, hacc]
      constructor
      · rintro ⟨h1, x, hx, hw⟩
        exact ⟨x, by rw [List.getElem?_take_of_lt h1, hx], hw⟩
      · rintro ⟨x, hx, hw⟩
        have hk : k < n := by
          have := (List.getElem?_eq_some_iff.1 hx).1
          rw [List.length_take] at this
          omega
        rw [List.getElem?_take_of_lt hk] at hx
        exact ⟨hk, x, hx, hw⟩
    · rw [← hmap]
      refine List.map_congr_left ?_
      intro k hk
      rw [List.getElem?_take_of_lt ((hn k).1 hk).1]
  rcases st with hv | ⟨hg, hv, hno⟩
  · -- at an empty place, or after the last
    have hlast : v = 0 ∨ ∃ u, get u ≠ none ∧ v = u + 1 ∧ (¬ r → Acc u) := by
      rcases p.last with h | ⟨u, -, h⟩
      · exact .inl h
      · right
        by_cases ha : Acc u
        · exact ⟨u, h.occ, h.acc ha, fun _ => ha⟩
        · rcases h.move ha with ⟨hr, h'⟩ | ⟨-, h'⟩
          · exact ⟨u, h.occ, h', fun h => absurd hr h⟩
          · exact absurd hv h'
    have hle : v ≤ l.length := by
      rcases hlast with h | ⟨u, hu, rfl, -⟩
      · omega
      · exact hlt u hu
    refine ⟨v, hpick v hks, hle, ?_, fun h => absurd h hs, ?_, ?_⟩
    · rcases Nat.lt_or_ge v l.length with h | h
      · right
        refine ⟨hempty v h hv, ?_⟩
        rintro k rfl
        rcases hlast with h | ⟨u, hu, h, -⟩
        · omega
        · have : k = u := by omega
          subst this
          exact (hget k).1 hu
      · left; omega
    · intro hg k hk hn
      exact p.steps (fun i j h => by
        rcases h with h | h
        · exact h.2
        · exact absurd h.1 hg) k (Nat.zero_le _) hk (hnone k hn)
    · intro hr _
      refine ⟨?_, fun k hk hb => hbar hr k hb hk⟩
      rcases Nat.lt_or_ge v l.length with h | h
      · right
        refine ⟨hempty v h hv, ?_⟩
        rintro k rfl
        rcases hlast with h | ⟨u, hu, h, ha⟩
        · omega
        · have : k = u := by omega
          subst this
          exact (hacc k).1 (ha hr)
      · left; omega
  · -- nothing is left to find
    have hvl := hlt v hv
    refine ⟨l.length, hpick _ ?_, Nat.le_refl _, .inl rfl, fun _ => rfl, fun h => absurd hg h, ?_⟩
    · intro k
      rw [hks]
      constructor
      · rintro ⟨h1, h2⟩
        exact ⟨by omega, h2⟩
      · rintro ⟨h1, h2⟩
        refine ⟨?_, h2⟩
        rcases Nat.lt_or_ge k v with h | h
        · exact h
        · exact absurd h2 (hno k h)
    · intro hr _
      refine ⟨.inl rfl, ?_⟩
      intro k hk hb
      have h1 := hbar hr k hb
      have hgk := hnone k hb.1
      cases k with
      | zero =>
        have : v = 0 := by omega
        subst this
        exact hv hgk
      | succ a =>
        obtain ⟨x, hx, hw⟩ := hb.2 a rfl
        have ha : Acc a := (hacc a).2 ⟨x, hx, hw⟩
        rcases Nat.lt_or_ge a v with h | h
        · have : v = a + 1 := by omega
          subst this
          exact hv hgk
        · exact hno a h ha

/-- When the subject is given. -/
theorem goesTo_all {W : S → Prop} {l : List (Option S)} {s g r : Prop} (hs : s) (hg : g) :
    GoesTo W l s g r l.length :=
  ⟨Nat.le_refl _, .inl rfl, fun _ => rfl, fun h => absurd hg h, fun _ h => absurd hs h⟩

end Spec

/-! ## Moves of the filters -/

section moves

variable {σ : Type} {get : Nat → Option σ} {g r : Prop}

/-- The answer of a constraint agrees with what is known. -/
def AnswerKind (get : Nat → Option σ) (g r : Prop) (i : Nat) : Except (Option Nat) Unit → Prop
  | .ok () => True
  | .error none => g
  | .error (some j) => (r ∧ j = i + 1) ∨ (g ∧ get j ≠ none)

theorem mem_skipTo {i k : Nat} {l : List Nat} (h : k ∈ skipTo i l) : k ∈ l := by
  induction l with
  | nil => exact h
  | cons j l ih =>
    unfold skipTo at h
    split at h
    · exact List.mem_cons_of_mem _ (ih h)
    · exact h

theorem fixedNext_kind {i : Nat} {l : List Nat} (hg : g) (h : ∀ k ∈ l, get k ≠ none) :
    (∀ k ∈ (fixedNext i l).1, get k ≠ none) ∧ AnswerKind get g r i (fixedNext i l).2 := by
  have hm : ∀ k, k ∈ skipTo i l → k ∈ l := fun k => mem_skipTo
  unfold fixedNext
  cases hs : skipTo i l with
  | nil => exact ⟨by simp, hg⟩
  | cons j l' =>
    rw [hs] at hm
    refine ⟨fun k hk => h k (hm k hk), ?_⟩
    show AnswerKind get g r i (if j = i then .ok () else .error (some j))
    split
    · trivial
    · exact .inr ⟨hg, h j (hm j (by simp))⟩

theorem sameNext_kind {i : Nat} {b : Bool} (hr : r) : AnswerKind get g r i (sameNext i b) := by
  unfold sameNext
  split
  · trivial
  · exact .inl ⟨hr, rfl⟩

theorem PredicateConstraints.next_kind {c : PredicateConstraints} (h : c.Kind get g r)
    (i s p : Nat) : (c.next i s p).1.Kind get g r ∧ AnswerKind get g r i (c.next i s p).2 := by
  cases c with
  | none => exact ⟨h, h⟩
  | any => exact ⟨trivial, trivial⟩
  | sameAsSubject => exact ⟨h, sameNext_kind h⟩
  | fixed l =>
    obtain ⟨h1, h2⟩ := fixedNext_kind (i := i) (r := r) h.1 h.2
    exact ⟨⟨h.1, h1⟩, h2⟩

theorem ObjectConstraints.next_kind {c : ObjectConstraints} (h : c.Kind get g r)
    (i s p o : Nat) :
    (c.next i s p o).1.Kind get g r ∧ AnswerKind get g r i (c.next i s p o).2 := by
  cases c with
  | none => exact ⟨h, h⟩
  | any => exact ⟨trivial, trivial⟩
  | sameAsSubject => exact ⟨h, sameNext_kind h⟩
  | sameAsPredicate => exact ⟨h, sameNext_kind h⟩
  | fixed l =>
    obtain ⟨h1, h2⟩ := fixedNext_kind (i := i) (r := r) h.1 h.2
    exact ⟨⟨h.1, h1⟩, h2⟩

theorem GraphConstraints.next_kind {c : GraphConstraints} (h : c.Kind get g r)
    (i : Nat) (q : Quad Nat) :
    (c.next i q).1.Kind get g r ∧ AnswerKind get g r i (c.next i q).2 := by
  cases c with
  | none => exact ⟨h, h⟩
  | any => exact ⟨trivial, trivial⟩
  | sameAsSubject => exact ⟨h, sameNext_kind h⟩
  | sameAsPredicate => exact ⟨h, sameNext_kind h⟩
  | sameAsObject => exact ⟨h, sameNext_kind h⟩
  | fixed l =>
    obtain ⟨h1, h2⟩ := fixedNext_kind (i := i) (r := r) h.1 h.2
    exact ⟨⟨h.1, h1⟩, h2⟩

theorem PredicateConstraints.Kind.mono {c : PredicateConstraints} {g' r' : Prop}
    (h : c.Kind get g r) (hg : g → g') (hr : r → r') : c.Kind get g' r' := by
  cases c with
  | none => exact hg h
  | any => trivial
  | sameAsSubject => exact hr h
  | fixed l => exact ⟨hg h.1, h.2⟩

theorem ObjectConstraints.Kind.mono {c : ObjectConstraints} {g' r' : Prop}
    (h : c.Kind get g r) (hg : g → g') (hr : r → r') : c.Kind get g' r' := by
  cases c with
  | none => exact hg h
  | any => trivial
  | sameAsSubject => exact hr h
  | sameAsPredicate => exact hr h
  | fixed l => exact ⟨hg h.1, h.2⟩

theorem GraphConstraints.Kind.mono {c : GraphConstraints} {g' r' : Prop}
    (h : c.Kind get g r) (hg : g → g') (hr : r → r') : c.Kind get g' r' := by
  cases c with
  | none => exact hg h
  | any => trivial
  | sameAsSubject => exact hr h
  | sameAsPredicate => exact hr h
  | sameAsObject => exact hr h
  | fixed l => exact ⟨hg h.1, h.2⟩

/-- From the answers to the moves. -/
theorem Moves.of_kind {F : Type} {filter : Nat → σ → F → F × Except (Option Nat) Unit}
    {Inv : F → Prop}
    (h : ∀ {f i q}, Inv f → Inv (filter i q f).1 ∧ AnswerKind get g r i (filter i q f).2) :
    Moves filter get Inv (fun i j => (r ∧ j = i + 1) ∨ (g ∧ get j ≠ none)) g where
  inv hf _ := (h hf).1
  move {f i q j} hf _ e := by
    have := (h (i := i) (q := q) hf).2
    rw [e] at this
    exact this
  ends {f i q} hf _ e := by
    have := (h (i := i) (q := q) hf).2
    rw [e] at this
    exact this

def QuadFilter.Kind (get : Nat → Option σ) (g r : Prop) (f : QuadFilter) : Prop :=
  f.predicate.Kind get g r ∧ f.object.Kind get g r ∧ f.graph.Kind get g r

theorem QuadFilter.moves {get : Nat → Option (Quad Nat)} :
    Moves QuadFilter.next get (QuadFilter.Kind get g r)
      (fun i j => (r ∧ j = i + 1) ∨ (g ∧ get j ≠ none)) g := by
  refine Moves.of_kind ?_
  intro f i q ⟨h1, h2, h3⟩
  obtain ⟨p1, p2⟩ := PredicateConstraints.next_kind h1 i q.s q.p
  obtain ⟨o1, o2⟩ := ObjectConstraints.next_kind h2 i q.s q.p q.o
  obtain ⟨g1, g2⟩ := GraphConstraints.next_kind h3 i q
  unfold QuadFilter.next
  generalize f.predicate.next i q.s q.p = P at *
  generalize f.object.next i q.s q.p q.o = O at *
  generalize f.graph.next i q = G at *
  obtain ⟨pc, pr⟩ := P
  obtain ⟨oc, or⟩ := O
  obtain ⟨gc, gr⟩ := G
  rcases pr with _ | _
  · exact ⟨⟨p1, h2, h3⟩, p2⟩
  · rcases or with _ | _
    · exact ⟨⟨p1, o1, h3⟩, o2⟩
    · rcases gr with _ | _
      · exact ⟨⟨p1, o1, g1⟩, g2⟩
      · exact ⟨⟨p1, o1, g1⟩, trivial⟩

def TripleFilter.Kind (get : Nat → Option σ) (g r : Prop) (f : TripleFilter) : Prop :=
  f.predicate.Kind get g r ∧ f.object.Kind get g r

theorem TripleFilter.moves {get : Nat → Option (Triple Nat)} :
    Moves TripleFilter.next get (TripleFilter.Kind get g r)
      (fun i j => (r ∧ j = i + 1) ∨ (g ∧ get j ≠ none)) g := by
  refine Moves.of_kind ?_
  intro f i q ⟨h1, h2⟩
  obtain ⟨p1, p2⟩ := PredicateConstraints.next_kind h1 i q.s q.p
  obtain ⟨o1, o2⟩ := ObjectConstraints.next_kind h2 i q.s q.p q.o
  unfold TripleFilter.next
  generalize f.predicate.next i q.s q.p = P at *
  generalize f.object.next i q.s q.p q.o = O at *
  obtain ⟨pc, pr⟩ := P
  obtain ⟨oc, or⟩ := O
  rcases pr with _ | _
  · exact ⟨⟨p1, h2⟩, p2⟩
  · rcases or with _ | _
    · exact ⟨⟨p1, o1⟩, o2⟩
    · exact ⟨⟨p1, o1⟩, trivial⟩

end moves

/-! ## Searches in the containers -/

open Spec

/-- The statements of the slab, with values `v`, are in these places. -/
structure KeptIn {σ S : Type} (st : Slab σ) (v : Nat → Option S) (h : Shelf S) : Prop where
  len : st.entries.length = h.places.length
  free : st.free = h.freed
  val : ∀ k, v k = h.places[k]?.join

variable {R : Type} [Ord R] [Std.TransOrd R] [Std.LawfulEqOrd R]

namespace IndexedBTreeDataset

/-- The statements are in these places. -/
abbrev Kept (d : IndexedBTreeDataset R) (h : Shelf (Quad R)) : Prop := KeptIn d.quads d.sval h

theorem kept_get {d : IndexedBTreeDataset R} {h : Shelf (Quad R)} (hk : d.Kept h) (w : d.WF)
    (n : Nat) : d.quads.get n ≠ none ↔ ∃ x, h.places[n]? = some (some x) := by
  have : (∃ x, h.places[n]? = some (some x)) ↔ ∃ x, d.sval n = some x := by
    rw [hk.val]
    simp [Option.join_eq_some_iff]
  rw [this]
  constructor
  · intro hn
    obtain ⟨q, hq⟩ := Option.ne_none_iff_exists'.1 hn
    exact w.inv.sval_exists quadShape_laws hq
  · rintro ⟨x, hx⟩
    obtain ⟨q, hq, -⟩ := Shape.sval_comp quadShape_laws hx
    simp [hq]

theorem run_places {d : IndexedBTreeDataset R} (w : d.WF) {h : Shelf (Quad R)}
    (hk : d.Kept h) {cap : Nat} (hcap : d.quads.entries.length ≤ cap) {V W : Quad R → Prop}
    {m : Matcher QuadFilter} {s g r : Prop} (hm : MatcherFor d V (¬ s) m) (hi : m.i = 0)
    (hW : ∀ k q y, d.quads.get k = some q → d.sval k = some y →
      (m.Accepts QuadFilter.Allows k q ↔ W y))
    (hs : ¬ s → m.subject = .any) (hsg : s → g) (hf : m.filter.Kind d.quads.get g r) :
    ∃ xs n, collectAll (d.matchNext cap) (cap + 1) m = .ok xs ∧ Picks W (h.places.take n) xs ∧
      GoesTo W h.places s g r n := by
  have hcap' : ∀ n q, d.quads.get n = some q → n < cap :=
    fun n q hq => Nat.lt_of_lt_of_le (Slab.lt_of_get hq) hcap
  -- accepted keys
  have hacc : ∀ n, (∃ q, d.quads.get n = some q ∧ m.Accepts QuadFilter.Allows n q) ↔
      ∃ x, h.places[n]? = some (some x) ∧ W x := by
    intro n
    have : (∃ x, h.places[n]? = some (some x) ∧ W x) ↔ ∃ x, d.sval n = some x ∧ W x := by
      rw [hk.val]
      simp [Option.join_eq_some_iff]
    rw [this]
    constructor
    · rintro ⟨q, hq, ha⟩
      obtain ⟨x, hx⟩ := w.inv.sval_exists quadShape_laws hq
      exact ⟨x, hx, (hW n q x hq hx).1 ha⟩
    · rintro ⟨x, hx, hw⟩
      obtain ⟨q, hq, -⟩ := Shape.sval_comp quadShape_laws hx
      exact ⟨q, hq, (hW n q x hq hx).2 hw⟩
  rw [matchNext_eq]
  by_cases hs' : s
  · obtain ⟨xs, ks, e, hmap, hasc, hsound, hcomp⟩ := Matcher.collectAll_spec QuadFilter.laws
      (get := d.quads.get) (cap := cap) hcap' (V := d.sval) (read_ok w) (cap + 1) m hm.ok
      (by omega) (by omega)
    refine ⟨xs, h.places.length, e, ?_, goesTo_all hs' (hsg hs')⟩
    rw [List.take_length]
    refine picks_of_keys hasc ?_ ?_
    · intro k
      rw [← hacc]
      constructor
      · intro hk'
        exact (hsound k hk').2
      · rintro ⟨q, hq, ha⟩
        exact hcomp (hm.live (.inl (fun h => h hs'))) k q (by omega) hq ha
    · rw [← hmap]
      exact List.map_congr_left fun k _ => (hk.val k).symm
  · obtain ⟨xs, ks, v, e, hmap, hasc, -, p, st, hall⟩ := Matcher.collectAll_path
      (Acc := fun n => ∃ q, d.quads.get n = some q ∧ m.Accepts QuadFilter.Allows n q)
      QuadFilter.laws (QuadFilter.moves (g := g) (r := r)) hcap' (V := d.sval) (read_ok w)
      (cap + 1) m hm.ok (hs hs') hf (fun n _ => Iff.rfl) (by omega) (by omega)
    rw [hi] at p hall
    obtain ⟨n, h1, h2⟩ := goesTo_of_path hs' (kept_get hk w) hacc
      (by rw [← hmap]; exact List.map_congr_left fun k _ => (hk.val k).symm) hasc p st
      (fun k => hall k (Nat.zero_le _))
    exact ⟨xs, n, e, h1, h2⟩

theorem kindOf_filter {α : Type} {d : IndexedBTreeDataset R} {pat : CanonicalQuadPattern α}
    {m : Matcher QuadFilter} (h : KindOf d pat m) :
    m.filter.Kind d.quads.get (givesPart pat) (repeatsPart pat) := by
  have hg : (∃ a, pat.predicate = .given a) ∨ (∃ a, pat.object = .given a) ∨
      (∃ a, pat.graph = .given a) → givesPart pat := by
    clear h
    cases_quad pat <;> (rintro (⟨a, h⟩ | ⟨a, h⟩ | ⟨a, h⟩) <;> first | exact True.intro | cases h)
  have hr : pat.predicate = .sameAsSubject ∨
      (pat.object = .sameAsSubject ∨ pat.object = .sameAsPredicate) ∨
      (pat.graph = .sameAsSubject ∨ pat.graph = .sameAsPredicate ∨ pat.graph = .sameAsObject) →
      repeatsPart pat := by
    clear h hg
    cases_quad pat <;> (rintro (h | (h | h) | (h | h | h)) <;> first | exact True.intro | cases h)
  exact ⟨h.predicate.mono (fun x => hg (.inl x)) (fun x => hr (.inl x)),
    h.object.mono (fun x => hg (.inr (.inl x))) (fun x => hr (.inr (.inl x))),
    h.graph.mono (fun x => hg (.inr (.inr x))) (fun x => hr (.inr (.inr x)))⟩

theorem subject_any_iff {α : Type} (pat : CanonicalQuadPattern α) :
    pat.subject = .any ↔ ¬ givesSubject pat := by
  cases pat <;> simp [CanonicalQuadPattern.subject, givesSubject]

theorem givesPart_of_subject {α : Type} {pat : CanonicalQuadPattern α} (h : givesSubject pat) :
    givesPart pat := by
  cases pat with
  | anySubject _ => exact h.elim
  | givenSubject _ _ => exact True.intro

theorem patternMatching_places {d : IndexedBTreeDataset R} (w : d.WF) (hc : d.Clean)
    {h : Shelf (Quad R)} (hk : d.Kept h) {cap : Nat} (hcap : d.quads.entries.length ≤ cap)
    (pat : CanonicalQuadPattern R) :
    ∃ xs n, d.patternMatching cap pat = .ok xs ∧ Picks (matchesQuad pat) (h.places.take n) xs ∧
      GoesTo (matchesQuad pat) h.places (givesSubject pat) (givesPart pat) (repeatsPart pat) n := by
  obtain ⟨m, e, hi, hm, hkind, -⟩ := matcher_kind w pat
  rw [subject_any_iff, show PartsIn (fun a r => r = a) pat.subject pat.predicate pat.object
    pat.graph = matchesQuad pat from funext fun q => propext (partsIn_iff pat q)] at hm
  obtain ⟨xs, n, e', h1, h2⟩ := run_places w hk hcap hm hi
    (fun k q y hq hy => ⟨hm.right.sound k q y hq hy, hm.right.complete hc k q y hq hy⟩)
    (fun hs => hkind.subject ((subject_any_iff pat).2 hs)) givesPart_of_subject
    (kindOf_filter hkind)
  exact ⟨xs, n, by simp [patternMatching, e, e', bind, Except.bind], h1, h2⟩

theorem multiPatternMatching_places {d : IndexedBTreeDataset R} (w : d.WF) (hc : d.Clean)
    {h : Shelf (Quad R)} (hk : d.Kept h) {cap : Nat} (hcap : d.quads.entries.length ≤ cap)
    (pat : CanonicalQuadPattern (List R)) :
    ∃ xs n, d.multiPatternMatching cap pat = .ok xs ∧
      Picks (PartsIn (fun a r => r ∈ a) pat.subject pat.predicate pat.object pat.graph)
        (h.places.take n) xs ∧
      GoesTo (PartsIn (fun a r => r ∈ a) pat.subject pat.predicate pat.object pat.graph)
        h.places (givesSubject pat) (givesPart pat) (repeatsPart pat) n := by
  obtain ⟨m, e, hi, hm, hkind, -⟩ := multiMatcher_kind w pat
  rw [subject_any_iff] at hm
  obtain ⟨xs, n, e', h1, h2⟩ := run_places w hk hcap hm hi
    (fun k q y hq hy => ⟨hm.right.sound k q y hq hy, hm.right.complete hc k q y hq hy⟩)
    (fun hs => hkind.subject ((subject_any_iff pat).2 hs)) givesPart_of_subject
    (kindOf_filter hkind)
  exact ⟨xs, n, by simp [multiPatternMatching, e, e', bind, Except.bind], h1, h2⟩

end IndexedBTreeDataset

namespace IndexedBTreeGraph

/-- The statements are in these places. -/
abbrev Kept (d : IndexedBTreeGraph R) (h : Shelf (Triple R)) : Prop := KeptIn d.triples d.sval h

theorem kept_get {d : IndexedBTreeGraph R} {h : Shelf (Triple R)} (hk : d.Kept h) (w : d.WF)
    (n : Nat) : d.triples.get n ≠ none ↔ ∃ x, h.places[n]? = some (some x) := by
  have : (∃ x, h.places[n]? = some (some x)) ↔ ∃ x, d.sval n = some x := by
    rw [hk.val]
    simp [Option.join_eq_some_iff]
  rw [this]
  constructor
  · intro hn
    obtain ⟨q, hq⟩ := Option.ne_none_iff_exists'.1 hn
    exact w.inv.sval_exists tripleShape_laws hq
  · rintro ⟨x, hx⟩
    obtain ⟨q, hq, -⟩ := Shape.sval_comp tripleShape_laws hx
    simp [hq]

theorem run_places {d : IndexedBTreeGraph R} (w : d.WF) {h : Shelf (Triple R)}
    (hk : d.Kept h) {cap : Nat} (hcap : d.triples.entries.length ≤ cap) {V W : Triple R → Prop}
    {m : Matcher TripleFilter} {s g r : Prop} (hm : MatcherFor d V (¬ s) m) (hi : m.i = 0)
    (hW : ∀ k q y, d.triples.get k = some q → d.sval k = some y →
      (m.Accepts TripleFilter.Allows k q ↔ W y))
    (hs : ¬ s → m.subject = .any) (hsg : s → g) (hf : m.filter.Kind d.triples.get g r) :
    ∃ xs n, collectAll (d.matchNext cap) (cap + 1) m = .ok xs ∧ Picks W (h.places.take n) xs ∧
      GoesTo W h.places s g r n := by
  have hcap' : ∀ n q, d.triples.get n = some q → n < cap :=
    fun n q hq => Nat.lt_of_lt_of_le (Slab.lt_of_get hq) hcap
  -- accepted keys
  have hacc : ∀ n, (∃ q, d.triples.get n = some q ∧ m.Accepts TripleFilter.Allows n q) ↔
      ∃ x, h.places[n]? = some (some x) ∧ W x := by
    intro n
    have : (∃ x, h.places[n]? = some (some x) ∧ W x) ↔ ∃ x, d.sval n = some x ∧ W x := by
      rw [hk.val]
      simp [Option.join_eq_some_iff]
    rw [this]
    constructor
    · rintro ⟨q, hq, ha⟩
      obtain ⟨x, hx⟩ := w.inv.sval_exists tripleShape_laws hq
      exact ⟨x, hx, (hW n q x hq hx).1 ha⟩
    · rintro ⟨x, hx, hw⟩
      obtain ⟨q, hq, -⟩ := Shape.sval_comp tripleShape_laws hx
      exact ⟨q, hq, (hW n q x hq hx).2 hw⟩
  rw [matchNext_eq]
  by_cases hs' : s
  · obtain ⟨xs, ks, e, hmap, hasc, hsound, hcomp⟩ := Matcher.collectAll_spec TripleFilter.laws
      (get := d.triples.get) (cap := cap) hcap' (V := d.sval) (read_ok w) (cap + 1) m hm.ok
      (by omega) (by omega)
    refine ⟨xs, h.places.length, e, ?_, goesTo_all hs' (hsg hs')⟩
    rw [List.take_length]
    refine picks_of_keys hasc ?_ ?_
    · intro k
      rw [← hacc]
      constructor
      · intro hk'
        exact (hsound k hk').2
      · rintro ⟨q, hq, ha⟩
        exact hcomp (hm.live (.inl (fun h => h hs'))) k q (by omega) hq ha
    · rw [← hmap]
      exact List.map_congr_left fun k _ => (hk.val k).symm
  · obtain ⟨xs, ks, v, e, hmap, hasc, -, p, st, hall⟩ := Matcher.collectAll_path
      (Acc := fun n => ∃ q, d.triples.get n = some q ∧ m.Accepts TripleFilter.Allows n q)
      TripleFilter.laws (TripleFilter.moves (g := g) (r := r)) hcap' (V := d.sval) (read_ok w)
      (cap + 1) m hm.ok (hs hs') hf (fun n _ => Iff.rfl) (by omega) (by omega)
    rw [hi] at p hall
    obtain ⟨n, h1, h2⟩ := goesTo_of_path hs' (kept_get hk w) hacc
      (by rw [← hmap]; exact List.map_congr_left fun k _ => (hk.val k).symm) hasc p st
      (fun k => hall k (Nat.zero_le _))
    exact ⟨xs, n, e, h1, h2⟩

theorem kindOf_filter {α : Type} {d : IndexedBTreeGraph R} {pat : CanonicalTriplePattern α}
    {m : Matcher TripleFilter} (h : KindOf d pat m) :
    m.filter.Kind d.triples.get (tripleGivesPart pat) (tripleRepeatsPart pat) := by
  have hg : (∃ a, pat.predicate = .given a) ∨ (∃ a, pat.object = .given a) →
      tripleGivesPart pat := by
    clear h
    cases_triple pat <;> (rintro (⟨a, h⟩ | ⟨a, h⟩) <;> first | exact True.intro | cases h)
  have hr : pat.predicate = .sameAsSubject ∨
      (pat.object = .sameAsSubject ∨ pat.object = .sameAsPredicate) → tripleRepeatsPart pat := by
    clear h hg
    cases_triple pat <;> (rintro (h | (h | h)) <;> first | exact True.intro | cases h)
  exact ⟨h.predicate.mono (fun x => hg (.inl x)) (fun x => hr (.inl x)),
    h.object.mono (fun x => hg (.inr x)) (fun x => hr (.inr x))⟩

theorem subject_any_iff {α : Type} (pat : CanonicalTriplePattern α) :
    pat.subject = .any ↔ ¬ tripleGivesSubject pat := by
  cases pat <;> simp [CanonicalTriplePattern.subject, tripleGivesSubject]

theorem givesPart_of_subject {α : Type} {pat : CanonicalTriplePattern α}
    (h : tripleGivesSubject pat) : tripleGivesPart pat := by
  cases pat with
  | anySubject _ => exact h.elim
  | givenSubject _ _ => exact True.intro

theorem patternMatching_places {d : IndexedBTreeGraph R} (w : d.WF) (hc : d.Clean)
    {h : Shelf (Triple R)} (hk : d.Kept h) {cap : Nat} (hcap : d.triples.entries.length ≤ cap)
    (pat : CanonicalTriplePattern R) :
    ∃ xs n, d.patternMatching cap pat = .ok xs ∧ Picks (matchesTriple pat) (h.places.take n) xs ∧
      GoesTo (matchesTriple pat) h.places (tripleGivesSubject pat) (tripleGivesPart pat)
        (tripleRepeatsPart pat) n := by
  obtain ⟨m, e, hi, hm, hkind, -⟩ := matcher_kind w pat
  rw [subject_any_iff] at hm
  obtain ⟨xs, n, e', h1, h2⟩ := run_places w hk hcap hm hi
    (fun k q y hq hy => ⟨hm.right.sound k q y hq hy, hm.right.complete hc k q y hq hy⟩)
    (fun hs => hkind.subject ((subject_any_iff pat).2 hs)) givesPart_of_subject
    (kindOf_filter hkind)
  exact ⟨xs, n, by simp [patternMatching, e, e', bind, Except.bind], h1, h2⟩

end IndexedBTreeGraph

end RdfTypes
