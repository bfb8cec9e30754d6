import Verif.Spec.Book
import Verif.Proof.Marks
import Verif.Proof.Shelf

/-! # Places of the records, along histories -/

set_option linter.unusedSectionVars false
set_option linter.unusedSimpArgs false

namespace RdfTypes

open Spec Container

variable {R ρ σ S : Type} [Ord R] [Std.TransOrd R] [Std.LawfulEqOrd R] [Ord S] [Std.TransOrd S]
  [Std.LawfulEqOrd S] [DecidableEq R] [DecidableEq S]

/-! ## Slabs -/

theorem bind_eq_ok {α β : Type} {x : Res α} {f : α → Res β} {b : β} (h : x >>= f = .ok b) :
    ∃ a, x = .ok a ∧ f a = .ok b := by
  cases x with
  | error e => cases h
  | ok a => exact ⟨a, rfl, h⟩

theorem Slab.modify_eq_put {s s' : Slab ρ} {k : Nat} {f : ρ → Res ρ} (e : s.modify k f = .ok s') :
    ∃ v, s' = s.put k v := by
  obtain ⟨v, -, e⟩ := bind_eq_ok e
  obtain ⟨v', -, e⟩ := bind_eq_ok e
  exact ⟨v', (Except.ok.inj e).symm⟩

theorem acquire_slab {ops : ResOps R ρ} {rep : Bool} {res res' : Slab ρ} {idx idx' : Index}
    {pos : Pos} {k i' : Nat} {r : R} {found : Option Nat}
    (e : ops.acquire rep res idx pos k r found = .ok (res', idx', i')) :
    (∃ v, found = some i' ∧ res' = res.put i' v) ∨
    (found = none ∧ i' = res.vacantKey ∧ ∃ v, res' = res.insert v) := by
  cases found with
  | some i =>
    obtain ⟨s, e1, e⟩ := bind_eq_ok e
    obtain ⟨v, rfl⟩ := Slab.modify_eq_put e1
    cases e
    exact .inl ⟨v, rfl, rfl⟩
  | none =>
    obtain ⟨s, e1, e⟩ := bind_eq_ok e
    cases e
    exact .inr ⟨rfl, rfl, _, rfl⟩

theorem release_slab {ops : ResOps R ρ} {res res' : Slab ρ} {idx idx' : Index} {pos : Pos}
    {k i : Nat} {cmp : Slab ρ → Nat → Res Ordering} {dropped : Bool}
    (e : ops.release res idx pos k i cmp = .ok (res', idx', dropped)) :
    ∃ v, res' = if dropped then (res.put i v).erase i else res.put i v := by
  obtain ⟨s, e1, e⟩ := bind_eq_ok e
  obtain ⟨v, rfl⟩ := Slab.modify_eq_put e1
  obtain ⟨x, e2, e⟩ := bind_eq_ok e
  split at e
  · obtain ⟨⟨l, o⟩, e3, e⟩ := bind_eq_ok e
    obtain ⟨⟨s', x'⟩, e4, e⟩ := bind_eq_ok e
    cases e
    rw [Slab.index_eq_ok] at e2
    rw [Slab.remove_ok e2] at e4
    cases e4
    exact ⟨v, rfl⟩
  · cases e
    exact ⟨v, rfl⟩

/-! ## The book of a table -/

/-- The book `b` tells what is in the table: `E i p k` says that slot `i` is used at position `p`
of statement `k`, which is `nm k`; `M` are the listed slots. -/
structure Holds (ops : ResOps R ρ) (res : Slab ρ) (idx : Index) (E : Nat → Pos → Nat → Prop)
    (nm : Nat → Option S) (M : Pos → Nat → Prop) (b : Book R S) : Prop where
  len : res.entries.length = b.records.places.length
  free : res.free = b.records.freed
  val : ∀ i, ops.val res i = (b.at_ i).map (·.1)
  occ : ∀ i r g, b.at_ i = some (r, g) → ∀ y p, (y, p) ∈ g ↔ ∃ k, E i p k ∧ nm k = some y
  cur : ∀ r i, b.current r = some i ↔ i ∈ idx ∧ ops.val res i = some r
  marks : ∀ p i, b.marked p i = true ↔ M p i

/-- What the statements in use are called. -/
structure Naming (E : Nat → Pos → Nat → Prop) (nm : Nat → Option S) : Prop where
  defd : ∀ {i p k}, E i p k → ∃ y, nm k = some y
  inj : ∀ {k k' y}, nm k = some y → nm k' = some y → k = k'
  one : ∀ {i j p k}, E i p k → E j p k → i = j

theorem Naming.mono {E E' : Nat → Pos → Nat → Prop} {nm : Nat → Option S} (N : Naming E nm)
    (h : ∀ i p k, E' i p k → E i p k) : Naming E' nm :=
  ⟨fun e => N.defd (h _ _ _ e), N.inj, fun e e' => N.one (h _ _ _ e) (h _ _ _ e')⟩

namespace Holds

variable {ops : ResOps R ρ} {Rep : ρ → (Pos → Nat → Prop) → Prop} {res res' : Slab ρ}
  {idx idx' : Index} {E E' : Nat → Pos → Nat → Prop} {nm nm' : Nat → Option S}
  {M M' : Pos → Nat → Prop} {b : Book R S}

theorem congr (h : Holds ops res idx E nm M b) (hE : ∀ i p k, E i p k ↔ E' i p k)
    (hn : ∀ i p k, E i p k → nm k = nm' k) (hM : ∀ p i, M p i ↔ M' p i) :
    Holds ops res idx E' nm' M' b where
  len := h.len
  free := h.free
  val := h.val
  occ i r g hg y p := by
    rw [h.occ i r g hg]
    refine exists_congr fun k => ?_
    rw [← hE]
    constructor
    · exact fun ⟨h1, h2⟩ => ⟨h1, by rw [← hn _ _ _ h1, h2]⟩
    · exact fun ⟨h1, h2⟩ => ⟨h1, by rw [hn _ _ _ h1, h2]⟩
  cur := h.cur
  marks p i := by rw [h.marks, hM]

theorem kept (h : Holds ops res idx E nm M b) : KeptIn res b.at_ b.records :=
  ⟨h.len, h.free, fun _ => rfl⟩

theorem next_eq (h : Holds ops res idx E nm M b) : b.next = res.vacantKey := by
  unfold Book.next Slab.vacantKey
  rw [h.free]
  cases b.records.freed with
  | nil => simp [h.len]
  | cons => rfl

theorem at_of_val (h : Holds ops res idx E nm M b) {i : Nat} {r : R} (hv : ops.val res i = some r) :
    ∃ g, b.at_ i = some (r, g) := by
  rw [h.val, Option.map_eq_some_iff] at hv
  obtain ⟨⟨r', g⟩, hg, rfl⟩ := hv
  exact ⟨g, hg⟩

theorem acquire (L : ResLaws ops Rep) {rep : Bool} (inv : ResInv ops Rep res idx E)
    (h : Holds ops res idx E nm M b) {pos : Pos} {k i' : Nat} {r : R} {x : S} {found : Option Nat}
    (hf : ∀ i, found = some i → ops.val res i = some r) (hfresh : ∀ i, ¬ E i pos k)
    (hx : nm k = some x)
    (e : ops.acquire rep res idx pos k r found = .ok (res', idx', i')) :
    ResInv ops Rep res' idx' (fun j p n => E j p n ∨ (j = i' ∧ p = pos ∧ n = k)) ∧
    Acquired rep ops res idx r found res' idx' i' ∧
    Holds ops res' idx' (fun j p n => E j p n ∨ (j = i' ∧ p = pos ∧ n = k)) nm
      (fun p i => M p i ∨ (p = pos ∧ i = i')) (b.enterAt rep found (x, pos) r) := by
  obtain ⟨res1, idx1, i1, e1, inv', a⟩ := inv.acquire_spec L rep pos k r found hf hfresh
  rw [e] at e1
  cases e1
  refine ⟨inv', a, ?_⟩
  rcases acquire_slab e with ⟨v, rfl, rfl⟩ | ⟨rfl, rfl, v, rfl⟩
  · obtain ⟨-, rfl, hi⟩ := a.hit i' rfl
    obtain ⟨g, hg⟩ := h.at_of_val hi
    have hat : ∀ j, (b.enterAt rep (some i') (x, pos) r).at_ j =
        if j = i' then some (r, g ++ [(x, pos)]) else b.at_ j := by
      intro j
      simp only [Book.enterAt, Book.at_, List.getElem?_modify]
      by_cases hj : j = i'
      · subst hj
        unfold Book.at_ at hg
        cases hp : b.records.places[j]? with
        | none => simp [hp] at hg
        | some o =>
          simp only [hp, Option.join_some] at hg
          simp [hg]
      · have : i' ≠ j := fun e => hj e.symm
        simp [hj, this]
    constructor
    · simp [Slab.put, Book.enterAt, h.len]
    · simp [Slab.put, Book.enterAt, h.free]
    · intro j
      rw [a.val, hat]
      by_cases hj : j = i'
      · simp [hj]
      · simp [hj, h.val]
    · intro j r' g' hj y p
      rw [hat] at hj
      by_cases hji : j = i'
      · subst hji
        simp only [if_true, Option.some.injEq, Prod.mk.injEq] at hj
        obtain ⟨rfl, rfl⟩ := hj
        simp only [List.mem_append, List.mem_singleton, Prod.mk.injEq, h.occ _ _ _ hg, true_and]
        constructor
        · rintro (⟨n, h1, h2⟩ | ⟨rfl, rfl⟩)
          · exact ⟨n, .inl h1, h2⟩
          · exact ⟨k, .inr ⟨rfl, rfl⟩, hx⟩
        · rintro ⟨n, h1 | ⟨rfl, rfl⟩, h2⟩
          · exact .inl ⟨n, h1, h2⟩
          · rw [hx] at h2
            cases h2
            exact .inr ⟨rfl, rfl⟩
      · simp only [hji, if_false] at hj
        simp only [hji, false_and, or_false, h.occ _ _ _ hj]
    · intro r' j
      simp only [Book.enterAt]
      rw [h.cur, a.val]
      by_cases hj : j = i'
      · subst hj; simp [hi]
      · simp [hj]
    · intro p j
      simp only [Book.enterAt, Option.getD_some, Bool.or_eq_true, decide_eq_true_eq, h.marks]
      exact Or.comm
  · have hfr := a.fresh rfl
    have hk := h.kept.put inv.wf
      (x := (r, [(x, pos)])) (q := v) (st' := res.insert v) rfl
      (v' := fun j => if j = res.vacantKey then some (r, [(x, pos)]) else b.at_ j) (fun j => rfl)
    have hat : ∀ j, (b.enterAt rep none (x, pos) r).at_ j =
        if j = res.vacantKey then some (r, [(x, pos)]) else b.at_ j := by
      intro j
      exact (hk.val j).symm
    constructor
    · exact hk.len
    · exact hk.free
    · intro j
      rw [a.val, hat]
      by_cases hj : j = res.vacantKey
      · simp [hj]
      · simp [hj, h.val]
    · intro j r' g' hj y p
      rw [hat] at hj
      by_cases hji : j = res.vacantKey
      · simp only [hji, if_true, Option.some.injEq, Prod.mk.injEq] at hj
        obtain ⟨rfl, rfl⟩ := hj
        have hno := inv.unused res.vacantKey (Slab.get_vacantKey inv.wf)
        simp only [List.mem_singleton, Prod.mk.injEq, hji, true_and]
        constructor
        · rintro ⟨rfl, rfl⟩
          exact ⟨k, .inr ⟨rfl, rfl⟩, hx⟩
        · rintro ⟨n, h1 | ⟨rfl, rfl⟩, h2⟩
          · exact absurd h1 (hno _ _)
          · rw [hx] at h2
            cases h2
            exact ⟨rfl, rfl⟩
      · simp only [hji, if_false] at hj
        simp only [hji, false_and, or_false, h.occ _ _ _ hj]
    · intro r' j
      simp only [Book.enterAt, Option.getD_none, h.next_eq]
      by_cases hr : r' = r
      · subst hr
        simp only [true_and]
        by_cases hc : rep = true ∨ b.current r' = none
        · simp only [hc, if_true, Option.some.injEq]
          have hin : res.vacantKey ∈ idx' := by
            rcases hc with hc | hc
            · exact a.last hc rfl
            · obtain ⟨j, hj, hv⟩ := a.cover rfl
              rcases a.sub j hj with hj' | rfl
              · rw [a.val] at hv
                by_cases hji : j = res.vacantKey
                · exact hji ▸ hj
                · simp only [hji, if_false] at hv
                  rw [(h.cur r' j).2 ⟨hj', hv⟩] at hc
                  cases hc
              · exact hj
          constructor
          · rintro rfl
            exact ⟨hin, by simp [a.val]⟩
          · rintro ⟨hj, hv⟩
            exact inv'.sorted.inj hin hj (by simp [a.val]) hv
        · simp only [hc, if_false]
          simp only [not_or, Bool.not_eq_true] at hc
          obtain ⟨j₀, hj₀⟩ := Option.ne_none_iff_exists'.1 hc.2
          rw [hj₀]
          obtain ⟨h1, h2⟩ := (h.cur r' j₀).1 hj₀
          have h1' := a.first hc.1 j₀ h1
          have h2' : ops.val (res.insert v) j₀ = some r' := by
            rw [a.val, h2]; simp
          constructor
          · intro hj
            cases hj
            exact ⟨h1', h2'⟩
          · rintro ⟨hj, hv⟩
            rw [inv'.sorted.inj h1' hj h2' hv]
      · simp only [hr, false_and, if_false, h.cur, a.val]
        by_cases hj : j = res.vacantKey
        · subst hj
          simp [hfr, fun e => hr (Eq.symm e)]
          exact fun _ e => hr e.symm
        · simp only [hj, if_false]
          constructor
          · rintro ⟨h1, h2⟩
            exact ⟨a.keep j h1 (by rw [h2]; simpa using hr), h2⟩
          · rintro ⟨h1, h2⟩
            exact ⟨(a.sub j h1).resolve_right hj, h2⟩
    · intro p j
      simp only [Book.enterAt, Option.getD_none, Bool.or_eq_true, decide_eq_true_eq, h.marks,
        h.next_eq]
      exact Or.comm

theorem findIdx (h : Holds ops res idx E nm M b) (N : Naming E nm) {pos : Pos} {k i : Nat} {r : R}
    {x : S} {g : List (S × Pos)} (hE : E i pos k) (hx : nm k = some x) (hg : b.at_ i = some (r, g)) :
    b.records.places.findIdx? (fun o => o.any (fun y => y.2.contains (x, pos))) = some i := by
  have hi : b.records.places[i]? = some (some (r, g)) := by
    unfold Book.at_ at hg
    exact Option.join_eq_some_iff.1 hg
  obtain ⟨hlt, hi'⟩ := List.getElem?_eq_some_iff.1 hi
  rw [List.findIdx?_eq_some_iff_getElem]
  refine ⟨hlt, ?_, ?_⟩
  · rw [hi']
    simpa using (h.occ i r g hg x pos).2 ⟨k, hE, hx⟩
  · intro j hj hp
    cases hjp : b.records.places[j] with
    | none => simp [hjp] at hp
    | some y =>
      obtain ⟨r', g'⟩ := y
      simp only [hjp, Option.any_some, List.contains_iff_mem] at hp
      have hat : b.at_ j = some (r', g') := by
        unfold Book.at_
        rw [List.getElem?_eq_getElem (by omega), hjp]
        rfl
      obtain ⟨k', hE', hx'⟩ := (h.occ j r' g' hat x pos).1 hp
      cases N.inj hx hx'
      have := N.one hE hE'
      omega

theorem release (L : ResLaws ops Rep) (inv : ResInv ops Rep res idx E)
    (h : Holds ops res idx E nm M b) (N : Naming E nm) {pos : Pos} {k i : Nat} {r : R} {x : S}
    {cmp : Slab ρ → Nat → Res Ordering} {dropped : Bool}
    (hcmp : ∀ res', ops.val res' i = some r → ∀ l, Index.Compares (ops.val res') r l (cmp res'))
    (hval : ops.val res i = some r) (hE : E i pos k) (hx : nm k = some x)
    (e : ops.release res idx pos k i cmp = .ok (res', idx', dropped)) :
    ResInv ops Rep res' idx' (fun j p n => E j p n ∧ ¬ (j = i ∧ p = pos ∧ n = k)) ∧
    Released ops res idx r i res' idx' dropped ∧
    Holds ops res' idx' (fun j p n => E j p n ∧ ¬ (j = i ∧ p = pos ∧ n = k)) nm
      (fun p j => M p j ∧ ¬ (p = pos ∧ j = i ∧ (pos ≠ .graph ∨ dropped = true)))
      (b.leaveAt (x, pos)) := by
  obtain ⟨res1, idx1, d1, e1, inv', a⟩ := inv.release_spec L pos k i r cmp
    (fun res' hv => hcmp res' (by rw [hv]; exact hval) idx) hval hE
  rw [e] at e1
  cases e1
  refine ⟨inv', a, ?_⟩
  obtain ⟨g, hg⟩ := h.at_of_val hval
  obtain ⟨v, hv⟩ := release_slab e
  have hocc : ∀ y p, (y, p) ∈ g.filter (· ≠ (x, pos)) ↔
      ∃ n, (E i p n ∧ ¬ (i = i ∧ p = pos ∧ n = k)) ∧ nm n = some y := by
    intro y p
    simp only [List.mem_filter, h.occ i r g hg, decide_eq_true_eq, ne_eq, Prod.mk.injEq, true_and]
    constructor
    · rintro ⟨⟨n, h1, h2⟩, h3⟩
      refine ⟨n, ⟨h1, ?_⟩, h2⟩
      rintro ⟨rfl, rfl⟩
      rw [hx] at h2
      cases h2
      exact h3 ⟨rfl, rfl⟩
    · rintro ⟨n, ⟨h1, h3⟩, h2⟩
      refine ⟨⟨n, h1, h2⟩, ?_⟩
      rintro ⟨rfl, rfl⟩
      exact h3 ⟨rfl, N.inj h2 hx⟩
  have hdrop : dropped = true ↔ g.filter (· ≠ (x, pos)) = [] := by
    constructor
    · intro hd
      have hvn : ops.val res' i = none := by rw [a.val]; simp [hd]
      have hgn : res'.get i = none := by
        unfold ResOps.val at hvn
        simpa using hvn
      refine List.eq_nil_iff_forall_not_mem.2 fun ⟨y, p⟩ hm => ?_
      obtain ⟨n, hE', -⟩ := (hocc y p).1 hm
      exact inv'.unused i hgn p n hE'
    · intro hn
      cases hd : dropped with
      | true => rfl
      | false =>
        have hvs : ops.val res' i = some r := by rw [a.val]; simp [hd, hval]
        obtain ⟨p, n, hE'⟩ := inv'.used_of_val hvs
        obtain ⟨y, hy⟩ := N.defd hE'.1
        have := (hocc y p).2 ⟨n, hE', hy⟩
        rw [hn] at this
        cases this
  have hbook : b.leaveAt (x, pos) =
      if dropped = true then
        ⟨b.records.clear i, fun r' => if r' = r then none else b.current r', fun p j =>
          b.marked p j && !(p = pos ∧ j = i ∧ (pos ≠ .graph ∨ g.filter (· ≠ (x, pos)) = []))⟩
      else ⟨⟨b.records.places.set i (some (r, g.filter (· ≠ (x, pos)))), b.records.freed⟩,
        b.current, fun p j =>
          b.marked p j && !(p = pos ∧ j = i ∧ (pos ≠ .graph ∨ g.filter (· ≠ (x, pos)) = []))⟩ := by
    unfold Book.leaveAt
    rw [h.findIdx N hE hx hg]
    simp only [hg, hdrop]
  have hmarks : ∀ p j, (b.marked p j && !decide (p = pos ∧ j = i ∧
      (pos ≠ .graph ∨ g.filter (· ≠ (x, pos)) = []))) = true ↔
      (M p j ∧ ¬ (p = pos ∧ j = i ∧ (pos ≠ .graph ∨ dropped = true))) := by
    intro p j
    rw [hdrop]
    simp only [Bool.and_eq_true, Bool.not_eq_true', decide_eq_false_iff_not, h.marks]
  rw [hbook]
  cases dropped with
  | true =>
    simp only [if_true] at hv
    subst hv
    have hk := (KeptIn.clear (st := res.put i v) (st' := (res.put i v).erase i) (h := b.records)
      (v := b.at_) ⟨by simpa [Slab.put] using h.len, h.free, fun _ => rfl⟩ (k := i) rfl
      (v' := fun n => if n = i then none else b.at_ n) (fun n => rfl))
    simp only [if_true]
    constructor
    · exact hk.len
    · exact hk.free
    · intro j
      rw [a.val]
      refine Eq.trans ?_ (congrArg (Option.map (·.1)) (hk.val j))
      by_cases hj : j = i <;> simp [hj, h.val]
    · intro j r' g' hj y p
      have hj' := (hk.val j).trans hj
      by_cases hji : j = i
      · simp [hji] at hj'
      · simp only [hji, if_false] at hj'
        simp [hji, h.occ j r' g' hj']
    · intro r' j
      simp only
      rw [a.gone rfl, a.val]
      by_cases hr : r' = r
      · subst hr
        simp only [if_true, reduceCtorEq, false_iff, true_and, not_and]
        rintro ⟨-, h2⟩
        split
        · simp
        · exact h2
      · simp only [hr, if_false, h.cur, true_and]
        by_cases hj : j = i
        · subst hj
          simp [hval, fun e => hr (Eq.symm e)]
          exact fun _ e => hr e.symm
        · simp only [hj, if_false]
          constructor
          · rintro ⟨h1, h2⟩
            exact ⟨⟨h1, by rw [h2]; simpa using hr⟩, h2⟩
          · rintro ⟨⟨h1, -⟩, h2⟩
            exact ⟨h1, h2⟩
    · simpa using hmarks
  | false =>
    simp only [Bool.false_eq_true, if_false] at hv
    subst hv
    have hat : ∀ j, (Option.join (b.records.places.set i
        (some (r, g.filter (· ≠ (x, pos)))))[j]?) =
        if j = i then some (r, g.filter (· ≠ (x, pos))) else b.at_ j := by
      intro j
      rw [List.getElem?_set]
      by_cases hj : j = i
      · subst hj
        have : j < b.records.places.length := by
          unfold Book.at_ at hg
          exact (List.getElem?_eq_some_iff.1 (Option.join_eq_some_iff.1 hg)).1
        simp [this]
      · have : i ≠ j := fun e => hj e.symm
        simp [hj, this, Book.at_]
    simp only [Bool.false_eq_true, if_false]
    constructor
    · simpa [Slab.put] using h.len
    · exact h.free
    · intro j
      rw [a.val]
      refine Eq.trans ?_ (congrArg (Option.map (·.1)) (hat j).symm)
      by_cases hj : j = i
      · simp [hj, hval]
      · simp [hj, h.val]
    · intro j r' g' hj y p
      have hj' := (hat j).symm.trans hj
      by_cases hji : j = i
      · subst hji
        simp only [if_true, Option.some.injEq, Prod.mk.injEq] at hj'
        obtain ⟨rfl, rfl⟩ := hj'
        exact hocc y p
      · simp only [hji, if_false] at hj'
        simp [hji, h.occ j r' g' hj']
    · intro r' j
      simp only
      rw [h.cur, a.kept rfl, a.val]
      simp
    · simpa using hmarks

theorem found (inv : ResInv ops Rep res idx E) (h : Holds ops res idx E nm M b) {r : R}
    {f : Option Nat} (e : ops.indexOfResource res idx r = .ok f) :
    f = b.current r ∧ ∀ i, f = some i → ops.val res i = some r := by
  obtain ⟨f', e', hf⟩ := inv.indexOf_spec r
  rw [e] at e'
  cases e'
  refine ⟨Option.ext fun i => ?_, fun i hi => ((hf i).1 hi).2⟩
  rw [hf, h.cur]

/-- What entering a statement does, when it is not there. -/
def _root_.RdfTypes.enterAll (rep : Bool) (terms : S → Pos → Option R) (b : Book R S) (x : S) :
    Book R S :=
  [Pos.subj, .pred, .obj, .graph].foldl (fun b' p =>
    match terms x p with
    | some r => b'.enterAt rep (b.current r) (x, p) r
    | none => b') b

theorem acquireQuad [DecidableEq (Quad R)] {nm : Nat → Option (Quad R)} {b : Book R (Quad R)}
    (L : ResLaws ops Rep) {rep : Bool} (inv : ResInv ops Rep res idx E)
    (h : Holds ops res idx E nm M b) {k : Nat} {x : Quad R} {q : Quad Nat} (hfresh : ∀ i p, ¬ E i p k)
    (hx : nm k = some x) (e : ops.acquireQuad rep res idx k x = .ok (res', idx', q)) :
    Holds ops res' idx' (fun i p n => E i p n ∨ ((quadShape R).comp q p = some i ∧ n = k)) nm
      (fun p i => M p i ∨ (quadShape R).comp q p = some i) (enterAll rep quadAt b x) := by
  obtain ⟨xs, xp, xo, xg⟩ := x
  unfold ResOps.acquireQuad at e
  obtain ⟨sf, hs, e⟩ := bind_eq_ok e
  obtain ⟨pf, hp, e⟩ := bind_eq_ok e
  obtain ⟨of, ho, e⟩ := bind_eq_ok e
  obtain ⟨rs, vs⟩ := found inv h hs
  obtain ⟨rp, vp⟩ := found inv h hp
  obtain ⟨ro, vo⟩ := found inv h ho
  have key : ∀ {r1 r2 r3 : Slab ρ} {i1 i2 i3 : Index} {s' p' o' : Nat},
      ops.acquire rep res idx .subj k xs sf = .ok (r1, i1, s') →
      ops.acquire rep r1 i1 .pred k xp pf = .ok (r2, i2, p') →
      ops.acquire rep r2 i2 .obj k xo of = .ok (r3, i3, o') → _ :=
    fun e1 e2 e3 => by
      obtain ⟨inv1, a1, h1⟩ := h.acquire L inv vs (fun i => hfresh i _) hx e1
      obtain ⟨inv2, a2, h2⟩ := h1.acquire L inv1 (fun i hi => a1.mono (vp i hi))
        (by rintro i (hi | ⟨-, hi, -⟩)
            · exact hfresh i _ hi
            · cases hi) hx e2
      obtain ⟨inv3, a3, h3⟩ := h2.acquire L inv2 (fun i hi => a2.mono (a1.mono (vo i hi)))
        (by rintro i ((hi | ⟨-, hi, -⟩) | ⟨-, hi, -⟩)
            · exact hfresh i _ hi
            · cases hi
            · cases hi) hx e3
      exact And.intro inv3 (And.intro (fun {j r} (hj : ops.val res j = some r) =>
        a3.mono (a2.mono (a1.mono hj))) h3)
  subst rs rp ro
  cases xg with
  | none =>
    obtain ⟨gf, -, e⟩ := bind_eq_ok e
    obtain ⟨⟨r1, i1, s'⟩, e1, e⟩ := bind_eq_ok e
    obtain ⟨⟨r2, i2, p'⟩, e2, e⟩ := bind_eq_ok e
    obtain ⟨⟨r3, i3, o'⟩, e3, e⟩ := bind_eq_ok e
    obtain ⟨inv3, -, h3⟩ := key e1 e2 e3
    cases e
    refine h3.congr ?_ (fun _ _ _ _ => rfl) ?_
    · intro i p n
      cases p <;> simp [quadShape] <;> grind
    · intro p i
      cases p <;> simp [quadShape, eq_comm]
  | some g =>
    obtain ⟨gf, hg, e⟩ := bind_eq_ok e
    obtain ⟨⟨r1, i1, s'⟩, e1, e⟩ := bind_eq_ok e
    obtain ⟨⟨r2, i2, p'⟩, e2, e⟩ := bind_eq_ok e
    obtain ⟨⟨r3, i3, o'⟩, e3, e⟩ := bind_eq_ok e
    obtain ⟨⟨r4, i4, g'⟩, e4, e⟩ := bind_eq_ok e
    cases e
    obtain ⟨inv3, mono, h3⟩ := key e1 e2 e3
    obtain ⟨rg, vg⟩ := found inv h hg
    subst rg
    obtain ⟨inv4, a4, h4⟩ := h3.acquire L inv3 (fun i hi => mono (vg i hi))
      (by rintro i (((hi | ⟨-, hi, -⟩) | ⟨-, hi, -⟩) | ⟨-, hi, -⟩)
          · exact hfresh i _ hi
          · cases hi
          · cases hi
          · cases hi) hx e4
    refine h4.congr ?_ (fun _ _ _ _ => rfl) ?_
    · intro i p n
      cases p <;> simp [quadShape] <;> grind
    · intro p i
      cases p <;> simp [quadShape, eq_comm]

theorem acquireTriple [DecidableEq (Triple R)] {nm : Nat → Option (Triple R)}
    {b : Book R (Triple R)} (L : ResLaws ops Rep) {rep : Bool} (inv : ResInv ops Rep res idx E)
    (h : Holds ops res idx E nm M b) {k : Nat} {x : Triple R} {q : Triple Nat}
    (hfresh : ∀ i p, ¬ E i p k) (hx : nm k = some x)
    (e : ops.acquireTriple rep res idx k x = .ok (res', idx', q)) :
    Holds ops res' idx' (fun i p n => E i p n ∨ ((tripleShape R).comp q p = some i ∧ n = k)) nm
      (fun p i => M p i ∨ (tripleShape R).comp q p = some i) (enterAll rep tripleAt b x) := by
  unfold ResOps.acquireTriple at e
  obtain ⟨sf, hs, e⟩ := bind_eq_ok e
  obtain ⟨pf, hp, e⟩ := bind_eq_ok e
  obtain ⟨of, ho, e⟩ := bind_eq_ok e
  obtain ⟨⟨r1, i1, s'⟩, e1, e⟩ := bind_eq_ok e
  obtain ⟨⟨r2, i2, p'⟩, e2, e⟩ := bind_eq_ok e
  obtain ⟨⟨r3, i3, o'⟩, e3, ef⟩ := bind_eq_ok e
  obtain ⟨rfl, vs⟩ := found inv h hs
  obtain ⟨rfl, vp⟩ := found inv h hp
  obtain ⟨rfl, vo⟩ := found inv h ho
  obtain ⟨inv1, a1, h1⟩ := h.acquire L inv vs (fun i => hfresh i _) hx e1
  obtain ⟨inv2, a2, h2⟩ := h1.acquire L inv1 (fun i hi => a1.mono (vp i hi))
    (by rintro i (hi | ⟨-, hi, -⟩)
        · exact hfresh i _ hi
        · cases hi) hx e2
  obtain ⟨inv3, a3, h3⟩ := h2.acquire L inv2 (fun i hi => a2.mono (a1.mono (vo i hi)))
    (by rintro i ((hi | ⟨-, hi, -⟩) | ⟨-, hi, -⟩)
        · exact hfresh i _ hi
        · cases hi
        · cases hi) hx e3
  cases ef
  refine h3.congr ?_ (fun _ _ _ _ => rfl) ?_
  · intro i p n
    cases p <;> simp [tripleShape] <;> grind
  · intro p i
    cases p <;> simp [tripleShape, eq_comm]

/-! ### Taking a statement out -/

theorem leaveAt_absent (h : Holds ops res idx E nm M b) {a : S × Pos}
    (ha : ∀ i k, E i a.2 k → nm k ≠ some a.1) : b.leaveAt a = b := by
  have : b.records.places.findIdx? (fun o => o.any (fun y => y.2.contains a)) = none := by
    rw [List.findIdx?_eq_none_iff]
    intro o ho
    cases o with
    | none => rfl
    | some y =>
      obtain ⟨r, g⟩ := y
      obtain ⟨i, hi⟩ := List.mem_iff_getElem?.1 ho
      have hat : b.at_ i = some (r, g) := by
        unfold Book.at_
        rw [hi]
        rfl
      rw [Bool.eq_false_iff]
      intro hc
      simp only [Option.any_some, List.contains_iff_mem] at hc
      obtain ⟨k, hE, hx⟩ := (h.occ i r g hat a.1 a.2).1 hc
      exact ha i k hE hx
  unfold Book.leaveAt
  rw [this]

theorem leave_absent (h : Holds ops res idx E nm M b) {x : S} (hx : ∀ k, nm k ≠ some x) :
    b.leave x = b := by
  have := fun p => h.leaveAt_absent (a := (x, p)) (fun _ k _ => hx k)
  simp only [Book.leave, List.foldl, this]

section release3

variable {sh : Shape σ S R} {st : Slab σ} {k : Nat} {q : σ} {x : S} {r1 r2 r3 r4 : Slab ρ}
  {i1 i2 i3 i4 : Index} {b1 b2 b3 b4 : Bool} {js jp jo : Nat} {ts tp to : R}
  {cs cp co cg : Slab ρ → Nat → Res Ordering}

theorem release3 (L : ResLaws ops Rep) (inv : ResInv ops Rep res idx (sh.uses st))
    (N : Naming (sh.uses st) nm) (h : Holds ops res idx (sh.uses st) nm M b)
    (hq : st.get k = some q) (hx : nm k = some x)
    (qs : sh.comp q .subj = some js) (qp : sh.comp q .pred = some jp)
    (qo : sh.comp q .obj = some jo)
    (vs : ops.val res js = some ts) (vp : ops.val res jp = some tp) (vo : ops.val res jo = some to)
    (hs : ∀ res', ops.val res' js = some ts → ∀ l, Index.Compares (ops.val res') ts l (cs res'))
    (hp : ∀ res', ops.val res' jp = some tp → ∀ l, Index.Compares (ops.val res') tp l (cp res'))
    (ho : ∀ res', ops.val res' jo = some to → ∀ l, Index.Compares (ops.val res') to l (co res'))
    (e1 : ops.release res idx .subj k js cs = .ok (r1, i1, b1))
    (e2 : ops.release r1 i1 .pred k jp cp = .ok (r2, i2, b2))
    (e3 : ops.release r2 i2 .obj k jo co = .ok (r3, i3, b3)) :
    ResInv ops Rep r3 i3 (fun i p n => sh.uses st i p n ∧ ¬ (n = k ∧ p ≠ .graph)) ∧
    Holds ops r3 i3 (fun i p n => sh.uses st i p n ∧ ¬ (n = k ∧ p ≠ .graph)) nm
      (fun p i => M p i ∧ ¬ (p ≠ .graph ∧ sh.comp q p = some i))
      (((b.leaveAt (x, .subj)).leaveAt (x, .pred)).leaveAt (x, .obj)) ∧
    ∀ j t, ops.val res j = some t → (∃ t, ops.val r3 j = some t) → ops.val r3 j = some t := by
  have back : ∀ {res res' : Slab ρ} {idx idx' : Index} {t t' : R} {i j : Nat} {d : Bool},
      Released ops res idx t i res' idx' d → (∃ t, ops.val res' j = some t) →
      ops.val res j = some t' → ops.val res' j = some t' := by
    intro res res' idx idx' t t' i j d a hv h0
    rw [a.val] at hv ⊢
    split
    · rename_i hc
      simp [hc] at hv
    · exact h0
  have hu : ∀ {j p}, sh.comp q p = some j → sh.uses st j p k := fun hc => ⟨q, hq, hc⟩
  obtain ⟨inv1, a1, h1⟩ := h.release L inv N hs vs (hu qs) hx e1
  have N1 := N.mono (E' := fun j p n => sh.uses st j p n ∧ ¬ (j = js ∧ p = .subj ∧ n = k))
    fun i p n e => e.1
  have u2 : sh.uses st jp .pred k ∧ ¬ (jp = js ∧ Pos.pred = .subj ∧ k = k) := ⟨hu qp, by simp⟩
  have vp1 := back a1 (inv1.val_isSome_of_used u2) vp
  obtain ⟨inv2, a2, h2⟩ := h1.release L inv1 N1 hp vp1 u2 hx e2
  have N2 := N1.mono (E' := fun j p n => (sh.uses st j p n ∧ ¬ (j = js ∧ p = .subj ∧ n = k)) ∧
    ¬ (j = jp ∧ p = .pred ∧ n = k)) fun i p n e => e.1
  have u3 : (sh.uses st jo .obj k ∧ ¬ (jo = js ∧ Pos.obj = .subj ∧ k = k)) ∧
      ¬ (jo = jp ∧ Pos.obj = .pred ∧ k = k) := ⟨⟨hu qo, by simp⟩, by simp⟩
  have vo2 := back a2 (inv2.val_isSome_of_used u3)
    (back a1 (inv1.val_isSome_of_used u3.1) vo)
  obtain ⟨inv3, a3, h3⟩ := h2.release L inv2 N2 ho vo2 u3 hx e3
  have hE : ∀ i p n, (((sh.uses st i p n ∧ ¬ (i = js ∧ p = .subj ∧ n = k)) ∧
      ¬ (i = jp ∧ p = .pred ∧ n = k)) ∧ ¬ (i = jo ∧ p = .obj ∧ n = k)) ↔
      (sh.uses st i p n ∧ ¬ (n = k ∧ p ≠ .graph)) := by
    intro i p n
    constructor
    · rintro ⟨⟨⟨hi, n1⟩, n2⟩, n3⟩
      refine ⟨hi, ?_⟩
      rintro ⟨rfl, hpg⟩
      cases p with
      | subj => exact n1 ⟨N.one hi (hu qs), rfl, rfl⟩
      | pred => exact n2 ⟨N.one hi (hu qp), rfl, rfl⟩
      | obj => exact n3 ⟨N.one hi (hu qo), rfl, rfl⟩
      | graph => exact hpg rfl
    · rintro ⟨hi, hn⟩
      refine ⟨⟨⟨hi, ?_⟩, ?_⟩, ?_⟩ <;> (rintro ⟨-, rfl, rfl⟩; exact hn ⟨rfl, by simp⟩)
  refine ⟨inv3.congr L hE, h3.congr hE (fun _ _ _ _ => rfl) ?_, ?_⟩
  · intro p i
    cases p <;> simp [qs, qp, qo, eq_comm]
  · intro j t hv ⟨t', hv'⟩
    have w2 : ∃ t, ops.val r2 j = some t := by
      rw [a3.val] at hv'
      split at hv'
      · cases hv'
      · exact ⟨_, hv'⟩
    have w1 : ∃ t, ops.val r1 j = some t := by
      obtain ⟨t2, hv2⟩ := w2
      rw [a2.val] at hv2
      split at hv2
      · cases hv2
      · exact ⟨_, hv2⟩
    exact back a3 ⟨_, hv'⟩ (back a2 w2 (back a1 w1 hv))

theorem without_graph (N : Naming (sh.uses st) nm)
    (h : Holds ops r3 i3 (fun i p n => sh.uses st i p n ∧ ¬ (n = k ∧ p ≠ .graph)) nm
      (fun p i => M p i ∧ ¬ (p ≠ .graph ∧ sh.comp q p = some i))
      (((b.leaveAt (x, .subj)).leaveAt (x, .pred)).leaveAt (x, .obj)))
    (hq : st.get k = some q) (hx : nm k = some x) (hg : sh.comp q .graph = none) :
    Holds ops r3 i3 (fun i p n => sh.uses st i p n ∧ n ≠ k) nm
      (fun p i => M p i ∧ ¬ (p ≠ .graph ∧ sh.comp q p = some i)) (b.leave x) := by
  have hno : ∀ i, ¬ sh.uses st i .graph k := by
    rintro i ⟨q', hq', hc⟩
    rw [hq] at hq'
    cases hq'
    rw [hg] at hc
    cases hc
  have e : b.leave x = ((b.leaveAt (x, .subj)).leaveAt (x, .pred)).leaveAt (x, .obj) := by
    simp only [Book.leave, List.foldl]
    refine h.leaveAt_absent fun i n hu hn => ?_
    cases N.inj hn hx
    exact hno i hu.1
  rw [e]
  refine h.congr ?_ (fun _ _ _ _ => rfl) (fun _ _ => Iff.rfl)
  intro i p n
  constructor
  · rintro ⟨hu, hn⟩
    refine ⟨hu, ?_⟩
    rintro rfl
    by_cases hp : p = .graph
    · subst hp
      exact hno i hu
    · exact hn ⟨rfl, hp⟩
  · rintro ⟨hu, hn⟩
    exact ⟨hu, fun h => hn h.1⟩

theorem with_graph (L : ResLaws ops Rep) (N : Naming (sh.uses st) nm)
    (inv : ResInv ops Rep r3 i3 (fun i p n => sh.uses st i p n ∧ ¬ (n = k ∧ p ≠ .graph)))
    (h : Holds ops r3 i3 (fun i p n => sh.uses st i p n ∧ ¬ (n = k ∧ p ≠ .graph)) nm
      (fun p i => M p i ∧ ¬ (p ≠ .graph ∧ sh.comp q p = some i))
      (((b.leaveAt (x, .subj)).leaveAt (x, .pred)).leaveAt (x, .obj)))
    (hv3 : ∀ j t, ops.val res j = some t → (∃ t, ops.val r3 j = some t) → ops.val r3 j = some t)
    (hq : st.get k = some q) (hx : nm k = some x) {jg : Nat} {tg : R}
    (hg : sh.comp q .graph = some jg) (vg : ops.val res jg = some tg)
    (hc : ∀ res', ops.val res' jg = some tg → ∀ l, Index.Compares (ops.val res') tg l (cg res'))
    (e4 : ops.release r3 i3 .graph k jg cg = .ok (r4, i4, b4)) :
    Holds ops r4 i4 (fun i p n => sh.uses st i p n ∧ n ≠ k) nm
      (fun p i => M p i ∧ ¬ (sh.comp q p = some i ∧ (p ≠ .graph ∨ b4 = true))) (b.leave x) := by
  have u4 : sh.uses st jg .graph k ∧ ¬ (k = k ∧ Pos.graph ≠ .graph) := ⟨⟨q, hq, hg⟩, by simp⟩
  have N3 := N.mono (E' := fun i p n => sh.uses st i p n ∧ ¬ (n = k ∧ p ≠ .graph))
    fun i p n e => e.1
  obtain ⟨-, -, h4⟩ := h.release L inv N3 hc (hv3 jg tg vg (inv.val_isSome_of_used u4)) u4 hx e4
  refine h4.congr ?_ (fun _ _ _ _ => rfl) ?_
  · intro i p n
    constructor
    · rintro ⟨⟨hu, n1⟩, n2⟩
      refine ⟨hu, ?_⟩
      rintro rfl
      by_cases hp : p = .graph
      · subst hp
        exact n2 ⟨N.one hu u4.1, rfl, rfl⟩
      · exact n1 ⟨rfl, hp⟩
    · rintro ⟨hu, hn⟩
      exact ⟨⟨hu, fun h => hn h.1⟩, fun h => hn h.2.2⟩
  · intro p i
    cases p <;> simp [hg, eq_comm]

end release3

/-! ### Reading -/

theorem knows_iff (h : Holds ops res idx E nm M b) (inv : ResInv ops Rep res idx E)
    (hE : ∀ k x, nm k = some x → ∃ i p, E i p k) (x : S) :
    b.knows x = true ↔ ∃ k, nm k = some x := by
  unfold Book.knows
  simp only [List.any_eq_true]
  constructor
  · rintro ⟨o, ho, hy⟩
    cases o with
    | none => simp at hy
    | some y =>
      obtain ⟨r, g⟩ := y
      obtain ⟨i, hi⟩ := List.mem_iff_getElem?.1 ho
      have hat : b.at_ i = some (r, g) := by
        unfold Book.at_
        rw [hi]
        rfl
      simp only [Option.any_some, List.any_eq_true, decide_eq_true_eq] at hy
      obtain ⟨⟨y, p⟩, hm, rfl⟩ := hy
      obtain ⟨k, -, hk⟩ := (h.occ i r g hat y p).1 hm
      exact ⟨k, hk⟩
  · rintro ⟨k, hk⟩
    obtain ⟨i, p, hu⟩ := hE k x hk
    obtain ⟨r, hv⟩ := inv.val_isSome_of_used hu
    obtain ⟨g, hg⟩ := h.at_of_val hv
    refine ⟨some (r, g), ?_, ?_⟩
    · unfold Book.at_ at hg
      exact List.mem_iff_getElem?.2 ⟨i, Option.join_eq_some_iff.1 hg⟩
    · simp only [Option.any_some, List.any_eq_true, decide_eq_true_eq]
      exact ⟨(x, p), (h.occ i r g hg x p).2 ⟨k, hu, hk⟩, rfl⟩

theorem asc_filter_range {l : NatSet} (ha : l.Asc) {n : Nat} (hn : ∀ i ∈ l, i < n) {f : Nat → Bool}
    (hf : ∀ i, f i = true ↔ i ∈ l) : (List.range n).filter f = l := by
  refine List.Perm.eq_of_pairwise (le := (· ≤ ·)) (fun a b _ _ h1 h2 => Nat.le_antisymm h1 h2) ?_ ?_ ?_
  · exact (List.pairwise_le_range).filter _
  · exact ha.imp fun h => Nat.le_of_lt h
  · refine (List.perm_ext_iff_of_nodup (List.nodup_range.filter _) ha.nodup).2 fun i => ?_
    simp only [List.mem_filter, List.mem_range, hf]
    exact ⟨fun h => h.2, fun h => ⟨hn i h, h⟩⟩

theorem list_eq (h : Holds ops res idx E nm M b) {p : Pos} {l : NatSet} (hl : ∀ i, M p i ↔ i ∈ l)
    (ha : l.Asc) (hn : ∀ i ∈ l, i < res.entries.length) : b.list p = l.map (ops.val res) := by
  unfold Book.list
  rw [asc_filter_range ha (l := l) (by rw [← h.len]; exact hn) (f := b.marked p)
    (fun i => by rw [h.marks, hl])]
  exact List.map_congr_left fun i _ => (h.val i).symm

theorem reads (h : Holds ops res idx E nm M b) {p : Pos} {l : NatSet} (hl : ∀ i, M p i ↔ i ∈ l)
    (ha : l.Asc) (hn : ∀ i ∈ l, i < res.entries.length) :
    ReadsPlaces (b.list p) (ops.readResources res l) l.length := by
  have e := h.list_eq hl ha hn
  rw [e]
  refine ⟨by simp, ?_, ?_⟩
  · intro hm
    obtain ⟨i, hi, hv⟩ := List.mem_map.1 hm
    exact readResources_stale hi hv
  · intro rs hrs
    clear e hl ha hn
    induction l generalizing rs with
    | nil =>
      cases rs with
      | nil => rfl
      | cons r rs => simp at hrs
    | cons i l ih =>
      cases rs with
      | nil => simp at hrs
      | cons r rs =>
        simp only [List.map_cons, List.cons.injEq] at hrs
        have := ih rs hrs.2
        obtain ⟨v, hv, rfl⟩ := Option.map_eq_some_iff.1 hrs.1
        have e : res.index i = .ok v := by simp [Slab.index, hv]
        unfold ResOps.readResources at this ⊢
        rw [List.mapM_cons, e]
        simp only [bind, Except.bind, pure, Except.pure] at this ⊢
        rw [this]

end Holds

end RdfTypes
