import Verif.Proof.ResourceTable

/-!
# Invariant of statement tables

Shared by quads and triples: a statement stored in the slab is a tuple of
resource slots; its value is the tuple of the resources in those slots.
-/

set_option linter.unusedSectionVars false
set_option linter.unusedSimpArgs false

namespace RdfTypes

/-- Access to the components of stored statements `σ` and of statements `S`. -/
structure Shape (σ S R : Type) where
  comp : σ → Pos → Option Nat
  compV : S → Pos → Option R
  valued : (Nat → Option R) → σ → Option S

structure ShapeLaws {σ S R : Type} (sh : Shape σ S R) : Prop where
  valued_iff : ∀ {v q x}, sh.valued v q = some x ↔
    ∀ p, match sh.comp q p with
      | none => sh.compV x p = none
      | some i => ∃ r, v i = some r ∧ sh.compV x p = some r
  valued_exists : ∀ {v q}, (∀ p i, sh.comp q p = some i → ∃ r, v i = some r) →
    ∃ x, sh.valued v q = some x

variable {R ρ σ S : Type} [Ord R] [Ord S]

theorem ShapeLaws.congr {sh : Shape σ S R} (H : ShapeLaws sh) {v v' : Nat → Option R} {q : σ}
    (h : ∀ p i, sh.comp q p = some i → v' i = v i) : sh.valued v' q = sh.valued v q := by
  have key : ∀ (v v' : Nat → Option R), (∀ p i, sh.comp q p = some i → v' i = v i) →
      ∀ x, sh.valued v q = some x → sh.valued v' q = some x := by
    intro v v' h x hx
    rw [H.valued_iff] at hx ⊢
    intro p
    have := hx p
    cases hc : sh.comp q p with
    | none => simpa [hc] using this
    | some i =>
      simp only [hc] at this ⊢
      rw [h p i hc]
      exact this
  cases hv : sh.valued v q with
  | some x => exact key v v' h x hv
  | none =>
    cases hv' : sh.valued v' q with
    | none => rfl
    | some x =>
      have := key v' v (fun p i hp => (h p i hp).symm) x hv'
      rw [hv] at this
      cases this

/-- Slot `i` is used at position `p` of the statement of key `k`. -/
def Shape.uses (sh : Shape σ S R) (st : Slab σ) (i : Nat) (p : Pos) (k : Nat) : Prop :=
  ∃ q, st.get k = some q ∧ sh.comp q p = some i

/-- The value of the statement of key `k`. -/
def Shape.sval (sh : Shape σ S R) (ops : ResOps R ρ) (res : Slab ρ) (st : Slab σ) (k : Nat) :
    Option S :=
  (st.get k).bind (sh.valued (ops.val res))

/-- Invariant shared by the four containers. -/
structure Inv (sh : Shape σ S R) (ops : ResOps R ρ) (Rep : ρ → (Pos → Nat → Prop) → Prop)
    (res : Slab ρ) (ridx : Index) (st : Slab σ) (sidx : Index) : Prop where
  table : ResInv ops Rep res ridx (sh.uses st)
  wf : st.WF
  sorted : Index.Sorted (sh.sval ops res st) sidx
  mem : ∀ k, k ∈ sidx ↔ ∃ q, st.get k = some q

/-- The set of statements represented by the tables. -/
def Shape.abs (sh : Shape σ S R) (ops : ResOps R ρ) (res : Slab ρ) (st : Slab σ) (x : S) : Prop :=
  ∃ k, sh.sval ops res st k = some x

theorem Shape.uses_insert {sh : Shape σ S R} {st : Slab σ} (h : st.WF) (q : σ) (i : Nat) (p : Pos)
    (k : Nat) : sh.uses (st.insert q) i p k ↔
      sh.uses st i p k ∨ (k = st.vacantKey ∧ sh.comp q p = some i) := by
  unfold Shape.uses
  rw [Slab.get_insert h]
  by_cases hk : k = st.vacantKey
  · subst hk
    simp [Slab.get_vacantKey h]
  · simp [hk]

theorem Shape.uses_erase {sh : Shape σ S R} {st : Slab σ} (i : Nat) (p : Pos)
    (k n : Nat) : sh.uses (st.erase k) i p n ↔ sh.uses st i p n ∧ n ≠ k := by
  unfold Shape.uses
  rw [Slab.get_erase]
  by_cases hk : n = k
  · subst hk
    simp
  · simp [hk]

theorem Shape.not_uses_vacant {sh : Shape σ S R} {st : Slab σ} (h : st.WF) (i : Nat) (p : Pos) :
    ¬ sh.uses st i p st.vacantKey := by
  rintro ⟨q, hq, _⟩
  rw [Slab.get_vacantKey h] at hq
  cases hq

namespace Inv

variable {sh : Shape σ S R} {ops : ResOps R ρ} {Rep : ρ → (Pos → Nat → Prop) → Prop}
variable {res res' : Slab ρ} {ridx ridx' : Index} {st : Slab σ} {sidx sidx' : Index}

theorem empty : Inv sh ops Rep (Slab.empty : Slab ρ) [] (Slab.empty : Slab σ) [] where
  table := {
    wf := Slab.wf_empty
    sorted := Index.Sorted.nil _
    rep := by simp
    used := by simp
    unused := by
      rintro i - p k ⟨q, hq, _⟩
      simp at hq }
  wf := Slab.wf_empty
  sorted := Index.Sorted.nil _
  mem := by simp

/-- Each stored statement has a value. -/
theorem sval_exists (H : ShapeLaws sh) (h : Inv sh ops Rep res ridx st sidx) {k : Nat} {q : σ}
    (hq : st.get k = some q) : ∃ x, sh.sval ops res st k = some x := by
  obtain ⟨x, hx⟩ := H.valued_exists (v := ops.val res) (q := q) (by
    intro p i hp
    exact h.table.val_isSome_of_used (i := i) (p := p) (k := k) ⟨q, hq, hp⟩)
  exact ⟨x, by simp [Shape.sval, hq, hx]⟩

theorem mem_iff_sval (H : ShapeLaws sh) (h : Inv sh ops Rep res ridx st sidx) (k : Nat) :
    k ∈ sidx ↔ ∃ x, sh.sval ops res st k = some x := by
  rw [h.mem]
  constructor
  · rintro ⟨q, hq⟩
    exact h.sval_exists H hq
  · rintro ⟨x, hx⟩
    unfold Shape.sval at hx
    cases hg : st.get k with
    | none => simp [hg] at hx
    | some q => exact ⟨q, rfl⟩

variable [Std.TransOrd S] [Std.LawfulEqOrd S]

/-- A statement has at most one key. -/
theorem sval_inj (H : ShapeLaws sh) (h : Inv sh ops Rep res ridx st sidx) {k n : Nat} {x : S}
    (hk : sh.sval ops res st k = some x) (hn : sh.sval ops res st n = some x) : k = n :=
  h.sorted.inj ((h.mem_iff_sval H k).2 ⟨x, hk⟩) ((h.mem_iff_sval H n).2 ⟨x, hn⟩) hk hn

/-- Last step of an insertion: the resources have been acquired, giving the
table `res'`, and the statement `q` of value `x` is stored. -/
theorem insert_final (H : ShapeLaws sh) (L : ResLaws ops Rep)
    (h : Inv sh ops Rep res ridx st sidx) {q : σ} {x : S} (rep : Bool)
    {E : Nat → Pos → Nat → Prop} (hres : ResInv ops Rep res' ridx' E)
    (hE : ∀ i p k, E i p k ↔ sh.uses st i p k ∨ (k = st.vacantKey ∧ sh.comp q p = some i))
    (hmono : ∀ j r, ops.val res j = some r → ops.val res' j = some r)
    (hx : sh.valued (ops.val res') q = some x)
    (hnew : ¬ sh.abs ops res st x)
    {cmp : Nat → Res Ordering}
    (hcmp : Index.Compares (sh.sval ops res' (st.insert q)) x sidx cmp) :
    ∃ sidx', Index.insert rep cmp st.vacantKey sidx = .ok sidx' ∧
      Inv sh ops Rep res' ridx' (st.insert q) sidx' ∧
      (∀ k, sh.sval ops res' (st.insert q) k =
        if k = st.vacantKey then some x else sh.sval ops res st k) ∧
      (∀ y, sh.abs ops res' (st.insert q) y ↔ sh.abs ops res st y ∨ y = x) := by
  have hvac := Slab.get_vacantKey h.wf
  have hsv : ∀ k, sh.sval ops res' (st.insert q) k =
      if k = st.vacantKey then some x else sh.sval ops res st k := by
    intro k
    unfold Shape.sval
    rw [Slab.get_insert h.wf]
    by_cases hk : k = st.vacantKey
    · simp [hk, hx]
    · simp only [hk, if_false]
      cases hg : st.get k with
      | none => rfl
      | some q' =>
        simp only [Option.bind_some]
        refine H.congr ?_
        intro p i hp
        obtain ⟨r, hr⟩ := h.table.val_isSome_of_used (i := i) (p := p) (k := k) ⟨q', hg, hp⟩
        rw [hr]
        exact hmono i r hr
  have hnotin : st.vacantKey ∉ sidx := by
    intro hm
    obtain ⟨q', hq'⟩ := (h.mem _).1 hm
    rw [hvac] at hq'
    cases hq'
  have hso : ∀ k ∈ sidx, sh.sval ops res' (st.insert q) k = sh.sval ops res st k := by
    intro k hk
    rw [hsv]
    have : k ≠ st.vacantKey := fun e => hnotin (e ▸ hk)
    simp [this]
  have hs := h.sorted.congr hso
  obtain ⟨sidx', hins, hs', -, -, -, hmem⟩ := Index.insert_spec rep st.vacantKey hs hcmp
    (by simp [hsv])
  have hmem' := hmem (by
    intro k hk hkx
    rw [hso k hk] at hkx
    exact hnew ⟨k, hkx⟩)
  refine ⟨sidx', hins, ⟨?_, ?_, hs', ?_⟩, hsv, ?_⟩
  · refine hres.congr L ?_
    intro i p k
    rw [hE, Shape.uses_insert h.wf]
  · exact Slab.wf_insert h.wf q
  · intro k
    rw [hmem', h.mem, Slab.get_insert h.wf]
    by_cases hk : k = st.vacantKey
    · simp [hk]
    · simp [hk]
  · intro y
    unfold Shape.abs
    constructor
    · rintro ⟨k, hk⟩
      rw [hsv] at hk
      by_cases hkv : k = st.vacantKey
      · simp only [hkv, if_true, Option.some.injEq] at hk
        exact Or.inr hk.symm
      · simp only [hkv, if_false] at hk
        exact Or.inl ⟨k, hk⟩
    · rintro (⟨k, hk⟩ | rfl)
      · refine ⟨k, ?_⟩
        rw [hsv]
        have : k ≠ st.vacantKey := by
          rintro rfl
          simp [Shape.sval, hvac] at hk
        simp [this, hk]
      · exact ⟨st.vacantKey, by simp [hsv]⟩

/-- Last step of a removal: the key `k` of the statement `x` was taken from the
index, the slot emptied, and the resources released. -/
theorem remove_final (H : ShapeLaws sh) (L : ResLaws ops Rep)
    (h : Inv sh ops Rep res ridx st sidx) {k : Nat} {q : σ} {x : S}
    (hq : st.get k = some q) (hx : sh.sval ops res st k = some x)
    {E : Nat → Pos → Nat → Prop} (hres : ResInv ops Rep res' ridx' E)
    (hE : ∀ i p n, E i p n ↔ sh.uses st i p n ∧ n ≠ k)
    (hval : ∀ j, ops.val res' j = none ∨ ops.val res' j = ops.val res j)
    (hsorted : Index.Sorted (sh.sval ops res st) sidx')
    (hmem : ∀ n, n ∈ sidx' ↔ n ∈ sidx ∧ sh.sval ops res st n ≠ some x) :
    Inv sh ops Rep res' ridx' (st.erase k) sidx' ∧
      (∀ n, sh.sval ops res' (st.erase k) n = if n = k then none else sh.sval ops res st n) ∧
      (∀ y, sh.abs ops res' (st.erase k) y ↔ sh.abs ops res st y ∧ y ≠ x) := by
  have hsv : ∀ n, sh.sval ops res' (st.erase k) n =
      if n = k then none else sh.sval ops res st n := by
    intro n
    unfold Shape.sval
    rw [Slab.get_erase]
    by_cases hn : n = k
    · simp [hn]
    · simp only [hn, if_false]
      cases hg : st.get n with
      | none => rfl
      | some q' =>
        simp only [Option.bind_some]
        refine H.congr ?_
        intro p i hp
        obtain ⟨r, hr⟩ := hres.val_isSome_of_used (i := i) (p := p) (k := n)
          ((hE i p n).2 ⟨⟨q', hg, hp⟩, hn⟩)
        rcases hval i with hv | hv
        · rw [hv] at hr
          cases hr
        · exact hv
  have hne : ∀ n, n ∈ sidx' → n ≠ k := by
    rintro n hn rfl
    exact ((hmem n).1 hn).2 hx
  refine ⟨⟨?_, ?_, ?_, ?_⟩, hsv, ?_⟩
  · refine hres.congr L ?_
    intro i p n
    rw [hE, Shape.uses_erase]
  · exact Slab.wf_erase h.wf hq
  · refine hsorted.congr ?_
    intro n hn
    rw [hsv]
    simp [hne n hn]
  · intro n
    rw [hmem, h.mem, Slab.get_erase]
    by_cases hn : n = k
    · subst hn
      simp [hx]
    · simp only [hn, if_false, and_iff_left_iff_imp]
      rintro ⟨q', hq'⟩ hxn
      exact hn (h.sval_inj H hxn hx)
  · intro y
    unfold Shape.abs
    constructor
    · rintro ⟨n, hn⟩
      rw [hsv] at hn
      by_cases hnk : n = k
      · simp [hnk] at hn
      · simp only [hnk, if_false] at hn
        refine ⟨⟨n, hn⟩, ?_⟩
        rintro rfl
        exact hnk (h.sval_inj H hn hx)
    · rintro ⟨⟨n, hn⟩, hne⟩
      refine ⟨n, ?_⟩
      rw [hsv]
      have : n ≠ k := by
        rintro rfl
        rw [hx] at hn
        cases hn
        exact hne rfl
      simp [this, hn]

end Inv

/-- Reading the values of a sorted index, in order. -/
theorem Index.Sorted.mapM_spec {v : Nat → Option S} {l : Index} (h : Index.Sorted v l)
    {f : Nat → Res S} (hf : ∀ i ∈ l, ∀ x, v i = some x → f i = .ok x) :
    ∃ xs, l.mapM f = .ok xs ∧ xs.Pairwise (fun a b => compare a b = .lt) ∧
      (∀ x, x ∈ xs ↔ ∃ i, i ∈ l ∧ v i = some x) ∧ xs.length = l.length ∧
      (∀ n : Nat, xs[n]? = (l[n]?).bind v) := by
  induction l with
  | nil => exact ⟨[], rfl, List.Pairwise.nil, by simp, rfl, by simp⟩
  | cons i l ih =>
    obtain ⟨x, hx⟩ := h.defined i (by simp)
    obtain ⟨xs, hxs, hp, hm, hlen, hget⟩ := ih h.tail (fun j hj => hf j (by simp [hj]))
    refine ⟨x :: xs, ?_, ?_, ?_, by simp [hlen], ?_⟩
    · simp [List.mapM_cons, hf i (by simp) x hx, hxs, bind, Except.bind, pure, Except.pure]
    · refine List.pairwise_cons.2 ⟨?_, hp⟩
      intro y hy
      obtain ⟨j, hj, hjy⟩ := (hm y).1 hy
      exact (List.pairwise_cons.1 h.sorted).1 j hj x y hx hjy
    · intro y
      rw [List.mem_cons, hm]
      constructor
      · rintro (rfl | ⟨j, hj, hjy⟩)
        · exact ⟨i, by simp, hx⟩
        · exact ⟨j, by simp [hj], hjy⟩
      · rintro ⟨j, hj, hjy⟩
        rcases List.mem_cons.1 hj with rfl | hj
        · rw [hx] at hjy
          cases hjy
          exact Or.inl rfl
        · exact Or.inr ⟨j, hj, hjy⟩
    · intro n
      cases n with
      | zero => simp [hx]
      | succ n => simpa using hget n

end RdfTypes
