import Verif.Spec.Marks
import Verif.Proof.Found

/-! # At which positions records are listed, along histories -/

set_option linter.unusedSectionVars false
set_option linter.unusedSimpArgs false

namespace RdfTypes

open Spec Container

variable {R ρ σ S : Type} [Ord R] [Std.TransOrd R] [Std.LawfulEqOrd R] [Ord S] [Std.TransOrd S]
  [Std.LawfulEqOrd S] [DecidableEq R] [DecidableEq S]

/-- The slot holds the occurrence. -/
def Occurs (sh : Shape σ S R) (ops : ResOps R ρ) (res : Slab ρ) (st : Slab σ) (i : Nat)
    (a : S × Pos) : Prop :=
  ∃ k, sh.uses st i a.2 k ∧ sh.sval ops res st k = some a.1

section

variable {sh : Shape σ S R} {ops : ResOps R ρ} {Rep : ρ → (Pos → Nat → Prop) → Prop}
  {res res' : Slab ρ} {ridx ridx' : Index} {st st' : Slab σ} {sidx sidx' : Index} {r : R}
  {hs hs' : R → Records S}

theorem Occurs.inj (H : ShapeLaws sh) (inv : Inv sh ops Rep res ridx st sidx) {i j : Nat}
    {a : S × Pos} (hi : Occurs sh ops res st i a) (hj : Occurs sh ops res st j a) : i = j := by
  obtain ⟨k, ⟨q, hq, hc⟩, hv⟩ := hi
  obtain ⟨k', ⟨q', hq', hc'⟩, hv'⟩ := hj
  cases inv.sval_inj H hv hv'
  rw [hq] at hq'
  cases hq'
  rw [hc] at hc'
  cases hc'
  rfl

theorem Occurs.abs {i : Nat} {a : S × Pos} (hi : Occurs sh ops res st i a) :
    sh.abs ops res st a.1 := by
  obtain ⟨k, -, hv⟩ := hi
  exact ⟨k, hv⟩

/-- A slot with a value holds an occurrence. -/
theorem Occurs.of_val (H : ShapeLaws sh) (inv : Inv sh ops Rep res ridx st sidx) {i : Nat}
    (hv : ops.val res i = some r) : ∃ a, Occurs sh ops res st i a := by
  obtain ⟨p, n, hu⟩ := inv.table.used_of_val hv
  obtain ⟨x, r', hx, -, -⟩ := inv.comp_value H hu
  exact ⟨(x, p), n, hu, hx⟩

theorem Occurs.val (H : ShapeLaws sh) (inv : Inv sh ops Rep res ridx st sidx) {i : Nat}
    {a : S × Pos} (h : Occurs sh ops res st i a) : ∃ r, ops.val res i = some r := by
  obtain ⟨k, hu, -⟩ := h
  obtain ⟨x, r, -, hr, -⟩ := inv.comp_value H hu
  exact ⟨r, hr⟩

/-- The slot keeps the record of the resource. -/
structure Keeps (sh : Shape σ S R) (ops : ResOps R ρ) (res : Slab ρ) (st : Slab σ) (r : R)
    (g : List (S × Pos)) (i : Nat) : Prop where
  val : ops.val res i = some r
  mem : ∀ a, a ∈ g ↔ Occurs sh ops res st i a

theorem Recorded.keeps {h : Records S} {l : List (Nat × List (S × Pos))}
    (k : Recorded sh ops res ridx st r h l) {i : Nat} {g : List (S × Pos)} (hm : (i, g) ∈ l) :
    Keeps sh ops res st r g i :=
  ⟨(k.slots i).2 ⟨g, hm⟩, fun a => k.uses i g hm a.1 a.2⟩

theorem Keeps.inj (H : ShapeLaws sh) (inv : Inv sh ops Rep res ridx st sidx) {i j : Nat}
    {g : List (S × Pos)} (hi : Keeps sh ops res st r g i) (hj : Keeps sh ops res st r g j) :
    i = j := by
  obtain ⟨a, ha⟩ := Occurs.of_val H inv hi.val
  exact ha.inj H inv ((hj.mem a).1 ((hi.mem a).2 ha))

namespace AllRecorded

/-- The slot of a record. -/
theorem keeper (k : AllRecorded sh ops res ridx st hs) {g : List (S × Pos)}
    (hg : g ∈ (hs r).groups) : ∃ i, Keeps sh ops res st r g i := by
  obtain ⟨l, hl⟩ := k r
  rw [hl.groups] at hg
  obtain ⟨⟨i, g'⟩, hm, rfl⟩ := List.mem_map.1 hg
  exact ⟨i, hl.keeps hm⟩

/-- The record of a slot. -/
theorem kept (k : AllRecorded sh ops res ridx st hs) {i : Nat} (hv : ops.val res i = some r) :
    ∃ g ∈ (hs r).groups, Keeps sh ops res st r g i := by
  obtain ⟨l, hl⟩ := k r
  obtain ⟨g, hg⟩ := (hl.slots i).1 hv
  exact ⟨g, by rw [hl.groups]; exact List.mem_map.2 ⟨_, hg, rfl⟩, hl.keeps hg⟩

/-- Two records of one slot are the same. -/
theorem kept_unique (k : AllRecorded sh ops res ridx st hs) (H : ShapeLaws sh)
    (inv : Inv sh ops Rep res ridx st sidx) {i : Nat} {g g' : List (S × Pos)}
    (hg : g ∈ (hs r).groups) (hi : Keeps sh ops res st r g i) (hg' : g' ∈ (hs r).groups)
    (hi' : Keeps sh ops res st r g' i) : g = g' := by
  obtain ⟨l, hl⟩ := k r
  rw [hl.groups] at hg hg'
  obtain ⟨⟨j, g1⟩, hm, rfl⟩ := List.mem_map.1 hg
  obtain ⟨⟨j', g2⟩, hm', rfl⟩ := List.mem_map.1 hg'
  cases hi.inj H inv (hl.keeps hm)
  cases hi'.inj H inv (hl.keeps hm')
  simp only at hm hm' ⊢
  have hn := hl.nodup
  clear hl hg hg' hi hi'
  induction l with
  | nil => cases hm
  | cons b l ih =>
    simp only [List.map_cons, List.nodup_cons] at hn
    rcases List.mem_cons.1 hm with e | hm1
    · rcases List.mem_cons.1 hm' with e' | hm2
      · rw [← e] at e'
        cases e'
        rfl
      · subst e
        exact absurd (List.mem_map.2 ⟨_, hm2, rfl⟩) hn.1
    · rcases List.mem_cons.1 hm' with e' | hm2
      · subst e'
        exact absurd (List.mem_map.2 ⟨_, hm1, rfl⟩) hn.1
      · exact ih hm1 hm2 hn.2

/-- The occurrences in the current record. -/
theorem mem_current (k : AllRecorded sh ops res ridx st hs)
    (inv : Inv sh ops Rep res ridx st sidx) (a : S × Pos) :
    a ∈ (hs r).current ↔
      ∃ i, i ∈ ridx ∧ ops.val res i = some r ∧ Occurs sh ops res st i a := by
  obtain ⟨l, hl⟩ := k r
  have hg := hl.groups
  have hh := hl.head
  have hu := hl.unlisted
  cases e : hs r with
  | mk b gs =>
  rw [e] at hg hh hu
  cases b with
  | false =>
    simp only [Records.current, List.not_mem_nil, false_iff]
    rintro ⟨i, hi, hv, -⟩
    obtain ⟨g, hm⟩ := (hl.slots i).1 hv
    exact hu rfl i g hm hi
  | true =>
    obtain ⟨j, g, t, rfl, hj⟩ := hh rfl
    simp only [List.map_cons] at hg
    subst hg
    simp only [Records.current]
    have hk := hl.keeps (i := j) (g := g) (by simp)
    rw [hk.mem]
    constructor
    · exact fun h => ⟨j, hj, hk.val, h⟩
    · rintro ⟨i, hi, hv, h⟩
      cases inv.table.sorted.inj hi hj hv hk.val
      exact h

/-- The current record. -/
theorem current_kept (k : AllRecorded sh ops res ridx st hs) {i : Nat} (hi : i ∈ ridx)
    (inv : Inv sh ops Rep res ridx st sidx) (hv : ops.val res i = some r) :
    (hs r).current ∈ (hs r).groups ∧ Keeps sh ops res st r (hs r).current i := by
  have hm := fun a => k.mem_current (r := r) inv a
  obtain ⟨l, hl⟩ := k r
  have hlist := hl.listed_iff.2 ⟨i, hi, hv⟩
  have hg := hl.groups
  obtain ⟨j, g, t, rfl, hj⟩ := hl.head hlist
  refine ⟨?_, hv, fun a => ?_⟩
  · revert hlist hg
    cases hs r with
    | mk b gs =>
    rintro rfl rfl
    simp [Records.current]
  · rw [hm]
    constructor
    · rintro ⟨i', hi', hv', h⟩
      cases inv.table.sorted.inj hi hi' hv hv'
      exact h
    · exact fun h => ⟨i, hi, hv, h⟩

end AllRecorded

/-- The slots of the list are those of the records `M`. -/
def Marked (sh : Shape σ S R) (ops : ResOps R ρ) (res : Slab ρ) (st : Slab σ)
    (hs : R → Records S) (L : NatSet) (M : R → List (S × Pos) → Bool) : Prop :=
  ∀ r g, g ∈ (hs r).groups → ∀ i, Keeps sh ops res st r g i → (i ∈ L ↔ M r g = true)

/-- All the slots of the list have a value. -/
def Defined (ops : ResOps R ρ) (res : Slab ρ) (L : NatSet) : Prop :=
  ∀ i ∈ L, ∃ r, ops.val res i = some r

variable {L L' : NatSet} {M M' : R → List (S × Pos) → Bool}

/-! ## Insertion -/

theorem Inserted.occurs (inv : Inv sh ops Rep res ridx st sidx) {q : σ} {x : S}
    (a : Inserted sh ops Rep res st res' ridx' st' sidx' q x) {i : Nat} {b : S × Pos}
    (h : Occurs sh ops res st i b) : Occurs sh ops res' st' i b := by
  obtain ⟨k, hu, hv⟩ := h
  refine ⟨k, ?_, ?_⟩
  · rw [a.stmts]
    exact (Shape.uses_insert inv.wf q i b.2 k).2 (.inl hu)
  · rw [a.sval, if_neg, hv]
    rintro rfl
    exact Shape.not_uses_vacant inv.wf i b.2 hu

theorem Inserted.occurs_new (H : ShapeLaws sh) (inv : Inv sh ops Rep res ridx st sidx) {q : σ} {x : S}
    (a : Inserted sh ops Rep res st res' ridx' st' sidx' q x) {i : Nat} {p : Pos} :
    Occurs sh ops res' st' i (x, p) ↔ sh.comp q p = some i := by
  have hs := a.sval st.vacantKey
  rw [if_pos rfl] at hs
  constructor
  · rintro ⟨k, hu, hv⟩
    cases a.inv.sval_inj H hv hs
    rw [a.stmts] at hu
    rcases (Shape.uses_insert inv.wf q i p _).1 hu with hu | ⟨-, hc⟩
    · exact absurd hu (Shape.not_uses_vacant inv.wf i p)
    · exact hc
  · intro hc
    refine ⟨st.vacantKey, ?_, hs⟩
    rw [a.stmts]
    exact (Shape.uses_insert inv.wf q i p _).2 (.inr ⟨rfl, hc⟩)

theorem Marked.insert (H : ShapeLaws sh) (inv : Inv sh ops Rep res ridx st sidx)
    (k : AllRecorded sh ops res ridx st hs) (m : Marked sh ops res st hs L M)
    (hd : Defined ops res L) {q : σ} {x : S}
    (a : Inserted sh ops Rep res st res' ridx' st' sidx' q x) {p : Pos}
    (hL : ∀ i, i ∈ L' ↔ sh.comp q p = some i ∨ i ∈ L)
    (hM : ∀ r g, M' r g = true ↔
      (x, p) ∈ g ∨ ∃ g₀ ∈ (hs r).groups, (∀ b ∈ g₀, b ∈ g) ∧ M r g₀ = true) :
    Marked sh ops res' st' hs' L' M' := by
  intro r g hg i hi
  rw [hL, hM, hi.mem, a.occurs_new H inv]
  refine or_congr .rfl ⟨?_, ?_⟩
  · intro hm
    obtain ⟨r', hr'⟩ := hd i hm
    have := a.val H inv hr'
    rw [hi.val] at this
    cases this
    obtain ⟨g₀, hg₀, hk⟩ := k.kept hr'
    exact ⟨g₀, hg₀, fun b hb => (hi.mem b).2 (a.occurs inv ((hk.mem b).1 hb)),
      (m r g₀ hg₀ i hk).1 hm⟩
  · rintro ⟨g₀, hg₀, hsub, hm⟩
    obtain ⟨i₀, hk⟩ := k.keeper hg₀
    obtain ⟨b, hb⟩ := Occurs.of_val H inv hk.val
    cases (a.occurs inv hb).inj H a.inv ((hi.mem b).1 (hsub b ((hk.mem b).2 hb)))
    exact (m r g₀ hg₀ _ hk).2 hm

theorem Defined.insert (H : ShapeLaws sh) (inv : Inv sh ops Rep res ridx st sidx)
    (hd : Defined ops res L) {q : σ} {x : S}
    (a : Inserted sh ops Rep res st res' ridx' st' sidx' q x) {p : Pos}
    (hL : ∀ i, i ∈ L' ↔ sh.comp q p = some i ∨ i ∈ L) : Defined ops res' L' := by
  intro i hi
  rcases (hL i).1 hi with hc | hc
  · obtain ⟨r, hr, -⟩ := a.comp H inv hc
    exact ⟨r, hr⟩
  · obtain ⟨r, hr⟩ := hd i hc
    exact ⟨r, a.val H inv hr⟩

/-- A record is among those with the same occurrences and more. -/
theorem AllRecorded.sub (k : AllRecorded sh ops res ridx st hs) (H : ShapeLaws sh)
    (inv : Inv sh ops Rep res ridx st sidx) {g : List (S × Pos)} (hg : g ∈ (hs r).groups)
    (P : List (S × Pos) → Prop) :
    (∃ g₀ ∈ (hs r).groups, (∀ b ∈ g₀, b ∈ g) ∧ P g₀) ↔ P g := by
  constructor
  · rintro ⟨g₀, hg₀, hsub, hp⟩
    obtain ⟨i, hi⟩ := k.keeper hg
    obtain ⟨i₀, hk⟩ := k.keeper hg₀
    obtain ⟨b, hb⟩ := Occurs.of_val H inv hk.val
    cases hb.inj H inv ((hi.mem b).1 (hsub b ((hk.mem b).2 hb)))
    cases k.kept_unique H inv hg₀ hk hg hi
    exact hp
  · exact fun hp => ⟨g, hg, fun b hb => hb, hp⟩

/-! ## Removal -/

theorem Erased.occurs (H : ShapeLaws sh) (inv : Inv sh ops Rep res ridx st sidx) {k : Nat} {q : σ}
    {x : S} (a : Erased sh ops Rep res st res' ridx' st' sidx' k q x) (i : Nat) (b : S × Pos) :
    Occurs sh ops res' st' i b ↔ Occurs sh ops res st i b ∧ b.1 ≠ x := by
  constructor
  · rintro ⟨n, hu, hv⟩
    rw [a.stmts] at hu
    obtain ⟨hu, hn⟩ := (Shape.uses_erase i b.2 k n).1 hu
    rw [a.sval, if_neg hn] at hv
    refine ⟨⟨n, hu, hv⟩, fun e => hn ?_⟩
    rw [e] at hv
    exact inv.sval_inj H hv a.was
  · rintro ⟨⟨n, hu, hv⟩, hne⟩
    have hn : n ≠ k := by
      rintro rfl
      rw [a.was] at hv
      cases hv
      exact hne rfl
    refine ⟨n, ?_, by rw [a.sval, if_neg hn, hv]⟩
    rw [a.stmts]
    exact (Shape.uses_erase i b.2 k n).2 ⟨hu, hn⟩

theorem Erased.occurs_old (H : ShapeLaws sh) (inv : Inv sh ops Rep res ridx st sidx) {k : Nat} {q : σ}
    {x : S} (a : Erased sh ops Rep res st res' ridx' st' sidx' k q x) {i : Nat} {p : Pos} :
    Occurs sh ops res st i (x, p) ↔ sh.comp q p = some i := by
  constructor
  · rintro ⟨n, ⟨q', hq', hc⟩, hv⟩
    cases inv.sval_inj H hv a.was
    rw [a.get] at hq'
    cases hq'
    exact hc
  · exact fun hc => ⟨k, ⟨q, a.get, hc⟩, a.was⟩

/-- After some removals, the slots that stay in the list are those without property `K`. -/
theorem Marked.remove (H : ShapeLaws sh) (inv : Inv sh ops Rep res ridx st sidx)
    (inv' : Inv sh ops Rep res' ridx' st' sidx')
    (k : AllRecorded sh ops res ridx st hs) (m : Marked sh ops res st hs L M)
    (hv : ∀ i r, ops.val res' i = some r → ops.val res i = some r)
    (ho : ∀ i b, Occurs sh ops res' st' i b → Occurs sh ops res st i b)
    {K : R → List (S × Pos) → Prop}
    (hL : ∀ i r g, g ∈ (hs r).groups → Keeps sh ops res st r g i → ops.val res' i = some r →
      (i ∈ L' ↔ i ∈ L ∧ K r g))
    (hM : ∀ r g, M' r g = true ↔
      ∃ g₀ ∈ (hs r).groups, (∀ b ∈ g, b ∈ g₀) ∧ M r g₀ = true ∧ K r g₀) :
    Marked sh ops res' st' hs' L' M' := by
  intro r g hg i hi
  obtain ⟨g₀, hg₀, hk⟩ := k.kept (hv i r hi.val)
  rw [hL i r g₀ hg₀ hk hi.val, hM, m r g₀ hg₀ i hk]
  constructor
  · rintro ⟨h1, h2⟩
    exact ⟨g₀, hg₀, fun b hb => (hk.mem b).2 (ho i b ((hi.mem b).1 hb)), h1, h2⟩
  · rintro ⟨g₁, hg₁, hsub, h1, h2⟩
    obtain ⟨i₁, hk₁⟩ := k.keeper hg₁
    obtain ⟨b, hb⟩ := Occurs.of_val H inv' hi.val
    cases (ho i b hb).inj H inv ((hk₁.mem b).1 (hsub b ((hi.mem b).2 hb)))
    cases k.kept_unique H inv hg₀ hk hg₁ hk₁
    exact ⟨h1, h2⟩

/-! ## Reading the list -/

theorem readResources_count {res : Slab ρ} (r : R) :
    ∀ {l : List Nat} {rs : List R}, ops.readResources res l = .ok rs →
      rs.count r = l.countP (fun i => ops.val res i = some r) := by
  intro l
  induction l with
  | nil =>
    intro rs e
    simp [ResOps.readResources, pure, Except.pure] at e
    subst e
    rfl
  | cons i l ih =>
    intro rs e
    simp only [ResOps.readResources, List.mapM_cons, bind, Except.bind, pure, Except.pure,
      Slab.index] at e
    cases hi : res.get i with
    | none => simp [hi] at e
    | some x =>
      simp only [hi] at e
      split at e
      · cases e
      · rename_i ys hys
        simp only [Except.ok.injEq] at e
        subst e
        rw [List.count_cons, List.countP_cons, ih (rs := ys) hys]
        simp [ResOps.val, hi]

theorem Marked.lists (k : AllRecorded sh ops res ridx st hs) (m : Marked sh ops res st hs L M)
    (hd : Defined ops res L) (ha : L.Asc) :
    ∃ rs, ops.readResources res L = .ok rs ∧ L.length = rs.length ∧
      ∀ r, rs.count r = (hs r).groups.countP (M r) := by
  obtain ⟨rs, h1, h2, -, -⟩ := readResources_spec hd
  refine ⟨rs, h1, h2.symm, fun r => ?_⟩
  rw [readResources_count r h1]
  obtain ⟨l, hl⟩ := k r
  rw [hl.groups, List.countP_map, List.countP_eq_length_filter]
  have e1 : l.countP (M r ∘ fun x => x.2) = ((l.map (·.1)).filter (· ∈ L)).length := by
    rw [← List.countP_eq_length_filter, List.countP_map]
    refine List.countP_congr fun ⟨i, g⟩ hm => ?_
    have := m r g (by rw [hl.groups]; exact List.mem_map.2 ⟨_, hm, rfl⟩) i (hl.keeps hm)
    simp [this]
  rw [e1]
  refine List.Perm.length_eq ((List.perm_ext_iff_of_nodup (ha.nodup.filter _)
    (hl.nodup.filter _)).2 fun i => ?_)
  simp only [List.mem_filter, decide_eq_true_eq, List.mem_map, hl.slots]
  constructor
  · rintro ⟨h, g, hg⟩
    exact ⟨⟨_, hg, rfl⟩, h⟩
  · rintro ⟨⟨⟨j, g⟩, hg, rfl⟩, h⟩
    exact ⟨h, g, hg⟩

/-! ## What the marks say -/

section marks

variable {rep : Bool} {at_ : S → Pos → Option R} {l₀ l : List (Event S)} {p : Pos}

theorem listedAt_nil {g : List (S × Pos)} :
    listedAt rep at_ r l₀ p [] g = true ↔ ∃ x, (x, p) ∈ g := by
  simp only [listedAt, List.any_eq_true, decide_eq_true_eq]
  constructor
  · rintro ⟨⟨x, p'⟩, hm, rfl⟩
    exact ⟨x, hm⟩
  · rintro ⟨x, hm⟩
    exact ⟨_, hm, rfl⟩

theorem listedAt_added {g : List (S × Pos)} {x : S} :
    listedAt rep at_ r l₀ p (.added x :: l) g = true ↔
      ((x, p) ∈ g ∧ ∀ g₀ ∈ (recordsOf rep at_ r (l ++ l₀)).groups, (x, p) ∉ g₀) ∨
      ∃ g₀ ∈ (recordsOf rep at_ r (l ++ l₀)).groups, (∀ b ∈ g₀, b ∈ g) ∧
        listedAt rep at_ r l₀ p l g₀ = true := by
  simp only [listedAt, Bool.or_eq_true, decide_eq_true_eq, List.any_eq_true, Bool.and_eq_true]

theorem listedAt_taken {g : List (S × Pos)} {xs : List S} :
    listedAt rep at_ r l₀ p (.taken xs :: l) g = true ↔
      ∃ g₀ ∈ (recordsOf rep at_ r (l ++ l₀)).groups, (∀ b ∈ g, b ∈ g₀) ∧
        listedAt rep at_ r l₀ p l g₀ = true ∧ ∀ x ∈ xs, (x, p) ∉ g₀ := by
  simp only [listedAt, decide_eq_true_eq, List.any_eq_true, Bool.and_eq_true, and_assoc]

theorem named_nil {g : List (S × Pos)} :
    named rep at_ r l₀ [] g = true ↔ ∃ x, (x, .graph) ∈ g := by
  simp only [named, List.any_eq_true, decide_eq_true_eq]
  constructor
  · rintro ⟨⟨x, p'⟩, hm, rfl⟩
    exact ⟨x, hm⟩
  · rintro ⟨x, hm⟩
    exact ⟨_, hm, rfl⟩

theorem named_added {g : List (S × Pos)} {x : S} :
    named rep at_ r l₀ (.added x :: l) g = true ↔ (x, .graph) ∈ g ∨
      ∃ g₀ ∈ (recordsOf rep at_ r (l ++ l₀)).groups, (∀ b ∈ g₀, b ∈ g) ∧
        named rep at_ r l₀ l g₀ = true := by
  simp only [named, Bool.or_eq_true, decide_eq_true_eq, List.any_eq_true, Bool.and_eq_true]

theorem named_taken {g : List (S × Pos)} {xs : List S} :
    named rep at_ r l₀ (.taken xs :: l) g = true ↔
      ∃ g₀ ∈ (recordsOf rep at_ r (l ++ l₀)).groups, (∀ b ∈ g, b ∈ g₀) ∧
        named rep at_ r l₀ l g₀ = true := by
  simp only [named, decide_eq_true_eq, List.any_eq_true, Bool.and_eq_true]

end marks

/-- A list of all the slots used at a position. -/
theorem Marked.start (H : ShapeLaws sh) (inv : Inv sh ops Rep res ridx st sidx) {p : Pos}
    (ps : PosSet sh st p L) (pf : PosFull sh st p L)
    (hM : ∀ r g, M r g = true ↔ ∃ x, (x, p) ∈ g) : Marked sh ops res st hs L M := by
  intro r g _ i hi
  rw [hM]
  constructor
  · intro hm
    obtain ⟨k, hu⟩ := ps.sound i hm
    obtain ⟨x, -, hx, -, -⟩ := inv.comp_value H hu
    exact ⟨x, (hi.mem _).2 ⟨k, hu, hx⟩⟩
  · rintro ⟨x, hx⟩
    obtain ⟨k, hu, -⟩ := (hi.mem _).1 hx
    exact pf i k hu

end

variable {rep : Bool} {l₀ l : List (Event S)}

namespace IndexedBTreeDataset

variable {d d' : IndexedBTreeDataset R} {l₀ l : List (Event (Quad R))}

/-- The slot holds the occurrence. -/
abbrev Occ (d : IndexedBTreeDataset R) (i : Nat) (a : Quad R × Pos) : Prop :=
  Occurs (quadShape R) (indexOps R) d.resources d.quads i a

/-- The slots listed at a position. -/
abbrev MarkedAt (d : IndexedBTreeDataset R) (hs : R → Records (Quad R)) (p : Pos)
    (M : R → List (Quad R × Pos) → Bool) : Prop :=
  Marked (quadShape R) (indexOps R) d.resources d.quads hs (d.posSet p) M

theorem since_events (h : Since (DatasetStart rep) (DatasetCall rep) d l₀ l) :
    DatasetEvents rep d (l ++ l₀) := by
  induction h with
  | start h =>
    cases h with
    | new => exact .new
    | convert h e => exact .convert h e
  | call _ c ih =>
    cases c with
    | insert e => exact .insert ih e
    | remove e => exact .remove ih e
    | removeGraph e hx => exact .removeGraph ih e hx
    | extract hc e => exact .extract ih hc e

theorem events_since {m : List (Event (Quad R))} (h : DatasetEvents rep d m) :
    ∃ l₀ l, m = l ++ l₀ ∧ Since (DatasetStart rep) (DatasetCall rep) d l₀ l := by
  induction h with
  | new => exact ⟨[], [], rfl, .start .new⟩
  | @convert g l d h e => exact ⟨l, [], rfl, .start (.convert h e)⟩
  | insert _ e ih =>
    obtain ⟨l₀, l, rfl, hs⟩ := ih
    exact ⟨l₀, _ :: l, rfl, .call hs (.insert e)⟩
  | remove _ e ih =>
    obtain ⟨l₀, l, rfl, hs⟩ := ih
    exact ⟨l₀, _ :: l, rfl, .call hs (.remove e)⟩
  | removeGraph _ e hx ih =>
    obtain ⟨l₀, l, rfl, hs⟩ := ih
    exact ⟨l₀, _ :: l, rfl, .call hs (.removeGraph e hx)⟩
  | extract _ hc e ih =>
    obtain ⟨l₀, l, rfl, hs⟩ := ih
    exact ⟨l₀, _ :: l, rfl, .call hs (.extract hc e)⟩

/-! ### Removals -/

theorem Removed.occ {xs : List (Quad R)} (h : Removed d xs d') (i : Nat) (b : Quad R × Pos) :
    d.WF → (d'.Occ i b ↔ d.Occ i b ∧ b.1 ∉ xs) := by
  induction h with
  | nil => simp
  | cons a _ ih =>
    intro hw
    rw [ih a.wf, Occ, a.erased.occurs quadShape_laws hw.inv]
    simp [and_assoc]

theorem Removed.val {xs : List (Quad R)} (h : Removed d xs d') {i : Nat} {r : R} :
    d.WF → (indexOps R).val d'.resources i = some r → (indexOps R).val d.resources i = some r := by
  induction h with
  | nil => exact fun _ h => h
  | cons a _ ih => exact fun hw hv => a.erased.val quadShape_laws hw.inv (ih a.wf hv)

theorem RemovedAt.posSet {k : Nat} {q : Quad Nat} {x : Quad R} (hw : d.WF)
    (a : RemovedAt d k q x d') {p : Pos} (hp : p ≠ .graph) (i : Nat) :
    i ∈ d'.posSet p ↔ i ∈ d.posSet p ∧ ¬ d.Occ i (x, p) := by
  rw [Occ, a.erased.occurs_old quadShape_laws hw.inv]
  cases p
  · simp only [IndexedBTreeDataset.posSet, a.subjects, NatSet.mem_remove, quadShape, Option.some.injEq, ne_eq, eq_comm]
  · simp only [IndexedBTreeDataset.posSet, a.predicates, NatSet.mem_remove, quadShape, Option.some.injEq, ne_eq, eq_comm]
  · simp only [IndexedBTreeDataset.posSet, a.objects, NatSet.mem_remove, quadShape, Option.some.injEq, ne_eq, eq_comm]
  · exact (hp rfl).elim

theorem Removed.posSet {xs : List (Quad R)} (h : Removed d xs d') {p : Pos} (hp : p ≠ .graph)
    (i : Nat) : d.WF → (i ∈ d'.posSet p ↔ i ∈ d.posSet p ∧ ∀ y ∈ xs, ¬ d.Occ i (y, p)) := by
  induction h with
  | nil => simp
  | cons a _ ih =>
    intro hw
    rw [ih a.wf, a.posSet hw hp, and_assoc]
    refine and_congr .rfl ?_
    simp only [List.forall_mem_cons]
    refine and_congr_right fun hx => forall_congr' fun y => forall_congr' fun _ => not_congr ?_
    rw [Occ, a.erased.occurs quadShape_laws hw.inv]
    exact ⟨And.left, fun h => ⟨h, by rintro rfl; exact hx h⟩⟩

/-- The quads taken out by a call. -/
theorem call_taken (hw : d.WF) {xs : List (Quad R)} (c : DatasetCall rep d (.taken xs) d') :
    ∃ ys, Removed d ys d' ∧ ∀ y, d.abs y → (y ∈ ys ↔ y ∈ xs) := by
  cases c with
  | @remove _ x b e =>
    rcases remove_core hw x with ⟨k, q, d1, e1, a⟩ | ⟨e1, hx⟩
    · rw [e] at e1
      cases e1
      exact ⟨[x], .cons a (.nil _), fun _ _ => .rfl⟩
    · rw [e] at e1
      cases e1
      refine ⟨[], .nil _, fun y hy => ?_⟩
      simp only [List.not_mem_nil, List.mem_singleton, false_iff]
      rintro rfl
      exact hx hy
  | @removeGraph _ g out _ e hxs =>
    obtain ⟨d1, out1, e1, gr⟩ := removeGraph_spec rep hw g
    rw [e] at e1
    cases e1
    obtain ⟨ys, hr, hys⟩ := gr.taken
    exact ⟨ys, hr, fun y _ => (hys y).trans (hxs y).symm⟩
  | @extract _ pat cap n _ ended hcap e =>
    obtain ⟨d1, out1, ended1, e1, hr, -⟩ := extractPatternMatching_spec hw hcap pat n
    rw [e] at e1
    cases e1
    exact ⟨xs, hr, fun _ _ => .rfl⟩

/-! ### Along histories -/

theorem since_marked {p : Pos} (hp : p ≠ .graph)
    (h : Since (DatasetStart rep) (DatasetCall rep) d l₀ l) :
    d.MarkedAt (fun r => recordsOf rep quadAt r (l ++ l₀)) p
      (fun r g => listedAt rep quadAt r l₀ p l g) := by
  induction h with
  | @start d l₀ h =>
    have hw := (events_follow (since_events (.start h))).1
    cases h with
    | new =>
      intro r g hg
      simp [recordsOf, Records.none] at hg
    | convert h e =>
      obtain ⟨hw', -⟩ := BTreeDataset.events_follow h
      obtain ⟨d1, e1, -, fl, -⟩ := fromNonIndexed_spec hw'
      rw [e] at e1
      cases e1
      have hfull : PosFull (quadShape R) d.quads p (d.posSet p) := by
        cases p
        · exact fl.subj
        · exact fl.pred
        · exact fl.obj
        · exact (hp rfl).elim
      exact Marked.start quadShape_laws hw.inv (posSet_sound hw hp) hfull fun r g => listedAt_nil
  | @call d d' l₀ l e h c ih =>
    obtain ⟨hw, k⟩ := events_follow (since_events h)
    have hw' := (events_follow (since_events (.call h c))).1
    cases e with
    | added x =>
      cases c with
      | insert e =>
      rcases insert_tables hw e with ⟨hx, rfl⟩ | ⟨hx, q, a, h1, h2, h3, -⟩
      · intro r g hg i hi
        have hg' : g ∈ (recordsOf rep quadAt r (l ++ l₀)).groups := by
          obtain ⟨m, hm⟩ := k r
          have := hm.enter_known quadShape_laws hw.inv hx rep
          rw [quadShape_compV] at this
          simp only [List.cons_append, recordsOf] at hg
          rwa [this] at hg
        rw [ih r g hg' i hi, listedAt_added,
          AllRecorded.sub k quadShape_laws hw.inv hg' (fun g => listedAt rep quadAt r l₀ p l g = true)]
        refine ⟨Or.inr, ?_⟩
        rintro (⟨h1, h2⟩ | h)
        · exact absurd h1 (h2 g hg')
        · exact h
      · refine Marked.insert quadShape_laws hw.inv k ih
          ((posSet_sound hw hp).defined quadShape_laws hw.inv) a (p := p) ?_ ?_
        · intro i
          cases p
          · simp only [posSet, h1, NatSet.mem_insert, quadShape, Option.some.injEq, eq_comm]
          · simp only [posSet, h2, NatSet.mem_insert, quadShape, Option.some.injEq, eq_comm]
          · simp only [posSet, h3, NatSet.mem_insert, quadShape, Option.some.injEq, eq_comm]
          · exact (hp rfl).elim
        · intro r g
          rw [listedAt_added]
          refine or_congr ⟨And.left, fun hm => ⟨hm, fun g₀ hg₀ hm' => hx ?_⟩⟩ .rfl
          obtain ⟨i, hi⟩ := k.keeper hg₀
          exact ((hi.mem _).1 hm').abs
    | taken xs =>
      obtain ⟨ys, hr, hys⟩ := call_taken hw c
      refine Marked.remove quadShape_laws hw.inv hw'.inv k ih (fun i r => hr.val hw)
        (fun i b hb => ((hr.occ i b hw).1 hb).1) (K := fun r g => ∀ x ∈ xs, (x, p) ∉ g) ?_
        (fun r g => listedAt_taken)
      intro i r g hg hi _
      rw [hr.posSet hp i hw]
      refine and_congr .rfl ⟨?_, ?_⟩
      · intro h x hx hm
        have ho := (hi.mem _).1 hm
        exact h x ((hys x ho.abs).2 hx) ho
      · intro h y hy ho
        exact h y ((hys y ho.abs).1 hy) ((hi.mem _).2 ho)

theorem since_lists {p : Pos} (hp : p ≠ .graph)
    (h : Since (DatasetStart rep) (DatasetCall rep) d l₀ l) :
    ListsRecords rep quadAt (fun r => listedAt rep quadAt r l₀ p l) (l ++ l₀)
      ((indexOps R).readResources d.resources (d.posSet p)) (d.posSet p).length := by
  obtain ⟨hw, k⟩ := events_follow (since_events h)
  have ps := posSet_sound hw hp
  exact Marked.lists k (since_marked hp h) (ps.defined quadShape_laws hw.inv) ps.asc

/-! ### Graph names -/

theorem Removed.named_sub {xs : List (Quad R)} (h : Removed d xs d') {i : Nat}
    (hi : i ∈ d'.namedGraphs) : i ∈ d.namedGraphs := by
  induction h with
  | nil => exact hi
  | cons a _ ih => exact ((a.namedMem i).1 (ih hi)).1

/-- A slot that keeps a value stays in the list. -/
theorem Removed.named_val {xs : List (Quad R)} (h : Removed d xs d') {i : Nat} {r : R} :
    d.WF → (indexOps R).val d'.resources i = some r →
    (i ∈ d'.namedGraphs ↔ i ∈ d.namedGraphs) := by
  induction h with
  | nil => exact fun _ _ => .rfl
  | cons a t ih =>
    intro hw hv
    rw [ih a.wf hv, a.namedMem i, t.val a.wf hv]
    simp

/-- A slot that holds its quads as graph name leaves the list with its last quad. -/
theorem Removed.named_gone {xs : List (Quad R)} (h : Removed d xs d') {i : Nat} {r : R} :
    d.WF → (indexOps R).val d.resources i = some r → (indexOps R).val d'.resources i = none →
    (∀ a, d.Occ i a → d.Occ i (a.1, .graph)) → i ∉ d'.namedGraphs := by
  induction h with
  | nil =>
    intro _ h1 h2
    rw [h1] at h2
    cases h2
  | @cons d k q x d₁ xs d' a t ih =>
    intro hw hv hv' hg
    cases hv1 : (indexOps R).val d₁.resources i with
    | none =>
      intro hm
      have hm1 := ((a.namedMem i).1 (t.named_sub hm)).2
      obtain ⟨b, hb⟩ := Occurs.of_val quadShape_laws hw.inv hv
      have hbx : b.1 = x := by
        refine Classical.byContradiction fun hne => ?_
        obtain ⟨r', hr'⟩ := Occurs.val quadShape_laws a.wf.inv
          ((a.erased.occurs quadShape_laws hw.inv i b).2 ⟨hb, hne⟩)
        rw [hv1] at hr'
        cases hr'
      have := hg b hb
      rw [hbx] at this
      exact hm1 ⟨(a.erased.occurs_old quadShape_laws hw.inv).1 this, hv1⟩
    | some r' =>
      refine ih a.wf ?_ hv' ?_
      · rw [hv1, ← a.erased.val quadShape_laws hw.inv hv1, hv]
      · intro b hb
        obtain ⟨hb, hne⟩ := (a.erased.occurs quadShape_laws hw.inv i b).1 hb
        exact (a.erased.occurs quadShape_laws hw.inv i _).2 ⟨hg b hb, hne⟩

/-- A slot that holds no quad as graph name stays in the list. -/
theorem Removed.named_stays {xs : List (Quad R)} (h : Removed d xs d') {i : Nat} :
    d.WF → i ∈ d.namedGraphs → (∀ y, ¬ d.Occ i (y, .graph)) → i ∈ d'.namedGraphs := by
  induction h with
  | nil => exact fun _ h _ => h
  | @cons d k q x d₁ xs d' a t ih =>
    intro hw hi hg
    refine ih a.wf ((a.namedMem i).2 ⟨hi, fun hq => ?_⟩) ?_
    · exact hg x ((a.erased.occurs_old quadShape_laws hw.inv).2 hq.1)
    · intro y hy
      exact hg y ((a.erased.occurs quadShape_laws hw.inv i _).1 hy).1

theorem since_named (h : Since (DatasetStart rep) (DatasetCall rep) d l₀ l) :
    EmptiedAsName rep quadAt l₀ l →
    Defined (indexOps R) d.resources d.namedGraphs ∧
    d.MarkedAt (fun r => recordsOf rep quadAt r (l ++ l₀)) .graph
      (fun r g => named rep quadAt r l₀ l g) := by
  induction h with
  | @start d l₀ h =>
    intro _
    have hw := (events_follow (since_events (.start h))).1
    cases h with
    | new =>
      refine ⟨fun i hi => (List.not_mem_nil hi).elim, ?_⟩
      intro r g hg
      simp [recordsOf, Records.none] at hg
    | convert h e =>
      obtain ⟨hw', -⟩ := BTreeDataset.events_follow h
      obtain ⟨d1, e1, -, fl, -⟩ := fromNonIndexed_spec hw'
      rw [e] at e1
      cases e1
      exact ⟨fl.named.defined quadShape_laws hw.inv,
        Marked.start quadShape_laws hw.inv fl.named hw.named fun r g => named_nil⟩
  | @call d d' l₀ l e h c ih =>
    obtain ⟨hw, k⟩ := events_follow (since_events h)
    have hw' := (events_follow (since_events (.call h c))).1
    cases e with
    | added x =>
      intro hE
      obtain ⟨hd, m⟩ := ih hE
      cases c with
      | insert e =>
      rcases insert_tables hw e with ⟨hx, rfl⟩ | ⟨hx, q, a, -, -, -, h4⟩
      · refine ⟨hd, ?_⟩
        intro r g hg i hi
        have hg' : g ∈ (recordsOf rep quadAt r (l ++ l₀)).groups := by
          obtain ⟨m, hm⟩ := k r
          have := hm.enter_known quadShape_laws hw.inv hx rep
          rw [quadShape_compV] at this
          simp only [List.cons_append, recordsOf] at hg
          rwa [this] at hg
        rw [named_added,
          AllRecorded.sub k quadShape_laws hw.inv hg' (fun g => named rep quadAt r l₀ l g = true),
          ← m r g hg' i hi]
        refine ⟨Or.inr, ?_⟩
        rintro (h1 | h1)
        · obtain ⟨n, hu, -⟩ := (hi.mem _).1 h1
          exact hw.named i n hu
        · exact h1
      · have hL : ∀ i, i ∈ d'.namedGraphs ↔ (quadShape R).comp q .graph = some i ∨ i ∈ d.namedGraphs := by
          intro i
          rw [h4]
          cases hq : q.g with
          | none => simp [quadShape, hq]
          | some j => simp only [NatSet.mem_insert, quadShape, hq, Option.some.injEq, eq_comm]
        exact ⟨hd.insert quadShape_laws hw.inv a hL,
          Marked.insert quadShape_laws hw.inv k m hd a hL fun r g => named_added⟩
    | taken xs =>
      rintro ⟨hE, hlast⟩
      obtain ⟨hd, m⟩ := ih hE
      obtain ⟨ys, hr, hys⟩ := call_taken hw c
      refine ⟨?_, ?_⟩
      · intro i hi
        have hi0 := hr.named_sub hi
        obtain ⟨r, hv⟩ := hd i hi0
        cases hv' : (indexOps R).val d'.resources i with
        | some r' => exact ⟨r', rfl⟩
        | none =>
          exfalso
          obtain ⟨g, hg, hk⟩ := k.kept hv
          have hall : ∀ a ∈ g, a.1 ∈ xs := by
            intro a ha
            have ho := (hk.mem a).1 ha
            refine (hys _ ho.abs).1 (Classical.byContradiction fun hn => ?_)
            obtain ⟨r', hr'⟩ := Occurs.val quadShape_laws hw'.inv ((hr.occ i a hw).2 ⟨ho, hn⟩)
            rw [hv'] at hr'
            cases hr'
          have := hlast r g hg ((m r g hg i hk).1 hi0) hall
          exact hr.named_gone hw hv hv' (fun a ha => (hk.mem _).1 (this a ((hk.mem _).2 ha))) hi
      · refine Marked.remove quadShape_laws hw.inv hw'.inv k m (fun i r => hr.val hw)
          (fun i b hb => ((hr.occ i b hw).1 hb).1) (K := fun r g => True) ?_
          (fun r g => by rw [named_taken]; simp)
        intro i r g hg hi hv
        simp only [and_true]
        exact hr.named_val hw hv

theorem since_names (h : Since (DatasetStart rep) (DatasetCall rep) d l₀ l)
    (hE : EmptiedAsName rep quadAt l₀ l) :
    ListsRecords rep quadAt (fun r => named rep quadAt r l₀ l) (l ++ l₀) d.namedGraphList
      d.namedGraphCount := by
  obtain ⟨hw, k⟩ := events_follow (since_events h)
  obtain ⟨hd, m⟩ := since_named h hE
  exact Marked.lists k m hd hw.namedAsc

theorem since_stale {e : Event (Quad R)} (h : Since (DatasetStart rep) (DatasetCall rep) d l₀ (e :: l))
    (hE : EmptiedAsName rep quadAt l₀ l) (hO : EmptiedOtherwise rep quadAt l₀ (e :: l)) :
    d.namedGraphList = .error .invalidKey := by
  cases e with
  | added x => exact hO.elim
  | taken xs =>
    cases h with
    | @call d₀ _ _ _ _ h c =>
    obtain ⟨r, g, hg, hn, hall, hno⟩ := hO
    obtain ⟨hw, k⟩ := events_follow (since_events h)
    have hw' := (events_follow (since_events (.call h c))).1
    obtain ⟨hd, m⟩ := since_named h hE
    obtain ⟨i, hi⟩ := k.keeper hg
    obtain ⟨ys, hr, hys⟩ := call_taken hw c
    have hm := (m r g hg i hi).2 hn
    refine readResources_stale (hr.named_stays hw hm fun y hy => ?_) ?_
    · exact hno (y, .graph) ((hi.mem _).2 hy) ((hi.mem _).2 hy)
    · cases hv : (indexOps R).val d.resources i with
      | none => rfl
      | some r' =>
        obtain ⟨a, ha⟩ := Occurs.of_val quadShape_laws hw'.inv hv
        obtain ⟨ha, hna⟩ := (hr.occ i a hw).1 ha
        exact absurd ((hys _ ha.abs).2 (hall a ((hi.mem a).2 ha))) hna

/-- A vacant slot in the list stays there, and stays vacant unless a new term needs a slot. -/
theorem panic_stays {m : List (Event (Quad R))} (h : DatasetEvents rep d m) {p : Panic}
    (hp : d.namedGraphList = .error p) {e : Event (Quad R)} (c : DatasetCall rep d e d')
    (hc : ∀ x, e = .added x → d.abs x ∨
      ∀ pos r, quadAt x pos = some r → (recordsOf rep quadAt r m).listed = true) :
    d'.namedGraphList = .error .invalidKey := by
  obtain ⟨hw, k⟩ := events_follow h
  have hstale : ∃ i ∈ d.namedGraphs, (indexOps R).val d.resources i = none := by
    refine Classical.byContradiction fun hno => ?_
    obtain ⟨rs, e1, -⟩ := readResources_spec (ops := indexOps R) (res := d.resources)
      (l := d.namedGraphs) fun i hi => by
        cases hv : (indexOps R).val d.resources i with
        | none => exact (hno ⟨i, hi, hv⟩).elim
        | some r => exact ⟨r, rfl⟩
    rw [namedGraphList, e1] at hp
    cases hp
  obtain ⟨i, hi, hv⟩ := hstale
  have hocc : ∀ b, ¬ d.Occ i b := fun b hb => by
    obtain ⟨r, hr⟩ := Occurs.val quadShape_laws hw.inv hb
    rw [hv] at hr
    cases hr
  have hdone : ∀ (hw' : d'.WF), i ∈ d'.namedGraphs → (∀ b, ¬ d'.Occ i b) →
      d'.namedGraphList = .error .invalidKey := by
    intro hw' hi' ho
    refine readResources_stale hi' ?_
    cases hv' : (indexOps R).val d'.resources i with
    | none => rfl
    | some r' =>
      obtain ⟨b, hb⟩ := Occurs.of_val quadShape_laws hw'.inv hv'
      exact absurd hb (ho b)
  cases e with
  | taken xs =>
    obtain ⟨ys, hr, -⟩ := call_taken hw c
    have hw' : d'.WF := hr.wf hw
    exact hdone hw' (hr.named_stays hw hi fun y => hocc _) fun b hb => hocc b ((hr.occ i b hw).1 hb).1
  | added x =>
    cases c with
    | insert e =>
    have hall := hc x rfl
    obtain ⟨hw', k'⟩ := events_follow (.insert h e)
    rcases insert_tables hw e with ⟨hx, rfl⟩ | ⟨hx, q, a, -, -, -, h4⟩
    · exact readResources_stale hi hv
    · refine hdone hw' ?_ ?_
      · rw [h4]
        cases q.g with
        | none => exact hi
        | some g => exact (NatSet.mem_insert ..).2 (.inr hi)
      · intro b hb
        obtain ⟨r, hr⟩ := Occurs.val quadShape_laws hw'.inv hb
        obtain ⟨g, hg, hk⟩ := k'.kept hr
        obtain ⟨-, hne, hold⟩ := k.occurrences quadShape_laws hw.inv r
        have old : ∀ g₀ ∈ (recordsOf rep quadAt r m).groups, ∀ y p, (y, p) ∈ g₀ → y ≠ x := by
          rintro g₀ hg₀ y p hy rfl
          exact hx ((hold y p).1 (List.mem_flatten.2 ⟨g₀, hg₀, hy⟩)).1
        have new : ∀ y p, (y, p) ∈ g → y = x := by
          intro y p hy
          obtain ⟨n, hu, hs⟩ := (hk.mem _).1 hy
          rw [a.sval] at hs
          split at hs
          · cases hs
            rfl
          · next hn =>
            rw [a.stmts] at hu
            rcases (Shape.uses_insert hw.inv.wf q i p n).1 hu with hu | ⟨rfl, -⟩
            · exact (hocc (y, p) ⟨n, hu, hs⟩).elim
            · exact (hn rfl).elim
        have hb' := (hk.mem _).2 hb
        obtain rfl := new b.1 b.2 hb'
        have hlisted := hall.resolve_left hx b.2 r (by
          have := (((k'.occurrences quadShape_laws hw'.inv r).2.2 b.1 b.2).1
            (List.mem_flatten.2 ⟨g, hg, hb'⟩)).2
          rwa [quadShape_compV] at this)
        have hhead : (recordsOf rep quadAt r m).groups ≠ [] := by
          obtain ⟨l, hl⟩ := k r
          obtain ⟨j, g₀, t, rfl, -⟩ := hl.head hlisted
          rw [hl.groups]
          simp
        simp only [recordsOf] at hg
        generalize recordsOf rep quadAt r m = rc at *
        unfold Records.enter at hg
        split at hg
        · exact old g hg _ _ hb' rfl
        · split at hg
          · next g₀ gs _ =>
            rcases List.mem_cons.1 hg with rfl | hg
            · cases g₀ with
              | nil => exact hne [] (by simp) rfl
              | cons a₀ g₀ =>
                exact old (a₀ :: g₀) (by simp) a₀.1 a₀.2 (by simp) (new a₀.1 a₀.2 (by simp))
            · exact old g (by simp [hg]) _ _ hb' rfl
          · next l gs hno _ =>
            simp only at hlisted
            subst hlisted
            cases gs with
            | nil => exact hhead rfl
            | cons g₀ gs => exact hno g₀ gs rfl rfl

/-! ### Removal of a graph -/

theorem removeGraph_slots (rep : Bool) (h : d.WF) (g : R) {C : Quad R → Prop}
    (hC : ∀ y, C y ↔ ∃ i, i ∈ d.resourcesIndexes ∧ (indexOps R).val d.resources i = some g ∧
      d.Occ i (y, .graph)) :
    ∃ d' out, d.removeGraph rep (some g) = .ok (d', out) ∧ d'.WF ∧
      (out = none → ∀ y, ¬ C y) ∧
      (∀ gr, out = some gr → gr.WF ∧ ∀ t, gr.abs t ↔ C (t.intoQuad (some g))) ∧
      (∀ y, d'.abs y ↔ d.abs y ∧ ¬ C y) ∧
      (out.isSome = true ↔ ∃ i, i ∈ d.resourcesIndexes ∧
        (indexOps R).val d.resources i = some g ∧ i ∈ d.namedGraphs) := by
  obtain ⟨o, eo, ho⟩ := h.inv.table.indexOf_spec g
  have eo' : d.indexOfResource g = .ok o := eo
  have none_case : (∀ i, o = some i → i ∉ d.namedGraphs) → (∀ y, ¬ C y) ∧
      ¬ ∃ i, i ∈ d.resourcesIndexes ∧ (indexOps R).val d.resources i = some g ∧
        i ∈ d.namedGraphs := by
    intro hno
    refine ⟨fun y hy => ?_, ?_⟩
    · obtain ⟨i, hi, hv, n, hu, -⟩ := (hC y).1 hy
      exact hno i ((ho i).2 ⟨hi, hv⟩) (h.named i n hu)
    · rintro ⟨i, hi, hv, hm⟩
      exact hno i ((ho i).2 ⟨hi, hv⟩) hm
  cases o with
  | none =>
    obtain ⟨h1, h2⟩ := none_case (by simp)
    exact ⟨d, none, by simp [removeGraph, eo', bind, Except.bind, pure, Except.pure], h,
      fun _ => h1, by simp, by simp [h1], by simpa using h2⟩
  | some gi =>
    obtain ⟨hgi, hgv⟩ := (ho gi).1 rfl
    by_cases hm : gi ∈ d.namedGraphs
    · have hgv' := hgv
      unfold ResOps.val at hgv'
      rw [Option.map_eq_some_iff] at hgv'
      obtain ⟨x, hx, hxv⟩ := hgv'
      have hrep := h.inv.table.rep gi x hx .graph
      have hkeys : ∀ y, (∃ k, k ∈ x.asGraph ∧ d.sval k = some y) ↔ C y := by
        intro y
        rw [hC]
        constructor
        · rintro ⟨k, hk, hy⟩
          exact ⟨gi, hgi, hgv, k, (hrep.2 k).1 hk, hy⟩
        · rintro ⟨i, hi, hv, k, hu, hy⟩
          cases h.inv.table.sorted.inj hi hgi hv hgv
          exact ⟨k, (hrep.2 k).2 hu, hy⟩
      have hname : ∀ y, C y → y.g = some g := by
        intro y hy
        obtain ⟨i, hi, hv, k, hu, hy⟩ := (hC y).1 hy
        obtain ⟨y', r, h1, h2, h3⟩ := h.inv.comp_value quadShape_laws hu
        have h1' : some y' = some y := h1.symm.trans hy
        cases h1'
        rw [hv] at h2
        cases h2
        exact h3
      have hgw : (BTreeGraph.new : BTreeGraph R).WF := Inv.empty
      have hnd : x.asGraph.Nodup := hrep.1.nodup
      obtain ⟨d', g', e, w1, w2, a1, a2, -⟩ := removeGraphLoop_spec rep h hgw hnd (by
          intro k hk
          obtain ⟨q, hq, -⟩ := (hrep.2 k).1 hk
          exact h.inv.sval_exists quadShape_laws hq)
      refine ⟨d', some g', ?_, w1, by simp, ?_, ?_, ?_⟩
      · simp only [removeGraph, eo', bind, Except.bind, pure, Except.pure,
          List.contains_iff_mem, hm, if_true, Slab.index, hx, e]
      · rintro gr hgr
        cases hgr
        refine ⟨w2, fun t => ?_⟩
        rw [a2, ← hkeys]
        constructor
        · rintro (⟨k, hk⟩ | ⟨k, y, hk, hy, rfl⟩)
          · simp [Shape.sval, BTreeGraph.new] at hk
          · have := hname y ((hkeys y).1 ⟨k, hk, hy⟩)
            refine ⟨k, hk, ?_⟩
            rw [hy]
            cases y
            simp only [Quad.intoTriple, Triple.intoQuad] at this ⊢
            rw [this]
        · rintro ⟨k, hk, hy⟩
          exact .inr ⟨k, _, hk, hy, by cases t; rfl⟩
      · intro y
        rw [a1, hkeys]
      · simp only [Option.isSome_some, true_iff]
        exact ⟨gi, hgi, hgv, hm⟩
    · obtain ⟨h1, h2⟩ := none_case (by rintro i ⟨⟩; exact hm)
      exact ⟨d, none, by simp [removeGraph, eo', hm, bind, Except.bind, pure, Except.pure], h,
        fun _ => h1, by simp, by simp [h1], by simpa using h2⟩

theorem events_takes {m : List (Event (Quad R))} (h : DatasetEvents rep d m) :
    TakesCurrent rep d m := by
  obtain ⟨hw, k⟩ := events_follow h
  intro g
  obtain ⟨d', out, e, w, h1, h2, h3, -⟩ := removeGraph_slots rep hw g
    (C := fun y => (y, .graph) ∈ (recordsOf rep quadAt g m).current)
    (fun y => AllRecorded.mem_current k hw.inv (y, .graph))
  refine ⟨d', out, e, h1, ?_, fun y => ?_⟩
  · intro gr hgr t
    obtain ⟨w', ht⟩ := h2 gr hgr
    obtain ⟨b, hb, hbi⟩ := BTreeGraph.contains_spec w' t
    exact ⟨b, hb, hbi.trans (ht t)⟩
  · obtain ⟨b, hb, hbi⟩ := contains_spec hw y
    obtain ⟨b', hb', hbi'⟩ := contains_spec w y
    exact ⟨b, b', hb, hb', by rw [hbi', h3, hbi]⟩

theorem since_isSome (h : Since (DatasetStart rep) (DatasetCall rep) d l₀ l)
    (hE : EmptiedAsName rep quadAt l₀ l) (g : R) {out : Option (BTreeGraph R)}
    (e : d.removeGraph rep (some g) = .ok (d', out)) :
    out.isSome = true ↔ (recordsOf rep quadAt g (l ++ l₀)).listed = true ∧
      named rep quadAt g l₀ l (recordsOf rep quadAt g (l ++ l₀)).current = true := by
  obtain ⟨hw, k⟩ := events_follow (since_events h)
  obtain ⟨hd, m⟩ := since_named h hE
  obtain ⟨d1, out1, e1, -, -, -, -, hi⟩ := removeGraph_slots rep hw g (C := fun y => _) (fun y => .rfl)
  rw [e] at e1
  cases e1
  rw [hi]
  obtain ⟨t, ht⟩ := k g
  constructor
  · rintro ⟨i, hi, hv, hm⟩
    refine ⟨ht.listed_iff.2 ⟨i, hi, hv⟩, ?_⟩
    obtain ⟨hc, hk⟩ := AllRecorded.current_kept k hi hw.inv hv
    exact (m g _ hc i hk).1 hm
  · rintro ⟨hl, hn⟩
    obtain ⟨i, hi, hv⟩ := ht.listed_iff.1 hl
    obtain ⟨hc, hk⟩ := AllRecorded.current_kept k hi hw.inv hv
    exact ⟨i, hi, hv, (m g _ hc i hk).2 hn⟩

end IndexedBTreeDataset

namespace IndexedBTreeGraph

variable {d d' : IndexedBTreeGraph R} {l₀ l : List (Event (Triple R))}

/-- The slots listed at a position. -/
abbrev MarkedAt (d : IndexedBTreeGraph R) (hs : R → Records (Triple R)) (p : Pos)
    (M : R → List (Triple R × Pos) → Bool) : Prop :=
  Marked (tripleShape R) (indexOps R) d.resources d.triples hs (d.posSet p) M

theorem since_events (h : Since (GraphStart rep) (GraphCall rep) d l₀ l) :
    GraphEvents rep d (l ++ l₀) := by
  induction h with
  | start h =>
    cases h with
    | new => exact .new
    | convert h e => exact .convert h e
  | call _ c ih =>
    cases c with
    | insert e => exact .insert ih e
    | remove e => exact .remove ih e

theorem events_since {m : List (Event (Triple R))} (h : GraphEvents rep d m) :
    ∃ l₀ l, m = l ++ l₀ ∧ Since (GraphStart rep) (GraphCall rep) d l₀ l := by
  induction h with
  | new => exact ⟨[], [], rfl, .start .new⟩
  | @convert g l d h e => exact ⟨l, [], rfl, .start (.convert h e)⟩
  | insert _ e ih =>
    obtain ⟨l₀, l, rfl, hs⟩ := ih
    exact ⟨l₀, _ :: l, rfl, .call hs (.insert e)⟩
  | remove _ e ih =>
    obtain ⟨l₀, l, rfl, hs⟩ := ih
    exact ⟨l₀, _ :: l, rfl, .call hs (.remove e)⟩

theorem RemovedAt.posSet {k : Nat} {q : Triple Nat} {x : Triple R} (hw : d.WF)
    (a : RemovedAt d k q x d') {p : Pos} (hp : p ≠ .graph) (i : Nat) :
    i ∈ d'.posSet p ↔ i ∈ d.posSet p ∧
      ¬ Occurs (tripleShape R) (indexOps R) d.resources d.triples i (x, p) := by
  rw [a.erased.occurs_old tripleShape_laws hw.inv]
  cases p
  · simp only [IndexedBTreeGraph.posSet, a.subjects, NatSet.mem_remove, tripleShape, Option.some.injEq, ne_eq, eq_comm]
  · simp only [IndexedBTreeGraph.posSet, a.predicates, NatSet.mem_remove, tripleShape, Option.some.injEq, ne_eq, eq_comm]
  · simp only [IndexedBTreeGraph.posSet, a.objects, NatSet.mem_remove, tripleShape, Option.some.injEq, ne_eq, eq_comm]
  · exact (hp rfl).elim

theorem since_marked {p : Pos} (hp : p ≠ .graph)
    (h : Since (GraphStart rep) (GraphCall rep) d l₀ l) :
    d.MarkedAt (fun r => recordsOf rep tripleAt r (l ++ l₀)) p
      (fun r g => listedAt rep tripleAt r l₀ p l g) := by
  induction h with
  | @start d l₀ h =>
    have hw := (events_follow (since_events (.start h))).1
    cases h with
    | new =>
      intro r g hg
      simp [recordsOf, Records.none] at hg
    | convert h e =>
      obtain ⟨hw', -⟩ := BTreeGraph.events_follow h
      obtain ⟨d1, e1, -, fl, -⟩ := fromNonIndexed_spec hw'
      rw [e] at e1
      cases e1
      have hfull : PosFull (tripleShape R) d.triples p (d.posSet p) := by
        cases p
        · exact fl.subj
        · exact fl.pred
        · exact fl.obj
        · exact (hp rfl).elim
      exact Marked.start tripleShape_laws hw.inv (posSet_sound hw hp) hfull fun r g => listedAt_nil
  | @call d d' l₀ l e h c ih =>
    obtain ⟨hw, k⟩ := events_follow (since_events h)
    have hw' := (events_follow (since_events (.call h c))).1
    cases c with
    | @insert _ x b e =>
      rcases insert_tables hw e with ⟨hx, rfl⟩ | ⟨hx, q, a, h1, h2, h3⟩
      · intro r g hg i hi
        have hg' : g ∈ (recordsOf rep tripleAt r (l ++ l₀)).groups := by
          obtain ⟨m, hm⟩ := k r
          have := hm.enter_known tripleShape_laws hw.inv hx rep
          rw [tripleShape_compV] at this
          simp only [List.cons_append, recordsOf] at hg
          rwa [this] at hg
        rw [ih r g hg' i hi, listedAt_added,
          AllRecorded.sub k tripleShape_laws hw.inv hg' (fun g => listedAt rep tripleAt r l₀ p l g = true)]
        refine ⟨Or.inr, ?_⟩
        rintro (⟨h1, h2⟩ | h)
        · exact absurd h1 (h2 g hg')
        · exact h
      · refine Marked.insert tripleShape_laws hw.inv k ih
          ((posSet_sound hw hp).defined tripleShape_laws hw.inv) a (p := p) ?_ ?_
        · intro i
          cases p
          · simp only [posSet, h1, NatSet.mem_insert, tripleShape, Option.some.injEq, eq_comm]
          · simp only [posSet, h2, NatSet.mem_insert, tripleShape, Option.some.injEq, eq_comm]
          · simp only [posSet, h3, NatSet.mem_insert, tripleShape, Option.some.injEq, eq_comm]
          · exact (hp rfl).elim
        · intro r g
          rw [listedAt_added]
          refine or_congr ⟨And.left, fun hm => ⟨hm, fun g₀ hg₀ hm' => hx ?_⟩⟩ .rfl
          obtain ⟨i, hi⟩ := k.keeper hg₀
          exact ((hi.mem _).1 hm').abs
    | @remove _ x b e =>
      rcases remove_core hw x with ⟨n, q, d1, e1, a⟩ | ⟨e1, hx⟩
      · rw [e] at e1
        cases e1
        have er := a.erased
        refine Marked.remove tripleShape_laws hw.inv hw'.inv k ih
          (fun i r => er.val tripleShape_laws hw.inv)
          (fun i b hb => ((er.occurs tripleShape_laws hw.inv i b).1 hb).1)
          (K := fun r g => ∀ y ∈ [x], (y, p) ∉ g) ?_ (fun r g => listedAt_taken)
        intro i r g hg hi _
        rw [a.posSet hw hp i]
        simp only [List.mem_singleton, forall_eq, hi.mem]
      · rw [e] at e1
        cases e1
        intro r g hg i hi
        have hg' : g ∈ (recordsOf rep tripleAt r (l ++ l₀)).groups := by
          obtain ⟨m, hm⟩ := k r
          have := hm.leave_unknown tripleShape_laws hw.inv hx
          simp only [List.cons_append, recordsOf] at hg
          rwa [this] at hg
        rw [ih r g hg' i hi, listedAt_taken]
        constructor
        · intro h
          refine ⟨g, hg', fun b hb => hb, h, ?_⟩
          simp only [List.mem_singleton, forall_eq, hi.mem]
          exact fun ho => hx ho.abs
        · rintro ⟨g₀, hg₀, hsub, h, -⟩
          obtain ⟨i₀, hk⟩ := k.keeper hg₀
          obtain ⟨b, hb⟩ := Occurs.of_val tripleShape_laws hw.inv hi.val
          cases hb.inj tripleShape_laws hw.inv ((hk.mem b).1 (hsub b ((hi.mem b).2 hb)))
          cases AllRecorded.kept_unique k tripleShape_laws hw.inv hg' hi hg₀ hk
          exact h

theorem since_lists {p : Pos} (hp : p ≠ .graph)
    (h : Since (GraphStart rep) (GraphCall rep) d l₀ l) :
    ListsRecords rep tripleAt (fun r => listedAt rep tripleAt r l₀ p l) (l ++ l₀)
      ((indexOps R).readResources d.resources (d.posSet p)) (d.posSet p).length := by
  obtain ⟨hw, k⟩ := events_follow (since_events h)
  have ps := posSet_sound hw hp
  exact Marked.lists k (since_marked hp h) (ps.defined tripleShape_laws hw.inv) ps.asc

end IndexedBTreeGraph

end RdfTypes
