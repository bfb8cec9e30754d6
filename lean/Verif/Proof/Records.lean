import Verif.Spec.Records
import Verif.Proof.Listings

/-! # Records of a resource, along histories -/

set_option linter.unusedSectionVars false
set_option linter.unusedSimpArgs false

namespace RdfTypes

open Spec Container

/-! ## Records on their own -/

namespace Spec.Records

variable {S : Type} [DecidableEq S]

theorem leave_congr (h : Records S) {xs ys : List S} (e : ∀ x, x ∈ xs ↔ x ∈ ys) :
    h.leave xs = h.leave ys := by
  unfold leave
  simp only [e]

theorem leave_absent {h : Records S} {xs : List S} (hn : ∀ g ∈ h.groups, g ≠ [])
    (ha : ∀ g ∈ h.groups, ∀ a ∈ g, a.1 ∉ xs) : h.leave xs = h := by
  have hm : h.groups.map (fun g => g.filter (fun a => a.1 ∉ xs)) = h.groups := by
    conv => rhs; rw [← List.map_id h.groups]
    refine List.map_congr_left fun g hg => ?_
    simp only [id]
    exact List.filter_eq_self.2 fun a ha' => by simpa using ha g hg a ha'
  unfold leave
  simp only [hm]
  rw [if_neg]
  intro hmem
  exact hn [] hmem rfl

theorem leave_cons {h : Records S} {x : S} {xs : List S} :
    (h.leave [x]).leave xs = h.leave (x :: xs) := by
  have step : ∀ g : List (S × Pos), (g.filter (fun a => a.1 ∉ [x])).filter (fun a => a.1 ∉ xs) =
      g.filter (fun a => a.1 ∉ x :: xs) := by
    intro g
    rw [List.filter_filter]
    refine List.filter_congr fun a _ => ?_
    simp only [List.mem_cons, List.not_mem_nil, or_false, not_or, Bool.decide_and]
    exact Bool.and_comm _ _
  have drop : ∀ gs : List (List (S × Pos)),
      ((gs.filter (· ≠ [])).map (fun g => g.filter (fun a => a.1 ∉ xs))).filter (· ≠ []) =
      (gs.map (fun g => g.filter (fun a => a.1 ∉ xs))).filter (· ≠ []) := by
    intro gs
    induction gs with
    | nil => rfl
    | cons g gs ih =>
      by_cases hg : g = []
      · subst hg
        simpa using ih
      · simp only [List.filter_cons, hg, ne_eq, not_false_eq_true, decide_true, if_true,
          List.map_cons]
        simp only [ne_eq] at ih
        rw [ih]
  unfold leave
  by_cases h1 : [] ∈ h.groups.map (fun g => g.filter (fun a => a.1 ∉ [x]))
  · have h2 : [] ∈ h.groups.map (fun g => g.filter (fun a => a.1 ∉ x :: xs)) := by
      obtain ⟨g, hg, e⟩ := List.mem_map.1 h1
      refine List.mem_map.2 ⟨g, hg, ?_⟩
      rw [← step, e]
      rfl
    simp only [h1, if_true, h2]
    have := drop (h.groups.map (fun g => g.filter (fun a => a.1 ∉ [x])))
    rw [List.map_map] at this
    simp only [Function.comp_def, step] at this
    split
    · rw [← this]
    · rename_i hno
      rw [← this]
      congr 1
      refine (List.filter_eq_self.2 fun a ha => ?_).symm
      simp only [ne_eq, decide_not, Bool.not_eq_eq_eq_not, Bool.not_true, decide_eq_false_iff_not]
      rintro rfl
      exact hno ha
  · simp only [h1, if_false, List.map_map, Function.comp_def, step]

end Spec.Records

/-! ## Records and slots -/

/-- The records `h` of resource `r` as slots of a table; `l` tells which slot. -/
structure Recorded {R ρ σ S : Type} [Ord R] (sh : Shape σ S R) (ops : ResOps R ρ) (res : Slab ρ)
    (ridx : Index) (st : Slab σ) (r : R) (h : Records S) (l : List (Nat × List (S × Pos))) : Prop where
  groups : h.groups = l.map (·.2)
  nodup : (l.map (·.1)).Nodup
  slots : ∀ i, ops.val res i = some r ↔ ∃ g, (i, g) ∈ l
  uses : ∀ i g, (i, g) ∈ l → ∀ x p, (x, p) ∈ g ↔
    ∃ k, sh.uses st i p k ∧ sh.sval ops res st k = some x
  each : ∀ i g, (i, g) ∈ l → g.Nodup
  head : h.listed = true → ∃ i g t, l = (i, g) :: t ∧ i ∈ ridx
  unlisted : h.listed = false → ∀ i g, (i, g) ∈ l → i ∉ ridx

variable {R ρ σ S : Type} [Ord R] [Std.TransOrd R] [Std.LawfulEqOrd R] [Ord S] [Std.TransOrd S]
  [Std.LawfulEqOrd S] [DecidableEq R] [DecidableEq S]
  {sh : Shape σ S R} {ops : ResOps R ρ} {Rep : ρ → (Pos → Nat → Prop) → Prop}
  {res res' : Slab ρ} {ridx ridx' : Index} {st : Slab σ} {sidx sidx' : Index} {r : R}
  {h : Records S} {l : List (Nat × List (S × Pos))}

namespace Recorded

theorem start : Recorded sh ops (Slab.empty : Slab ρ) [] (Slab.empty : Slab σ) r .none [] :=
  ⟨rfl, by simp, by simp [ResOps.val], by simp, by simp, by simp [Records.none], by simp⟩

theorem nonempty (k : Recorded sh ops res ridx st r h l) (H : ShapeLaws sh)
    (inv : Inv sh ops Rep res ridx st sidx) : ∀ g ∈ h.groups, g ≠ [] := by
  intro g hg
  rw [k.groups, List.mem_map] at hg
  obtain ⟨⟨i, g'⟩, hm, rfl⟩ := hg
  obtain ⟨p, n, hu⟩ := inv.table.used_of_val ((k.slots i).2 ⟨_, hm⟩)
  obtain ⟨q, hq, hc⟩ := hu
  obtain ⟨x, hx⟩ := inv.sval_exists H hq
  intro e
  have := (k.uses i g' hm x p).2 ⟨n, ⟨q, hq, hc⟩, hx⟩
  simp only at e
  rw [e] at this
  cases this

/-- Slots of other tables with the same values. -/
theorem transfer {ρ' : Type} {ops' : ResOps R ρ'} {res₁ : Slab ρ'}
    (k : Recorded sh ops res ridx st r h l)
    (hv : ∀ i, ops'.val res₁ i = ops.val res i)
    (hs : ∀ n, sh.sval ops' res₁ st n = sh.sval ops res st n) :
    Recorded sh ops' res₁ ridx st r h l :=
  ⟨k.groups, k.nodup, fun i => by rw [hv]; exact k.slots i,
    fun i g hg x p => by simp only [hs]; exact k.uses i g hg x p, k.each, k.head, k.unlisted⟩

/-- Which occurrences the records hold. -/
theorem holds (k : Recorded sh ops res ridx st r h l) (H : ShapeLaws sh)
    (inv : Inv sh ops Rep res ridx st sidx) (x : S) (p : Pos) :
    (x, p) ∈ h.groups.flatten ↔ sh.abs ops res st x ∧ sh.compV x p = some r := by
  rw [k.groups, List.mem_flatten]
  constructor
  · rintro ⟨g, hg, hx⟩
    obtain ⟨⟨i, g'⟩, hm, rfl⟩ := List.mem_map.1 hg
    obtain ⟨n, ⟨q, hq, hc⟩, hv⟩ := (k.uses i g' hm x p).1 hx
    refine ⟨⟨n, hv⟩, ?_⟩
    simp only [Shape.sval, hq, Option.bind_some] at hv
    have := H.valued_iff.1 hv p
    simp only [hc] at this
    obtain ⟨r', hr', hx'⟩ := this
    rw [(k.slots i).2 ⟨_, hm⟩] at hr'
    rw [hx', ← hr']
  · rintro ⟨⟨n, hn⟩, hc⟩
    obtain ⟨i, hu, hv⟩ := inv.value_comp H hn hc
    obtain ⟨g, hm⟩ := (k.slots i).1 hv
    exact ⟨g, List.mem_map.2 ⟨_, hm, rfl⟩, (k.uses i g hm x p).2 ⟨n, hu, hn⟩⟩

/-- Each occurrence is in one record only. -/
theorem once (k : Recorded sh ops res ridx st r h l) (H : ShapeLaws sh)
    (inv : Inv sh ops Rep res ridx st sidx) : h.groups.flatten.Nodup := by
  rw [k.groups]
  have hu := k.uses
  have he := k.each
  have hn := k.nodup
  clear k
  induction l with
  | nil => simp
  | cons a l ih =>
    obtain ⟨i, g⟩ := a
    simp only [List.map_cons, List.flatten_cons, List.nodup_cons] at hn ⊢
    rw [List.nodup_append]
    refine ⟨he i g (by simp), ih (fun j g' hm => hu j g' (by simp [hm]))
      (fun j g' hm => he j g' (by simp [hm])) hn.2, ?_⟩
    rintro ⟨x, p⟩ hx b hb rfl
    obtain ⟨g', hg', hb⟩ := List.mem_flatten.1 hb
    obtain ⟨⟨j, g''⟩, hm, rfl⟩ := List.mem_map.1 hg'
    obtain ⟨n, ⟨q, hq, hc⟩, hv⟩ := (hu i g (by simp) x p).1 hx
    obtain ⟨n', ⟨q', hq', hc'⟩, hv'⟩ := (hu j g'' (by simp [hm]) x p).1 hb
    cases inv.sval_inj H hv hv'
    rw [hq] at hq'
    cases hq'
    rw [hc] at hc'
    cases hc'
    exact hn.1 (List.mem_map.2 ⟨_, hm, rfl⟩)

/-- The listed resources. -/
theorem listed_iff (k : Recorded sh ops res ridx st r h l) :
    h.listed = true ↔ ∃ i, i ∈ ridx ∧ ops.val res i = some r := by
  constructor
  · intro hl
    obtain ⟨i, g, t, rfl, hi⟩ := k.head hl
    exact ⟨i, hi, (k.slots i).2 ⟨g, by simp⟩⟩
  · rintro ⟨i, hi, hv⟩
    cases hl : h.listed with
    | true => rfl
    | false =>
      obtain ⟨g, hm⟩ := (k.slots i).1 hv
      exact absurd hi (k.unlisted hl i g hm)

theorem mem_positionsOf (at_ : Pos → Option R) (p : Pos) :
    p ∈ positionsOf at_ r ↔ at_ p = some r := by
  unfold positionsOf
  rw [List.mem_filter]
  cases p <;> simp

theorem positionsOf_ranks (at_ : Pos → Option R) :
    (positionsOf at_ r).Pairwise (fun a b => a.rank < b.rank) := by
  unfold positionsOf
  refine List.Pairwise.sublist List.filter_sublist ?_
  simp [Pos.rank]

theorem Pos.rank_inj {a b : Pos} (e : a.rank = b.rank) : a = b := by
  cases a <;> cases b <;> simp [Pos.rank] at e <;> rfl

/-- A statement that was not there is stored. -/
theorem insert (k : Recorded sh ops res ridx st r h l) (H : ShapeLaws sh)
    (inv : Inv sh ops Rep res ridx st sidx) {rep : Bool} {q : σ} {x : S}
    (inv' : Inv sh ops Rep res' ridx' (st.insert q) sidx')
    (hsv : ∀ n, sh.sval ops res' (st.insert q) n =
      if n = st.vacantKey then some x else sh.sval ops res st n)
    (hnew : ¬ sh.abs ops res st x)
    (a : AcquiredAll rep sh ops Rep res ridx (sh.uses st) st.vacantKey x res' ridx' q) :
    ∃ l', Recorded sh ops res' ridx' (st.insert q) r
      (h.enter rep (positionsOf (sh.compV x) r) x) l' := by
  obtain ⟨done, st', hdone⟩ := a.steps
  generalize hps : positionsOf (sh.compV x) r = ps
  have mem : ∀ p, p ∈ ps ↔ sh.compV x p = some r := by
    intro p; rw [← hps]; exact mem_positionsOf _ p
  have ranks : ps.Pairwise (fun a b => a.rank < b.rank) := by
    rw [← hps]; exact positionsOf_ranks _
  have psnd : ps.Nodup := ranks.imp (by rintro a b hab rfl; exact Nat.lt_irrefl _ hab)
  have vcomp := H.valued_iff.1 a.valued
  -- the slot of a position
  have slot : ∀ p ∈ ps, ∃ i, sh.comp q p = some i ∧ ops.val res' i = some r ∧
      (p, r, i) ∈ done := by
    intro p hp
    have hc := (mem p).1 hp
    have := vcomp p
    cases hq : sh.comp q p with
    | none => rw [hq] at this; simp only [hc] at this; cases this
    | some i =>
      simp only [hq, hc] at this
      obtain ⟨r', hr', e⟩ := this
      cases e
      exact ⟨i, rfl, hr', (hdone p r i).2 ⟨hc, hq⟩⟩
  have pos_of : ∀ i p, ops.val res' i = some r → sh.comp q p = some i → p ∈ ps := by
    intro i p hv hc
    have := vcomp p
    simp only [hc] at this
    obtain ⟨r', hr', e⟩ := this
    rw [hv] at hr'
    cases hr'
    exact (mem p).2 e
  have val_iff : ∀ i, ops.val res' i = some r ↔ ops.val res i = some r ∨
      ∃ p ∈ ps, sh.comp q p = some i := by
    intro i
    constructor
    · intro hv
      obtain ⟨p, n, hu⟩ := inv'.table.used_of_val hv
      rcases (Shape.uses_insert inv.wf q i p n).1 hu with hu | ⟨rfl, hc⟩
      · obtain ⟨r', hr'⟩ := inv.table.val_isSome_of_used hu
        have := a.mono i r' hr'
        rw [hv] at this
        cases this
        exact .inl hr'
      · exact .inr ⟨p, pos_of i p hv hc, hc⟩
    · rintro (hv | ⟨p, hp, hc⟩)
      · exact a.mono i r hv
      · obtain ⟨j, hj, hv, -⟩ := slot p hp
        rw [hc] at hj
        cases hj
        exact hv
  have uses_iff : ∀ i p y, (∃ n, sh.uses (st.insert q) i p n ∧
      sh.sval ops res' (st.insert q) n = some y) ↔
      (∃ n, sh.uses st i p n ∧ sh.sval ops res st n = some y) ∨
        (sh.comp q p = some i ∧ y = x) := by
    intro i p y
    constructor
    · rintro ⟨n, hu, hv⟩
      rw [hsv] at hv
      rcases (Shape.uses_insert inv.wf q i p n).1 hu with hu | ⟨rfl, hc⟩
      · by_cases hn : n = st.vacantKey
        · subst hn
          exact absurd hu (Shape.not_uses_vacant inv.wf i p)
        · simp only [hn, if_false] at hv
          exact .inl ⟨n, hu, hv⟩
      · simp only [if_true, Option.some.injEq] at hv
        exact .inr ⟨hc, hv.symm⟩
    · rintro (⟨n, hu, hv⟩ | ⟨hc, rfl⟩)
      · have hn : n ≠ st.vacantKey := by
          rintro rfl
          exact Shape.not_uses_vacant inv.wf i p hu
        exact ⟨n, (Shape.uses_insert inv.wf q i p n).2 (.inl hu), by simp [hsv, hn, hv]⟩
      · exact ⟨st.vacantKey, (Shape.uses_insert inv.wf q i p _).2 (.inr ⟨rfl, hc⟩), by simp [hsv]⟩
  have absent : ∀ i g, (i, g) ∈ l → ∀ p, (x, p) ∉ g := by
    intro i g hg p hx
    obtain ⟨n, -, hn⟩ := (k.uses i g hg x p).1 hx
    exact hnew ⟨n, hn⟩
  have noany : ¬ h.groups.any (fun g => g.any (fun a => a.1 = x)) = true := by
    rw [k.groups]
    simp only [List.any_eq_true, List.mem_map, decide_eq_true_eq, not_exists, not_and]
    rintro g hg ⟨y, p⟩ hy e
    obtain ⟨⟨i, g'⟩, hm, rfl⟩ := hg
    simp only at e
    subst e
    exact absent i g' hm p hy
  by_cases hemp : ps = []
  · -- the resource does not occur in the statement
    have henter : h.enter rep ps x = h := by
      unfold Records.enter
      rw [if_pos (.inl hemp)]
    rw [henter]
    have vsame : ∀ i, ops.val res' i = some r ↔ ops.val res i = some r := by
      intro i; rw [val_iff]; simp [hemp]
    refine ⟨l, k.groups, k.nodup, fun i => by rw [vsame]; exact k.slots i, ?_, k.each, ?_, ?_⟩
    · intro i g hg y p
      rw [uses_iff, k.uses i g hg]
      constructor
      · exact .inl
      · rintro (hu | ⟨hc, -⟩)
        · exact hu
        · have := pos_of i p ((vsame i).2 ((k.slots i).2 ⟨g, hg⟩)) hc
          rw [hemp] at this
          cases this
    · intro hl
      obtain ⟨i, g, t, e, hi⟩ := k.head hl
      exact ⟨i, g, t, e, st'.kept i hi⟩
    · intro hl i g hg hi
      rcases st'.sub i hi with hi | ⟨⟨p, r', i'⟩, hd, e⟩
      · exact k.unlisted hl i g hg hi
      · simp only at e
        subst e
        have h1 := st'.vals _ hd
        simp only at h1
        rw [(vsame _).2 ((k.slots _).2 ⟨g, hg⟩)] at h1
        cases h1
        have := (mem p).2 ((hdone p r _).1 hd).1
        rw [hemp] at this
        cases this
  · have hcond : ¬ (ps = [] ∨ h.groups.any (fun g => g.any (fun a => a.1 = x)) = true) := by
      rintro (e | e)
      · exact hemp e
      · exact noany e
    unfold Records.enter
    rw [if_neg hcond]
    cases hl : h.listed with
    | true =>
      -- all the occurrences go to the slot that is listed
      obtain ⟨i, g, t, rfl, hi⟩ := k.head hl
      obtain ⟨hlisted, hgroups⟩ := h
      simp only at hl
      have hg := k.groups
      simp only [List.map_cons] at hg
      subst hl hg
      simp only
      have hvi : ops.val res i = some r := (k.slots i).2 ⟨g, by simp⟩
      have to : ∀ p, p ∈ ps → sh.comp q p = some i := by
        intro p hp
        obtain ⟨j, hj, -, hd⟩ := slot p hp
        have := st'.hit _ hd i hi hvi
        simp only at this
        rw [hj, this]
      have nd := k.nodup
      simp only [List.map_cons, List.nodup_cons] at nd
      refine ⟨(i, g ++ ps.map (fun p => (x, p))) :: t, ?_, ?_, ?_, ?_, ?_, ?_, ?_⟩
      · simp
      · simpa using k.nodup
      · intro j
        rw [val_iff, k.slots j]
        constructor
        · rintro (⟨g', hg'⟩ | ⟨p, hp, hc⟩)
          · rcases List.mem_cons.1 hg' with e | hg'
            · cases e
              exact ⟨_, List.mem_cons_self⟩
            · exact ⟨g', List.mem_cons_of_mem _ hg'⟩
          · rw [to p hp] at hc
            cases hc
            exact ⟨_, List.mem_cons_self⟩
        · rintro ⟨g', hg'⟩
          rcases List.mem_cons.1 hg' with e | hg'
          · cases e
            exact .inl ⟨g, List.mem_cons_self⟩
          · exact .inl ⟨g', List.mem_cons_of_mem _ hg'⟩
      · intro j g' hg' y p
        rw [uses_iff]
        rcases List.mem_cons.1 hg' with e | hg'
        · cases e
          rw [List.mem_append, k.uses i g List.mem_cons_self]
          refine or_congr Iff.rfl ?_
          rw [List.mem_map]
          constructor
          · rintro ⟨p', hp', e⟩
            cases e
            exact ⟨to p hp', rfl⟩
          · rintro ⟨hc, rfl⟩
            exact ⟨p, pos_of i p (a.mono i r hvi) hc, rfl⟩
        · rw [k.uses j g' (List.mem_cons_of_mem _ hg')]
          constructor
          · exact .inl
          · rintro (hu | ⟨hc, -⟩)
            · exact hu
            · have hp := pos_of j p (a.mono j r ((k.slots j).2 ⟨g', List.mem_cons_of_mem _ hg'⟩)) hc
              rw [to p hp] at hc
              cases hc
              exact absurd (List.mem_map.2 ⟨_, hg', rfl⟩) nd.1
      · intro j g' hg'
        rcases List.mem_cons.1 hg' with e | hg'
        · cases e
          rw [List.nodup_append]
          refine ⟨k.each i g List.mem_cons_self, ?_, ?_⟩
          · exact List.pairwise_map.2 (psnd.imp (by intro a b hab e; cases e; exact hab rfl))
          · rintro ⟨y, p⟩ hy b hb rfl
            obtain ⟨p', -, e⟩ := List.mem_map.1 hb
            cases e
            exact absent i g List.mem_cons_self _ hy
        · exact k.each j g' (List.mem_cons_of_mem _ hg')
      · intro _
        exact ⟨i, _, t, rfl, st'.kept i hi⟩
      · intro e
        cases e
    | false =>
      -- a slot of its own for each occurrence
      obtain ⟨hlisted, hgroups⟩ := h
      simp only at hl
      subst hl
      have hg := k.groups
      simp only at hg
      subst hg
      simp only
      have free : ∀ i ∈ ridx, ops.val res i ≠ some r := by
        intro i hi hv
        obtain ⟨g, hg⟩ := (k.slots i).1 hv
        exact k.unlisted rfl i g hg hi
      let sl : Pos → Nat := fun p => (sh.comp q p).getD 0
      have hsl : ∀ p ∈ ps, sh.comp q p = some (sl p) ∧ ops.val res' (sl p) = some r ∧
          (p, r, sl p) ∈ done ∧ ops.val res (sl p) = none := by
        intro p hp
        obtain ⟨i, hi, hv, hd⟩ := slot p hp
        have e : sl p = i := by simp [sl, hi]
        rw [e]
        exact ⟨hi, hv, hd, st'.miss _ hd free⟩
      have inj : ∀ p ∈ ps, ∀ p' ∈ ps, sl p = sl p' → p = p' := by
        intro p hp p' hp' e
        apply Classical.byContradiction
        intro hne
        obtain ⟨i, hi, hv⟩ := st'.apart _ (hsl p hp).2.2.1 _ (hsl p' hp').2.2.1 hne e
        exact free i hi hv
      generalize hord : (if rep then ps.reverse else ps) = ord
      have memo : ∀ p, p ∈ ord ↔ p ∈ ps := by
        intro p; rw [← hord]; cases rep <;> simp
      have ordnd : ord.Nodup := by
        rw [← hord]
        cases rep with
        | true =>
          simp only [if_true]
          exact List.pairwise_reverse.2 (psnd.imp (fun hab => Ne.symm hab))
        | false => simpa using psnd
      refine ⟨ord.map (fun p => (sl p, [(x, p)])) ++ l, ?_, ?_, ?_, ?_, ?_, ?_, ?_⟩
      · simp [List.map_map, Function.comp_def]
      · rw [List.map_append, List.nodup_append]
        refine ⟨?_, k.nodup, ?_⟩
        · rw [List.map_map]
          refine List.pairwise_map.2 (List.Pairwise.imp_of_mem ?_ ordnd)
          intro a b ha hb hab e
          exact hab (inj a ((memo a).1 ha) b ((memo b).1 hb) e)
        · rintro i hi j hj rfl
          simp only [List.map_map, List.mem_map, Function.comp_def] at hi
          obtain ⟨p, hp, rfl⟩ := hi
          obtain ⟨⟨j, g⟩, hm, e⟩ := List.mem_map.1 hj
          simp only at e
          subst e
          have := (k.slots _).2 ⟨g, hm⟩
          rw [(hsl p ((memo p).1 hp)).2.2.2] at this
          cases this
      · intro i
        rw [val_iff, k.slots i]
        constructor
        · rintro (⟨g, hg⟩ | ⟨p, hp, hc⟩)
          · exact ⟨g, by simp [hg]⟩
          · refine ⟨[(x, p)], List.mem_append_left _ (List.mem_map.2 ⟨p, (memo p).2 hp, ?_⟩)⟩
            have := (hsl p hp).1
            rw [hc] at this
            cases this
            rfl
        · rintro ⟨g, hg⟩
          rcases List.mem_append.1 hg with hg | hg
          · obtain ⟨p, hp, e⟩ := List.mem_map.1 hg
            cases e
            exact .inr ⟨p, (memo p).1 hp, (hsl p ((memo p).1 hp)).1⟩
          · exact .inl ⟨g, hg⟩
      · intro i g hg y p
        rw [uses_iff]
        rcases List.mem_append.1 hg with hg | hg
        · obtain ⟨p', hp', e⟩ := List.mem_map.1 hg
          cases e
          have hs := hsl p' ((memo p').1 hp')
          simp only [List.mem_singleton, Prod.mk.injEq]
          constructor
          · rintro ⟨e1, e2⟩
            rw [e2]
            exact .inr ⟨hs.1, e1⟩
          · rintro (⟨n, hu, -⟩ | ⟨hc, rfl⟩)
            · obtain ⟨r', hr'⟩ := inv.table.val_isSome_of_used hu
              rw [hs.2.2.2] at hr'
              cases hr'
            · have hp := pos_of _ p hs.2.1 hc
              have e := (hsl p hp).1
              rw [hc] at e
              exact ⟨rfl, (inj _ ((memo p').1 hp') _ hp (Option.some.inj e)).symm⟩
        · rw [k.uses i g hg]
          constructor
          · exact .inl
          · rintro (hu | ⟨hc, -⟩)
            · exact hu
            · have hv := (k.slots i).2 ⟨g, hg⟩
              have hp := pos_of i p (a.mono i r hv) hc
              have hs := hsl p hp
              rw [hs.1] at hc
              cases hc
              rw [hs.2.2.2] at hv
              cases hv
      · intro i g hg
        rcases List.mem_append.1 hg with hg | hg
        · obtain ⟨p', hp', e⟩ := List.mem_map.1 hg
          cases e
          simp
        · exact k.each i g hg
      · intro _
        cases ho : ord with
        | nil =>
          exfalso
          apply hemp
          rw [List.eq_nil_iff_forall_not_mem]
          intro p hp
          have := (memo p).2 hp
          rw [ho] at this
          cases this
        | cons p t =>
          refine ⟨sl p, [(x, p)], _, rfl, ?_⟩
          have hp : p ∈ ps := (memo p).1 (by simp [ho])
          refine st'.lead _ (hsl p hp).2.2.1 free ?_
          rintro ⟨p', r', i'⟩ hd hr e
          simp only at e hr
          subst e
          have hp' : p' ∈ ps := (mem p').2 ((hdone p' r' i').1 hd).1
          rw [ho] at hord
          cases rep with
          | true =>
            simp only [if_true] at hord hr
            have := List.pairwise_reverse.2 (List.Pairwise.imp (S := fun b a => Pos.rank b < Pos.rank a)
              (fun hab => hab) ranks)
            rw [hord] at this
            have hp'' : p' ∈ p :: t := by rw [← ho]; exact (memo p').2 hp'
            rcases List.mem_cons.1 hp'' with rfl | hm
            · exact Nat.lt_irrefl _ hr
            · have := (List.pairwise_cons.1 this).1 p' hm
              omega
          | false =>
            simp only [Bool.false_eq_true, if_false] at hord hr
            rw [hord] at ranks hp'
            rcases List.mem_cons.1 hp' with rfl | hm
            · exact Nat.lt_irrefl _ hr
            · have := (List.pairwise_cons.1 ranks).1 p' hm
              omega
      · intro e
        cases e

/-- A stored statement is taken out. -/
theorem remove (k : Recorded sh ops res ridx st r h l) (H : ShapeLaws sh)
    (inv : Inv sh ops Rep res ridx st sidx) {n : Nat} {x : S}
    (hx : sh.sval ops res st n = some x)
    (inv' : Inv sh ops Rep res' ridx' (st.erase n) sidx')
    (hsv : ∀ m, sh.sval ops res' (st.erase n) m = if m = n then none else sh.sval ops res st m)
    (a : Releasing ops Rep res ridx res' ridx' (fun i p m => sh.uses st i p m ∧ m ≠ n)) :
    ∃ l', Recorded sh ops res' ridx' (st.erase n) r (h.leave [x]) l' := by
  let fil : List (S × Pos) → List (S × Pos) := fun g => g.filter (fun a => a.1 ∉ [x])
  have mem_fil : ∀ g y p, (y, p) ∈ fil g ↔ (y, p) ∈ g ∧ y ≠ x := by
    intro g y p
    simp [fil, List.mem_filter]
  let l1 := l.map (fun a => (a.1, fil a.2))
  have mem1 : ∀ i g', (i, g') ∈ l1 ↔ ∃ g, (i, g) ∈ l ∧ g' = fil g := by
    intro i g'
    simp only [l1, List.mem_map, Prod.mk.injEq, Prod.exists]
    constructor
    · rintro ⟨j, g, hg, rfl, rfl⟩
      exact ⟨g, hg, rfl⟩
    · rintro ⟨g, hg, rfl⟩
      exact ⟨i, g, hg, rfl, rfl⟩
  have uses_iff : ∀ i p y, (∃ m, sh.uses (st.erase n) i p m ∧
      sh.sval ops res' (st.erase n) m = some y) ↔
      (∃ m, sh.uses st i p m ∧ sh.sval ops res st m = some y) ∧ y ≠ x := by
    intro i p y
    constructor
    · rintro ⟨m, hu, hv⟩
      obtain ⟨hu, hm⟩ := (Shape.uses_erase i p n m).1 hu
      rw [hsv] at hv
      simp only [hm, if_false] at hv
      refine ⟨⟨m, hu, hv⟩, ?_⟩
      rintro rfl
      exact hm (inv.sval_inj H hv hx)
    · rintro ⟨⟨m, hu, hv⟩, hne⟩
      have hm : m ≠ n := by
        rintro rfl
        rw [hx] at hv
        exact hne (Option.some.inj hv).symm
      exact ⟨m, (Shape.uses_erase i p n m).2 ⟨hu, hm⟩, by simp [hsv, hm, hv]⟩
  have live : ∀ i g, (i, g) ∈ l → (ops.val res' i = some r ↔ fil g ≠ []) := by
    intro i g hg
    constructor
    · intro hv
      obtain ⟨p, m, q, hq, hc⟩ := inv'.table.used_of_val hv
      obtain ⟨y, hy⟩ := inv'.sval_exists H hq
      obtain ⟨hu, hne⟩ := (uses_iff i p y).1 ⟨m, ⟨q, hq, hc⟩, hy⟩
      intro e
      have := (mem_fil g y p).2 ⟨(k.uses i g hg y p).2 hu, hne⟩
      rw [e] at this
      cases this
    · intro hne
      obtain ⟨⟨y, p⟩, hy⟩ := List.exists_mem_of_ne_nil _ hne
      obtain ⟨hy, hyx⟩ := (mem_fil g y p).1 hy
      obtain ⟨m, hu, -⟩ := (uses_iff i p y).2 ⟨(k.uses i g hg y p).1 hy, hyx⟩
      obtain ⟨r', hr'⟩ := inv'.table.val_isSome_of_used hu
      rcases a.val i with e | e
      · rw [e] at hr'; cases hr'
      · rw [e]; exact (k.slots i).2 ⟨g, hg⟩
  have hgs : h.groups.map fil = l1.map (·.2) := by
    rw [k.groups]
    simp [l1, List.map_map, Function.comp_def]
  let l' := l1.filter (fun a => a.2 ≠ [])
  have mem' : ∀ i g', (i, g') ∈ l' ↔ ∃ g, (i, g) ∈ l ∧ g' = fil g ∧ fil g ≠ [] := by
    intro i g'
    simp only [l', List.mem_filter, mem1]
    constructor
    · rintro ⟨⟨g, hg, rfl⟩, hne⟩
      exact ⟨g, hg, rfl, by simpa using hne⟩
    · rintro ⟨g, hg, rfl, hne⟩
      exact ⟨⟨g, hg, rfl⟩, by simpa using hne⟩
  have hgs' : (h.groups.map fil).filter (· ≠ []) = l'.map (·.2) := by
    rw [hgs, List.filter_map]
    rfl
  have same : [] ∉ h.groups.map fil → (h.groups.map fil).filter (· ≠ []) = h.groups.map fil := by
    intro hno
    refine List.filter_eq_self.2 fun g hg => ?_
    simp only [ne_eq, decide_not, Bool.not_eq_eq_eq_not, Bool.not_true, decide_eq_false_iff_not]
    rintro rfl
    exact hno hg
  have hleave : h.leave [x] = ⟨if [] ∈ h.groups.map fil then false else h.listed, l'.map (·.2)⟩ := by
    unfold Records.leave
    by_cases hc : [] ∈ h.groups.map fil
    · simp only [fil] at hc hgs'
      simp only [hc, if_true, fil]
      rw [hgs']
    · rw [← hgs', same hc]
      simp only [fil] at hc
      simp only [hc, if_false, fil]
  rw [hleave]
  refine ⟨l', rfl, ?_, ?_, ?_, ?_, ?_, ?_⟩
  · have : (l1.map (·.1)).Nodup := by
      simp only [l1, List.map_map, Function.comp_def]
      exact k.nodup
    exact this.sublist (List.filter_sublist.map _)
  · intro i
    constructor
    · intro hv
      have hv0 : ops.val res i = some r := by
        rcases a.val i with e | e
        · rw [e] at hv; cases hv
        · rw [← e]; exact hv
      obtain ⟨g, hg⟩ := (k.slots i).1 hv0
      exact ⟨fil g, (mem' i _).2 ⟨g, hg, rfl, (live i g hg).1 hv⟩⟩
    · rintro ⟨g', hg'⟩
      obtain ⟨g, hg, rfl, hne⟩ := (mem' i g').1 hg'
      exact (live i g hg).2 hne
  · intro i g' hg' y p
    obtain ⟨g, hg, rfl, -⟩ := (mem' i g').1 hg'
    rw [uses_iff, mem_fil, k.uses i g hg]
  · intro i g' hg'
    obtain ⟨g, hg, rfl, -⟩ := (mem' i g').1 hg'
    exact (k.each i g hg).sublist List.filter_sublist
  · intro hl
    simp only at hl
    have hno : [] ∉ h.groups.map fil := by
      intro hc
      simp [hc] at hl
    simp only [hno, if_false] at hl
    obtain ⟨i, g, t, rfl, hi⟩ := k.head hl
    have full : ∀ j g', (j, g') ∈ (i, g) :: t → fil g' ≠ [] := by
      intro j g' hg' e
      apply hno
      rw [k.groups, List.map_map]
      exact List.mem_map.2 ⟨_, hg', e⟩
    have hg := full i g List.mem_cons_self
    refine ⟨i, fil g, (t.map (fun a => (a.1, fil a.2))).filter (fun a => a.2 ≠ []), ?_,
      (a.index i).2 ⟨hi, ?_⟩⟩
    · simp [l', l1, List.filter_cons, hg]
    · intro j r' hj hj' hr'
      rw [(k.slots i).2 ⟨g, List.mem_cons_self⟩] at hr'
      cases hr'
      obtain ⟨g', hg'⟩ := (k.slots j).1 hj
      rw [(live j g' hg').2 (full j g' hg')] at hj'
      cases hj'
  · intro hl i g' hg' hi
    simp only at hl
    obtain ⟨g, hg, rfl, -⟩ := (mem' i g').1 hg'
    obtain ⟨hi0, hind⟩ := (a.index i).1 hi
    have hvi := (k.slots i).2 ⟨g, hg⟩
    by_cases hc : [] ∈ h.groups.map fil
    · rw [hgs] at hc
      obtain ⟨⟨j, g2⟩, hm, e⟩ := List.mem_map.1 hc
      obtain ⟨g1, hg1, rfl⟩ := (mem1 j g2).1 hm
      refine hind j r ((k.slots j).2 ⟨g1, hg1⟩) ?_ hvi
      rcases a.val j with e' | e'
      · exact e'
      · rw [(k.slots j).2 ⟨g1, hg1⟩] at e'
        exact absurd e ((live j g1 hg1).1 e')
    · simp only [hc, if_false] at hl
      exact k.unlisted hl i g hg hi0

/-- A statement that is already there. -/
theorem enter_known (k : Recorded sh ops res ridx st r h l) (H : ShapeLaws sh)
    (inv : Inv sh ops Rep res ridx st sidx) {x : S} (hx : sh.abs ops res st x) (rep : Bool) :
    h.enter rep (positionsOf (sh.compV x) r) x = h := by
  unfold Records.enter
  by_cases hps : positionsOf (sh.compV x) r = []
  · rw [if_pos (.inl hps)]
  · obtain ⟨p, hp⟩ := List.exists_mem_of_ne_nil _ hps
    have := (k.holds H inv x p).2 ⟨hx, (mem_positionsOf _ p).1 hp⟩
    obtain ⟨g, hg, hm⟩ := List.mem_flatten.1 this
    refine if_pos (.inr ?_)
    rw [List.any_eq_true]
    exact ⟨g, hg, List.any_eq_true.2 ⟨_, hm, by simp⟩⟩

/-- A statement that is not there. -/
theorem leave_unknown (k : Recorded sh ops res ridx st r h l) (H : ShapeLaws sh)
    (inv : Inv sh ops Rep res ridx st sidx) {x : S} (hx : ¬ sh.abs ops res st x) :
    h.leave [x] = h := by
  refine Records.leave_absent (k.nonempty H inv) ?_
  rintro g hg ⟨y, p⟩ hy
  simp only [List.mem_singleton]
  rintro rfl
  exact hx ((k.holds H inv y p).1 (List.mem_flatten.2 ⟨g, hg, hy⟩)).1

end Recorded

/-- The tables follow the records of all the resources. -/
def AllRecorded {R ρ σ S : Type} [Ord R] (sh : Shape σ S R) (ops : ResOps R ρ) (res : Slab ρ)
    (ridx : Index) (st : Slab σ) (hs : R → Records S) : Prop :=
  ∀ r, ∃ l, Recorded sh ops res ridx st r (hs r) l

namespace AllRecorded

variable {hs : R → Records S}

theorem lists (k : AllRecorded sh ops res ridx st hs) {E : Nat → Pos → Nat → Prop}
    (h : ResInv ops Rep res ridx E) :
    ∃ rs, ops.readResources res ridx = .ok rs ∧ rs.Pairwise (fun a b => compare a b = .lt) ∧
      ∀ r, (r ∈ rs ↔ (hs r).listed = true) ∧
        ∃ o, ops.indexOfResource res ridx r = .ok o ∧ o.isSome = (hs r).listed := by
  obtain ⟨rs, e, hp, hm⟩ := h.resources_spec
  refine ⟨rs, e, hp, fun r => ?_⟩
  obtain ⟨l, hl⟩ := k r
  refine ⟨by rw [hm, hl.listed_iff], ?_⟩
  obtain ⟨o, ho, hoi⟩ := h.indexOf_spec r
  refine ⟨o, ho, ?_⟩
  rw [Bool.eq_iff_iff, hl.listed_iff, Option.isSome_iff_exists]
  exact exists_congr hoi

theorem counts (k : AllRecorded sh ops res ridx st hs) (rs : List R) (hn : rs.Nodup)
    (hrs : ∀ r, (hs r).groups ≠ [] → r ∈ rs) :
    res.len = (rs.map (fun r => (hs r).groups.length)).sum := by
  have pick : ∀ rs : List R, rs.Nodup → ∃ ks : List Nat, ks.Nodup ∧
      (∀ i, i ∈ ks ↔ ∃ r ∈ rs, ops.val res i = some r) ∧
      ks.length = (rs.map (fun r => (hs r).groups.length)).sum := by
    intro rs hn
    induction rs with
    | nil => exact ⟨[], by simp⟩
    | cons r rs ih =>
      rw [List.nodup_cons] at hn
      obtain ⟨ks, h1, h2, h3⟩ := ih hn.2
      obtain ⟨l, hl⟩ := k r
      have hml : ∀ i, i ∈ l.map (·.1) ↔ ops.val res i = some r := by
        intro i
        rw [hl.slots, List.mem_map]
        constructor
        · rintro ⟨⟨j, g⟩, hg, rfl⟩
          exact ⟨g, hg⟩
        · rintro ⟨g, hg⟩
          exact ⟨_, hg, rfl⟩
      refine ⟨l.map (·.1) ++ ks, ?_, ?_, ?_⟩
      · rw [List.nodup_append]
        refine ⟨hl.nodup, h1, ?_⟩
        rintro i hi j hj rfl
        obtain ⟨r', hr', hv⟩ := (h2 i).1 hj
        rw [(hml i).1 hi] at hv
        cases hv
        exact hn.1 hr'
      · intro i
        rw [List.mem_append, hml, h2]
        simp
      · simp [h3, hl.groups]
  obtain ⟨ks, h1, h2, h3⟩ := pick rs hn
  rw [← h3]
  refine Slab.len_eq_length h1 fun i => ?_
  rw [h2]
  constructor
  · rintro ⟨r, -, hv⟩
    unfold ResOps.val at hv
    rw [Option.map_eq_some_iff] at hv
    obtain ⟨v, hv, -⟩ := hv
    exact ⟨v, hv⟩
  · rintro ⟨v, hv⟩
    have hval : ops.val res i = some (ops.value v) := by simp [ResOps.val, hv]
    refine ⟨_, hrs _ ?_, hval⟩
    obtain ⟨l, hl⟩ := k (ops.value v)
    obtain ⟨g, hg⟩ := (hl.slots i).1 hval
    rw [hl.groups]
    intro e
    rw [List.map_eq_nil_iff] at e
    rw [e] at hg
    cases hg

theorem occurrences (k : AllRecorded sh ops res ridx st hs) (H : ShapeLaws sh)
    (inv : Inv sh ops Rep res ridx st sidx) (r : R) :
    (hs r).groups.flatten.Nodup ∧ (∀ g ∈ (hs r).groups, g ≠ []) ∧
      ∀ x p, (x, p) ∈ (hs r).groups.flatten ↔ sh.abs ops res st x ∧ sh.compV x p = some r := by
  obtain ⟨l, hl⟩ := k r
  exact ⟨hl.once H inv, hl.nonempty H inv, hl.holds H inv⟩

end AllRecorded

/-! ## The four containers -/

theorem quadShape_compV (x : Quad R) : (quadShape R).compV x = quadAt x := by
  funext p; cases p <;> rfl

theorem tripleShape_compV (x : Triple R) : (tripleShape R).compV x = tripleAt x := by
  funext p; cases p <;> rfl

variable {rep : Bool}

namespace BTreeDataset

/-- The dataset follows the records. -/
abbrev Follows (d : BTreeDataset R) (hs : R → Records (Quad R)) : Prop :=
  AllRecorded (quadShape R) (countOps R) d.resources d.resourcesIndexes d.quads hs

theorem Follows.insert {d d' : BTreeDataset R} (h : d.WF) {hs : R → Records (Quad R)}
    (k : d.Follows hs) {x : Quad R} {b : Bool} (e : d.insert rep x = .ok (d', b)) :
    d'.Follows (fun r => (hs r).enter rep (positionsOf (quadAt x) r) x) := by
  obtain ⟨b', hb, hbi⟩ := contains_spec h x
  intro r
  rw [← quadShape_compV]
  cases b' with
  | true =>
    simp [BTreeDataset.insert, hb, bind, Except.bind, pure, Except.pure] at e
    obtain ⟨e, -⟩ := e
    subst e
    obtain ⟨l, hl⟩ := k r
    exact ⟨l, by simp only []; rw [hl.enter_known quadShape_laws h (hbi.1 rfl)]; exact hl⟩
  | false =>
    have hx : ¬ d.abs x := fun e => by simpa using hbi.2 e
    obtain ⟨res', ridx', q, sidx', e1, e2, h1, h2, h3, a⟩ :=
      Inv.insertQuad_spec (countOps_laws R) rep h x hx
    simp [BTreeDataset.insert, hb, e1, e2, bind, Except.bind, pure, Except.pure] at e
    obtain ⟨e, -⟩ := e
    subst e
    obtain ⟨l, hl⟩ := k r
    exact hl.insert quadShape_laws h h1 h2 hx a

theorem Follows.remove {d d' : BTreeDataset R} (h : d.WF) {hs : R → Records (Quad R)}
    (k : d.Follows hs) {x : Quad R} {b : Bool} (e0 : d.remove x = .ok (d', b)) :
    d'.Follows (fun r => (hs r).leave [x]) := by
  intro r
  obtain ⟨l, hl⟩ := k r
  rcases Inv.removeIndex_spec quadShape_laws h x (quadCmp_compares d.quads x d.quadsIndexes) with
    ⟨k, q, sidx', e, hq, hx, hs, hm⟩ | ⟨e, hx⟩
  · obtain ⟨r1, i1, b1, r2, i2, b2, r3, i3, b3, e1, e2, e3, hn, hg⟩ :=
      Inv.releaseQuad_spec (countOps_laws R) h hq hx
        (fun res => (countOps R).resourceCmp res x.s) (fun res => (countOps R).resourceCmp res x.p)
        (fun res => (countOps R).resourceCmp res x.o)
        (fun g res => (countOps R).resourceIndexCmp res g)
        (cmp_by_value _ _) (cmp_by_value _ _) (cmp_by_value _ _)
        (fun g y _ _ => cmp_by_index g y)
    cases hqg : q.g with
    | none =>
      have rl := hn hqg
      obtain ⟨w, hv, -⟩ := h.remove_final quadShape_laws (countOps_laws R) hq hx rl.inv
        (fun i p n => Iff.rfl) rl.val hs hm
      simp [BTreeDataset.remove, e, Slab.remove_ok hq, e1, e2, e3, hqg, bind, Except.bind, pure,
        Except.pure] at e0
      obtain ⟨e0, -⟩ := e0
      subst e0
      exact hl.remove quadShape_laws h hx w hv rl
    | some g =>
      obtain ⟨r4, i4, b4, e4, -, rl⟩ := hg g hqg
      obtain ⟨w, hv, -⟩ := h.remove_final quadShape_laws (countOps_laws R) hq hx rl.inv
        (fun i p n => Iff.rfl) rl.val hs hm
      simp [BTreeDataset.remove, e, Slab.remove_ok hq, e1, e2, e3, e4, hqg, bind, Except.bind, pure,
        Except.pure] at e0
      obtain ⟨e0, -⟩ := e0
      subst e0
      exact hl.remove quadShape_laws h hx w hv rl
  · simp [BTreeDataset.remove, e, bind, Except.bind, pure, Except.pure] at e0
    obtain ⟨e0, -⟩ := e0
    subst e0
    exact ⟨l, by simp only []; rw [hl.leave_unknown quadShape_laws h hx]; exact hl⟩

theorem events_follow {d : BTreeDataset R} {l : List (Event (Quad R))}
    (h : PlainEvents (BTreeDataset.container rep R) d l) :
    d.WF ∧ d.Follows (fun r => recordsOf rep quadAt r l) := by
  induction h with
  | new => exact ⟨Inv.empty, fun r => ⟨_, Recorded.start⟩⟩
  | @insert d d' l x b _ e ih =>
    obtain ⟨d1, b1, e1, w, -⟩ := insert_spec rep ih.1 x
    have e' : d.insert rep x = .ok (d', b) := e
    rw [e'] at e1
    cases e1
    exact ⟨w, ih.2.insert ih.1 e'⟩
  | @remove d d' l x b _ e ih =>
    obtain ⟨d1, b1, e1, w, -⟩ := remove_spec ih.1 x
    have e' : d.remove x = .ok (d', b) := e
    rw [e'] at e1
    cases e1
    exact ⟨w, ih.2.remove ih.1 e'⟩

end BTreeDataset

namespace BTreeGraph

/-- The graph follows the records. -/
abbrev Follows (d : BTreeGraph R) (hs : R → Records (Triple R)) : Prop :=
  AllRecorded (tripleShape R) (countOps R) d.resources d.resourcesIndexes d.triples hs

theorem Follows.insert {d d' : BTreeGraph R} (h : d.WF) {hs : R → Records (Triple R)}
    (k : d.Follows hs) {x : Triple R} {b : Bool} (e : d.insert rep x = .ok (d', b)) :
    d'.Follows (fun r => (hs r).enter rep (positionsOf (tripleAt x) r) x) := by
  obtain ⟨b', hb, hbi⟩ := contains_spec h x
  intro r
  rw [← tripleShape_compV]
  cases b' with
  | true =>
    simp [BTreeGraph.insert, hb, bind, Except.bind, pure, Except.pure] at e
    obtain ⟨e, -⟩ := e
    subst e
    obtain ⟨l, hl⟩ := k r
    exact ⟨l, by simp only []; rw [hl.enter_known tripleShape_laws h (hbi.1 rfl)]; exact hl⟩
  | false =>
    have hx : ¬ d.abs x := fun e => by simpa using hbi.2 e
    obtain ⟨res', ridx', q, sidx', e1, e2, h1, h2, h3, a⟩ :=
      Inv.insertTriple_spec (countOps_laws R) rep h x hx
    simp [BTreeGraph.insert, hb, e1, e2, bind, Except.bind, pure, Except.pure] at e
    obtain ⟨e, -⟩ := e
    subst e
    obtain ⟨l, hl⟩ := k r
    exact hl.insert tripleShape_laws h h1 h2 hx a

theorem Follows.remove {d d' : BTreeGraph R} (h : d.WF) {hs : R → Records (Triple R)}
    (k : d.Follows hs) {x : Triple R} {b : Bool} (e0 : d.remove x = .ok (d', b)) :
    d'.Follows (fun r => (hs r).leave [x]) := by
  intro r
  obtain ⟨l, hl⟩ := k r
  rcases Inv.removeIndex_spec tripleShape_laws h x
      (tripleCmp_compares d.triples x d.triplesIndexes) with
    ⟨k, q, sidx', e, hq, hx, hs, hm⟩ | ⟨e, hx⟩
  · obtain ⟨r1, i1, b1, r2, i2, b2, r3, i3, b3, e1, e2, e3, rl⟩ :=
      Inv.releaseTriple_spec (countOps_laws R) h hq hx
        (fun res => (countOps R).resourceCmp res x.s) (fun res => (countOps R).resourceCmp res x.p)
        (fun res => (countOps R).resourceCmp res x.o)
        (cmp_by_value _ _) (cmp_by_value _ _) (cmp_by_value _ _)
    obtain ⟨w, hv, -⟩ := h.remove_final tripleShape_laws (countOps_laws R) hq hx rl.inv
      (fun i p n => Iff.rfl) rl.val hs hm
    simp [BTreeGraph.remove, e, Slab.remove_ok hq, e1, e2, e3, bind, Except.bind, pure,
      Except.pure] at e0
    obtain ⟨e0, -⟩ := e0
    subst e0
    exact hl.remove tripleShape_laws h hx w hv rl
  · simp [BTreeGraph.remove, e, bind, Except.bind, pure, Except.pure] at e0
    obtain ⟨e0, -⟩ := e0
    subst e0
    exact ⟨l, by simp only []; rw [hl.leave_unknown tripleShape_laws h hx]; exact hl⟩

theorem events_follow {d : BTreeGraph R} {l : List (Event (Triple R))}
    (h : PlainEvents (BTreeGraph.container rep R) d l) :
    d.WF ∧ d.Follows (fun r => recordsOf rep tripleAt r l) := by
  induction h with
  | new => exact ⟨Inv.empty, fun r => ⟨_, Recorded.start⟩⟩
  | @insert d d' l x b _ e ih =>
    obtain ⟨d1, b1, e1, w, -⟩ := insert_spec rep ih.1 x
    have e' : d.insert rep x = .ok (d', b) := e
    rw [e'] at e1
    cases e1
    exact ⟨w, ih.2.insert ih.1 e'⟩
  | @remove d d' l x b _ e ih =>
    obtain ⟨d1, b1, e1, w, -⟩ := remove_spec ih.1 x
    have e' : d.remove x = .ok (d', b) := e
    rw [e'] at e1
    cases e1
    exact ⟨w, ih.2.remove ih.1 e'⟩

end BTreeGraph

namespace IndexedBTreeDataset

/-- The dataset follows the records. -/
abbrev Follows (d : IndexedBTreeDataset R) (hs : R → Records (Quad R)) : Prop :=
  AllRecorded (quadShape R) (indexOps R) d.resources d.resourcesIndexes d.quads hs

theorem Follows.insert {d d' : IndexedBTreeDataset R} (h : d.WF) {hs : R → Records (Quad R)}
    (k : d.Follows hs) {x : Quad R} {b : Bool} (e : d.insert rep x = .ok (d', b)) :
    d'.Follows (fun r => (hs r).enter rep (positionsOf (quadAt x) r) x) := by
  obtain ⟨b', hb, hbi⟩ := contains_spec h x
  intro r
  rw [← quadShape_compV]
  cases b' with
  | true =>
    simp [IndexedBTreeDataset.insert, hb, bind, Except.bind, pure, Except.pure] at e
    obtain ⟨e, -⟩ := e
    subst e
    obtain ⟨l, hl⟩ := k r
    exact ⟨l, by simp only []; rw [hl.enter_known quadShape_laws h.inv (hbi.1 rfl)]; exact hl⟩
  | false =>
    have hx : ¬ d.abs x := fun e => by simpa using hbi.2 e
    obtain ⟨res', ridx', q, sidx', e1, e2, h1, h2, h3, a⟩ :=
      Inv.insertQuad_spec (indexOps_laws R) rep h.inv x hx
    simp [IndexedBTreeDataset.insert, hb, e1, e2, bind, Except.bind, pure, Except.pure] at e
    obtain ⟨l, hl⟩ := k r
    cases hg : q.g with
    | none =>
      simp only [hg] at e
      obtain ⟨e, -⟩ := e
      subst e
      exact hl.insert quadShape_laws h.inv h1 h2 hx a
    | some g =>
      simp only [hg] at e
      obtain ⟨e, -⟩ := e
      subst e
      exact hl.insert quadShape_laws h.inv h1 h2 hx a

theorem Follows.removedAt {d d' : IndexedBTreeDataset R} (h : d.WF) {hs : R → Records (Quad R)}
    (k : d.Follows hs) {n : Nat} {q : Quad Nat} {x : Quad R} (a : RemovedAt d n q x d') :
    d'.Follows (fun r => (hs r).leave [x]) := by
  intro r
  obtain ⟨l, hl⟩ := k r
  have w := a.wf.inv
  have sv := a.sval
  unfold sval at sv
  rw [a.quads] at w sv
  have := hl.remove quadShape_laws h.inv a.was w sv a.releases
  rw [← a.quads] at this
  exact this

theorem Follows.removed {d d' : IndexedBTreeDataset R} {xs : List (Quad R)} (a : Removed d xs d') :
    ∀ {hs : R → Records (Quad R)}, d.WF → d.Follows hs →
      d'.Follows (fun r => (hs r).leave xs) := by
  induction a with
  | nil d =>
    intro hs h k r
    obtain ⟨l, hl⟩ := k r
    exact ⟨l, by simp only []; rw [Records.leave_absent (hl.nonempty quadShape_laws h.inv) (by simp)]; exact hl⟩
  | cons a _ ih =>
    intro hs h k
    have := ih a.wf (k.removedAt h a)
    simpa only [Records.leave_cons] using this

/-- The quads taken out by `remove_graph`. -/
theorem GraphRemoved.taken {d d' : IndexedBTreeDataset R} {g : Option R}
    {out : Option (BTreeGraph R)} (gr : GraphRemoved d g d' out) :
    ∃ ys, Removed d ys d' ∧ ∀ y, y ∈ ys ↔ returned g out y := by
  obtain ⟨ys, hr, -⟩ := gr.chain
  refine ⟨ys, hr, fun y => ?_⟩
  have ha := hr.abs
  rw [returned_iff gr]
  have h2 := gr.removed y
  rw [ha.1] at h2
  constructor
  · intro hm
    refine Classical.byContradiction fun hn => ?_
    exact (h2.2 ⟨ha.2.2 y hm, hn⟩).2 hm
  · rintro ⟨rfl, gr', ho, hm⟩
    have hy : d.abs y := gr.sound gr' _ ho hm
    refine Classical.byContradiction fun hn => ?_
    exact (h2.1 ⟨hy, hn⟩).2 ⟨rfl, gr', ho, hm⟩

theorem events_follow {d : IndexedBTreeDataset R} {l : List (Event (Quad R))}
    (h : DatasetEvents rep d l) : d.WF ∧ d.Follows (fun r => recordsOf rep quadAt r l) := by
  induction h with
  | new => exact ⟨wf_new, fun r => ⟨_, Recorded.start⟩⟩
  | @convert g l d h e =>
    obtain ⟨hw, hf⟩ := BTreeDataset.events_follow h
    obtain ⟨d1, e1, w, -, -, -, -, -, -, hsv, hq, hi, hv⟩ := fromNonIndexed_spec hw
    rw [e] at e1
    cases e1
    refine ⟨w, fun r => ?_⟩
    obtain ⟨m, hm⟩ := hf r
    rw [← hq, ← hi] at hm
    unfold sval BTreeDataset.sval at hsv
    rw [← hq] at hsv
    exact ⟨m, hm.transfer hv hsv⟩
  | @insert d d' l x b _ e ih =>
    obtain ⟨d1, b1, e1, w, -⟩ := insert_spec rep ih.1 x
    rw [e] at e1
    cases e1
    exact ⟨w, ih.2.insert ih.1 e⟩
  | @remove d d' l x b _ e ih =>
    rcases remove_core ih.1 x with ⟨k, q, d1, e1, a⟩ | ⟨e1, hx⟩
    · rw [e] at e1
      cases e1
      exact ⟨a.wf, ih.2.removedAt ih.1 a⟩
    · rw [e] at e1
      cases e1
      refine ⟨ih.1, fun r => ?_⟩
      obtain ⟨m, hm⟩ := ih.2 r
      exact ⟨m, by
        simp only [recordsOf]
        rw [hm.leave_unknown quadShape_laws ih.1.inv hx]; exact hm⟩
  | @removeGraph d d' l g out xs _ e hxs ih =>
    obtain ⟨d1, out1, e1, gr⟩ := removeGraph_spec rep ih.1 g
    rw [e] at e1
    cases e1
    refine ⟨gr.wf, ?_⟩
    obtain ⟨ys, hr, hys⟩ := gr.taken
    have : ∀ y, y ∈ ys ↔ y ∈ xs := fun y => (hys y).trans (hxs y).symm
    have hf := Follows.removed hr ih.1 ih.2
    intro r
    obtain ⟨m, hm⟩ := hf r
    exact ⟨m, by simp only [recordsOf]; rw [Records.leave_congr _ fun y => (this y).symm]; exact hm⟩
  | @extract d d' l pat cap n xs ended _ hcap e ih =>
    obtain ⟨d1, out1, ended1, e1, hr, -⟩ := extractPatternMatching_spec ih.1 hcap pat n
    rw [e] at e1
    cases e1
    exact ⟨hr.wf ih.1, Follows.removed hr ih.1 ih.2⟩

end IndexedBTreeDataset

namespace IndexedBTreeGraph

/-- The graph follows the records. -/
abbrev Follows (d : IndexedBTreeGraph R) (hs : R → Records (Triple R)) : Prop :=
  AllRecorded (tripleShape R) (indexOps R) d.resources d.resourcesIndexes d.triples hs

theorem Follows.insert {d d' : IndexedBTreeGraph R} (h : d.WF) {hs : R → Records (Triple R)}
    (k : d.Follows hs) {x : Triple R} {b : Bool} (e : d.insert rep x = .ok (d', b)) :
    d'.Follows (fun r => (hs r).enter rep (positionsOf (tripleAt x) r) x) := by
  obtain ⟨b', hb, hbi⟩ := contains_spec h x
  intro r
  rw [← tripleShape_compV]
  cases b' with
  | true =>
    simp [IndexedBTreeGraph.insert, hb, bind, Except.bind, pure, Except.pure] at e
    obtain ⟨e, -⟩ := e
    subst e
    obtain ⟨l, hl⟩ := k r
    exact ⟨l, by simp only []; rw [hl.enter_known tripleShape_laws h.inv (hbi.1 rfl)]; exact hl⟩
  | false =>
    have hx : ¬ d.abs x := fun e => by simpa using hbi.2 e
    obtain ⟨res', ridx', q, sidx', e1, e2, h1, h2, h3, a⟩ :=
      Inv.insertTriple_spec (indexOps_laws R) rep h.inv x hx
    simp [IndexedBTreeGraph.insert, hb, e1, e2, bind, Except.bind, pure, Except.pure] at e
    obtain ⟨l, hl⟩ := k r
    obtain ⟨e, -⟩ := e
    subst e
    exact hl.insert tripleShape_laws h.inv h1 h2 hx a

theorem Follows.removedAt {d d' : IndexedBTreeGraph R} (h : d.WF) {hs : R → Records (Triple R)}
    (k : d.Follows hs) {n : Nat} {q : Triple Nat} {x : Triple R} (a : RemovedAt d n q x d') :
    d'.Follows (fun r => (hs r).leave [x]) := by
  intro r
  obtain ⟨l, hl⟩ := k r
  have w := a.wf.inv
  have sv := a.sval
  unfold sval at sv
  rw [a.triples] at w sv
  have := hl.remove tripleShape_laws h.inv a.was w sv a.releases
  rw [← a.triples] at this
  exact this

theorem events_follow {d : IndexedBTreeGraph R} {l : List (Event (Triple R))}
    (h : GraphEvents rep d l) : d.WF ∧ d.Follows (fun r => recordsOf rep tripleAt r l) := by
  induction h with
  | new => exact ⟨wf_new, fun r => ⟨_, Recorded.start⟩⟩
  | @convert g l d h e =>
    obtain ⟨hw, hf⟩ := BTreeGraph.events_follow h
    obtain ⟨d1, e1, w, -, -, -, -, -, -, hsv, hq, hi, hv⟩ := fromNonIndexed_spec hw
    rw [e] at e1
    cases e1
    refine ⟨w, fun r => ?_⟩
    obtain ⟨m, hm⟩ := hf r
    rw [← hq, ← hi] at hm
    unfold sval BTreeGraph.sval at hsv
    rw [← hq] at hsv
    exact ⟨m, hm.transfer hv hsv⟩
  | @insert d d' l x b _ e ih =>
    obtain ⟨d1, b1, e1, w, -⟩ := insert_spec rep ih.1 x
    rw [e] at e1
    cases e1
    exact ⟨w, ih.2.insert ih.1 e⟩
  | @remove d d' l x b _ e ih =>
    rcases remove_core ih.1 x with ⟨k, q, d1, e1, a⟩ | ⟨e1, hx⟩
    · rw [e] at e1
      cases e1
      exact ⟨a.wf, ih.2.removedAt ih.1 a⟩
    · rw [e] at e1
      cases e1
      refine ⟨ih.1, fun r => ?_⟩
      obtain ⟨m, hm⟩ := ih.2 r
      exact ⟨m, by
        simp only [recordsOf]
        rw [hm.leave_unknown tripleShape_laws ih.1.inv hx]; exact hm⟩

end IndexedBTreeGraph

/-! ## Every history -/

theorem PlainEvents.of_reach {D : Type} {c : Container S D} {d : D} {A : S → Prop}
    (h : Reach c anyCall d A) : ∃ l, PlainEvents c d l := by
  induction h with
  | new => exact ⟨_, .new⟩
  | insert _ _ e ih =>
    obtain ⟨l, hl⟩ := ih
    exact ⟨_, .insert hl e⟩
  | remove _ _ e ih =>
    obtain ⟨l, hl⟩ := ih
    exact ⟨_, .remove hl e⟩

theorem IndexedBTreeDataset.events_of_reach {d : IndexedBTreeDataset R} {A : Quad R → Prop}
    (h : DatasetReach rep anyCall anyCall True d A) : ∃ l, DatasetEvents rep d l := by
  induction h with
  | new => exact ⟨_, .new⟩
  | convert h e =>
    obtain ⟨l, hl⟩ := PlainEvents.of_reach h
    exact ⟨_, .convert hl e⟩
  | insert _ _ e ih =>
    obtain ⟨l, hl⟩ := ih
    exact ⟨_, .insert hl e⟩
  | remove _ _ e ih =>
    obtain ⟨l, hl⟩ := ih
    exact ⟨_, .remove hl e⟩
  | @removeGraph d A g d' out _ _ e ih =>
    obtain ⟨l, hl⟩ := ih
    obtain ⟨d1, out1, e1, gr⟩ := removeGraph_spec rep (events_follow hl).1 g
    rw [e] at e1
    cases e1
    obtain ⟨ys, -, hys⟩ := gr.taken
    exact ⟨_, .removeGraph hl e hys⟩
  | extract _ _ hcap e ih =>
    obtain ⟨l, hl⟩ := ih
    exact ⟨_, .extract hl hcap e⟩

theorem IndexedBTreeGraph.events_of_reach {d : IndexedBTreeGraph R} {A : Triple R → Prop}
    (h : GraphReach rep anyCall anyCall d A) : ∃ l, GraphEvents rep d l := by
  induction h with
  | new => exact ⟨_, .new⟩
  | convert h e =>
    obtain ⟨l, hl⟩ := PlainEvents.of_reach h
    exact ⟨_, .convert hl e⟩
  | insert _ _ e ih =>
    obtain ⟨l, hl⟩ := ih
    exact ⟨_, .insert hl e⟩
  | remove _ _ e ih =>
    obtain ⟨l, hl⟩ := ih
    exact ⟨_, .remove hl e⟩

end RdfTypes
