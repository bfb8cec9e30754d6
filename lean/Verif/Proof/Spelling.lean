import Verif.Spec.Spelling
import Verif.Proof.Alike

/-! # The spelling of what a container holds -/

set_option linter.unusedSectionVars false
set_option linter.unusedSimpArgs false

namespace RdfTypes.Proof.Spelling

open RdfTypes.Spec RdfTypes.Proof.Related

variable {R ρ K S : Type}

/-! ## Results -/

theorem bind_ok {α β : Type} {x : Res α} {f : α → Res β} {b : β} (h : x >>= f = .ok b) :
    ∃ a, x = .ok a ∧ f a = .ok b := by
  cases x with
  | error e => cases h
  | ok a => exact ⟨a, rfl, h⟩

theorem pure_ok {α : Type} {a b : α} (h : (pure a : Res α) = .ok b) : a = b := by
  cases h
  rfl

theorem mem_mapM {α β : Type} {f : α → Res β} {l : List α} {ys : List β} (h : l.mapM f = .ok ys)
    (y : β) : y ∈ ys ↔ ∃ a ∈ l, f a = .ok y := by
  induction l generalizing ys with
  | nil =>
    cases pure_ok h
    simp
  | cons a l ih =>
    rw [List.mapM_cons] at h
    obtain ⟨b, hb, h⟩ := bind_ok h
    obtain ⟨bs, hbs, h⟩ := bind_ok h
    cases pure_ok h
    rw [List.mem_cons, ih hbs]
    constructor
    · rintro (rfl | ⟨a', ha', e⟩)
      · exact ⟨a, by simp, hb⟩
      · exact ⟨a', by simp [ha'], e⟩
    · rintro ⟨a', ha', e⟩
      rcases List.mem_cons.1 ha' with rfl | ha'
      · rw [hb] at e
        cases e
        exact .inl rfl
      · exact .inr ⟨a', ha', e⟩

/-! ## Tables of resources -/

/-- The record operations do not touch the value. -/
structure Valued (ops : ResOps R ρ) : Prop where
  create : ∀ r p k, ops.value (ops.create r p k) = r
  add : ∀ {p k x x'}, ops.add p k x = .ok x' → ops.value x' = ops.value x
  del : ∀ {p k x x'}, ops.del p k x = .ok x' → ops.value x' = ops.value x

theorem valued_count : Valued (countOps R) where
  create _ _ _ := rfl
  add h := by cases h; rfl
  del {p k x x'} h := by
    simp only [countOps] at h ⊢
    split at h
    · cases h
    · cases h; rfl

theorem valued_index : Valued (indexOps R) where
  create _ p _ := by cases p <;> rfl
  add {p _ _ _} h := by cases h; cases p <;> rfl
  del {p _ _ _} h := by cases h; cases p <;> rfl

/-- All slots keep their value. -/
def Grows (v v' : Nat → Option R) : Prop := ∀ i r, v i = some r → v' i = some r

theorem Grows.refl (v : Nat → Option R) : Grows v v := fun _ _ h => h

theorem Grows.trans {v v' v'' : Nat → Option R} (h : Grows v v') (h' : Grows v' v'') : Grows v v'' :=
  fun i r e => h' i r (h i r e)

variable {ops : ResOps R ρ} {res res' : Slab ρ}

theorem modify_cases {α : Type} {s s' : Slab α} {k : Nat} {f : α → Res α}
    (h : s.modify k f = .ok s') : ∃ v v', s.get k = some v ∧ f v = .ok v' ∧ s' = s.put k v' := by
  unfold Slab.modify at h
  obtain ⟨v, hv, h⟩ := bind_ok h
  obtain ⟨v', hv', h⟩ := bind_ok h
  exact ⟨v, v', Slab.index_eq_ok.1 hv, hv', (pure_ok h).symm⟩

theorem remove_cases {α : Type} {s s' : Slab α} {k : Nat} {v : α} (h : s.remove k = .ok (s', v)) :
    s.get k = some v ∧ s' = s.erase k := by
  unfold Slab.remove at h
  split at h
  · rename_i w hw
    cases h
    exact ⟨hw, rfl⟩
  · cases h

theorem val_put {k : Nat} {x x' : ρ} (hk : res.get k = some x) (hv : ops.value x' = ops.value x)
    (i : Nat) : ops.val (res.put k x') i = ops.val res i := by
  unfold ResOps.val
  rw [Slab.get_put hk]
  split
  · rename_i e
    subst e
    simp [hk, hv]
  · rfl

theorem val_erase (k i : Nat) : ops.val (res.erase k) i = if i = k then none else ops.val res i := by
  unfold ResOps.val
  rw [Slab.get_erase]
  split <;> rfl

theorem val_insert (h : res.WF) (x : ρ) (i : Nat) :
    ops.val (res.insert x) i = if i = res.vacantKey then some (ops.value x) else ops.val res i := by
  unfold ResOps.val
  rw [Slab.get_insert h]
  split <;> rfl

variable [Ord R]

theorem resourceCmp_iff {r : R} {i : Nat} {o : Ordering} :
    ops.resourceCmp res r i = .ok o ↔ ∃ v, ops.val res i = some v ∧ compare v r = o := by
  unfold ResOps.resourceCmp ResOps.val Slab.index
  cases res.get i <;> simp [bind, Except.bind, pure, Except.pure]

theorem resourceIndexCmp_cases {i j : Nat} {o : Ordering}
    (h : ops.resourceIndexCmp res j i = .ok o) :
    ∃ v w, ops.val res i = some v ∧ ops.val res j = some w ∧ compare v w = o := by
  unfold ResOps.resourceIndexCmp at h
  obtain ⟨x, hx, h⟩ := bind_ok h
  obtain ⟨y, hy, h⟩ := bind_ok h
  rw [Slab.index_eq_ok] at hx hy
  exact ⟨_, _, by simp [ResOps.val, hx], by simp [ResOps.val, hy], pure_ok h⟩

/-! ### Indexes -/

theorem survey_all {cmp : Nat → Res Ordering} {l : Index} {os : List Ordering}
    (h : Index.survey cmp l = .ok os) (P : Ordering → Prop) (hp : ∀ o ∈ os, P o) :
    ∀ i ∈ l, ∃ o, cmp i = .ok o ∧ P o := by
  induction l generalizing os with
  | nil => simp
  | cons j l ih =>
    unfold Index.survey at h
    obtain ⟨o, ho, h⟩ := bind_ok h
    obtain ⟨os', hos, h⟩ := bind_ok h
    cases pure_ok h
    intro i hi
    rcases List.mem_cons.1 hi with rfl | hi
    · exact ⟨o, ho, hp o (by simp)⟩
    · exact ih hos (fun o ho => hp o (by simp [ho])) i hi

/-- The result of a search: the only equal item, or nothing because there is none. -/
def Only (cmp : Nat → Res Ordering) (l : Index) : Option Nat → Prop
  | some i => i ∈ l ∧ cmp i = .ok .eq ∧ ∀ j ∈ l, cmp j = .ok .eq → j = i
  | none => ∀ j ∈ l, cmp j ≠ .ok .eq

theorem getFrom_cases {cmp : Nat → Res Ordering} {l : Index} {os : List Ordering}
    (hs : Index.survey cmp l = .ok os) (ha : Index.aligned os = true) {found : Option Nat}
    (h : Index.getFrom cmp l = .ok found) :
    Only cmp l found := by
  induction l generalizing os with
  | nil =>
    cases h
    simp [Only]
  | cons j l ih =>
    unfold Index.survey at hs
    obtain ⟨o, ho, hs⟩ := bind_ok hs
    obtain ⟨os', hos, hs⟩ := bind_ok hs
    cases pure_ok hs
    unfold Index.getFrom at h
    obtain ⟨o', ho', h⟩ := bind_ok h
    rw [ho] at ho'
    cases ho'
    have gts : o ≠ .lt → ∀ i ∈ l, cmp i ≠ .ok .eq := by
      intro hne i hi
      have : os'.all (· == .gt) = true := by
        cases o with
        | lt => exact absurd rfl hne
        | eq => exact ha
        | gt => exact ha
      obtain ⟨o'', h1, h2⟩ := survey_all hos (· = .gt)
        (fun o ho => by simpa using List.all_eq_true.1 this o ho) i hi
      rw [h1, h2]
      intro e
      cases e
    cases o with
    | lt =>
      have := ih hos ha h
      cases found with
      | none =>
        intro i hi
        rcases List.mem_cons.1 hi with rfl | hi
        · rw [ho]
          intro e
          cases e
        · exact this i hi
      | some i =>
        obtain ⟨h1, h2, h3⟩ := this
        refine ⟨by simp [h1], h2, ?_⟩
        intro k hk e
        rcases List.mem_cons.1 hk with rfl | hk
        · rw [ho] at e
          cases e
        · exact h3 k hk e
    | eq =>
      cases h
      refine ⟨by simp, ho, ?_⟩
      intro k hk e
      rcases List.mem_cons.1 hk with rfl | hk
      · rfl
      · exact absurd e (gts (by simp) k hk)
    | gt =>
      cases h
      intro k hk
      rcases List.mem_cons.1 hk with rfl | hk
      · rw [ho]
        intro e
        cases e
      · exact gts (by simp) k hk

theorem get_cases {cmp : Nat → Res Ordering} {l : Index} {found : Option Nat}
    (h : Index.get cmp l = .ok found) :
    Only cmp l found := by
  unfold Index.get Index.check at h
  obtain ⟨_, h', h⟩ := bind_ok h
  obtain ⟨os, hos, h'⟩ := bind_ok h'
  split at h'
  · rename_i ha
    exact getFrom_cases hos ha h
  · cases h'

theorem insert_mem {rep : Bool} {cmp : Nat → Res Ordering} {item : Nat} {l l' : Index}
    (h : Index.insert rep cmp item l = .ok l') :
    (∀ i ∈ l', i ∈ l ∨ i = item) ∧ (∀ i ∈ l, cmp i ≠ .ok .eq → i ∈ l') ∧
      ((∀ i ∈ l, cmp i ≠ .ok .eq) → item ∈ l') := by
  unfold Index.insert at h
  replace h := (bind_ok h).choose_spec.2
  induction l generalizing l' with
  | nil =>
    cases h
    simp
  | cons j l ih =>
    unfold Index.insertFrom at h
    obtain ⟨o, ho, h⟩ := bind_ok h
    cases o with
    | lt =>
      obtain ⟨l₁, h₁, h⟩ := bind_ok h
      cases pure_ok h
      obtain ⟨a, b, c⟩ := ih h₁
      refine ⟨?_, ?_, ?_⟩
      · intro i hi
        rcases List.mem_cons.1 hi with rfl | hi
        · simp
        · rcases a i hi with h | h <;> simp [h]
      · intro i hi hne
        rcases List.mem_cons.1 hi with rfl | hi
        · simp
        · simp [b i hi hne]
      · intro hne
        simp [c (fun i hi => hne i (by simp [hi]))]
    | eq =>
      cases pure_ok h
      refine ⟨?_, ?_, ?_⟩
      · intro i hi
        rcases List.mem_cons.1 hi with rfl | hi
        · cases rep <;> simp
        · simp [hi]
      · intro i hi hne
        rcases List.mem_cons.1 hi with rfl | hi
        · exact absurd ho hne
        · simp [hi]
      · exact fun hne => absurd ho (hne j (by simp))
    | gt =>
      cases pure_ok h
      refine ⟨?_, ?_, by simp⟩
      · intro i hi
        simp only [List.mem_cons] at hi ⊢
        rcases hi with h | h | h <;> simp [h]
      · intro i hi _
        simp only [List.mem_cons] at hi ⊢
        rcases hi with h | h <;> simp [h]

theorem remove_mem {cmp : Nat → Res Ordering} {l l' : Index} {o : Option Nat}
    (h : Index.remove cmp l = .ok (l', o)) : ∀ i ∈ l', i ∈ l := by
  unfold Index.remove at h
  replace h := (bind_ok h).choose_spec.2
  induction l generalizing l' o with
  | nil =>
    cases h
    simp
  | cons j l ih =>
    unfold Index.removeFrom at h
    obtain ⟨c, -, h⟩ := bind_ok h
    intro i hi
    cases c with
    | lt =>
      obtain ⟨⟨l₁, o₁⟩, h₁, h⟩ := bind_ok h
      cases pure_ok h
      rcases List.mem_cons.1 hi with rfl | hi
      · simp
      · simp [ih h₁ i hi]
    | eq =>
      cases pure_ok h
      simp [hi]
    | gt =>
      cases pure_ok h
      exact hi

/-! ### Reading -/

theorem readResources_mem {idx : Index} {rs : List R} (h : ops.readResources res idx = .ok rs)
    (r : R) : r ∈ rs ↔ ∃ i ∈ idx, ops.val res i = some r := by
  unfold ResOps.readResources at h
  rw [mem_mapM h]
  refine exists_congr fun i => and_congr_right fun _ => ?_
  unfold ResOps.val Slab.index
  cases res.get i <;> simp [bind, Except.bind, pure, Except.pure]

/-- A look-up of `r` finds the slot of the listed spelling `w`, or `r` is listed in no spelling and
`w` is `r`. -/
def Spelled (v : Nat → Option R) (idx : Index) (r w : R) : Option Nat → Prop
  | some i => v i = some w
  | none => w = r ∧ ∀ i ∈ idx, ∃ a, v i = some a ∧ compare a r ≠ .eq

theorem found_spell {idx : Index} {rs : List R} (h : ops.readResources res idx = .ok rs)
    (hd : ∀ i ∈ idx, ∃ v, ops.val res i = some v) {r : R}
    {found : Option Nat} (hf : ops.indexOfResource res idx r = .ok found) :
    Spelled (ops.val res) idx r (spell rs r) found := by
  have hc := get_cases hf
  have hnone : (∀ v ∈ rs, compare v r ≠ .eq) → spell rs r = r := by
    intro hv
    clear h hf hc
    induction rs with
    | nil => rfl
    | cons a l ih =>
      unfold spell
      rw [if_neg (hv a (by simp))]
      exact ih fun v h => hv v (by simp [h])
  cases found with
  | none =>
    have hi : ∀ i ∈ idx, ∀ v, ops.val res i = some v → compare v r ≠ .eq :=
      fun i hi v hv e => hc i hi (resourceCmp_iff.2 ⟨v, hv, e⟩)
    refine ⟨hnone fun v hv => ?_, fun i him => ?_⟩
    · obtain ⟨i, him, hiv⟩ := (readResources_mem h v).1 hv
      exact hi i him v hiv
    · obtain ⟨v, hv⟩ := hd i him
      exact ⟨v, hv, hi i him v hv⟩
  | some i =>
    obtain ⟨h1, h2, h3⟩ := hc
    obtain ⟨v, hv, he⟩ := resourceCmp_iff.1 h2
    have huniq : ∀ a ∈ rs, compare a r = .eq → a = v := by
      intro a ha e
      obtain ⟨j, hj, hjv⟩ := (readResources_mem h a).1 ha
      have := h3 j hj (resourceCmp_iff.2 ⟨a, hjv, e⟩)
      subst this
      rw [hv] at hjv
      cases hjv
      rfl
    have hmem : v ∈ rs := (readResources_mem h v).2 ⟨i, h1, hv⟩
    have : spell rs r = v := by
      clear h hf h2 h3 hnone
      induction rs with
      | nil => simp at hmem
      | cons a l ih =>
        unfold spell
        split
        · rename_i e
          exact huniq a (by simp) e
        · rename_i e
          refine ih (fun b hb => huniq b (by simp [hb])) ?_
          rcases List.mem_cons.1 hmem with rfl | h
          · exact absurd he e
          · exact h
    exact hv.trans (congrArg some this.symm)

/-! ### Acquiring and releasing -/

/-- The table after some blocks of an insertion, of terms among `ts`: `idx₀` and `v₀` are the table
at the start. -/
structure Acquired (ops : ResOps R ρ) (v₀ : Nat → Option R) (idx₀ : Index) (ts : List R)
    (res : Slab ρ) (idx : Index) : Prop where
  wf : res.WF
  grows : Grows v₀ (ops.val res)
  keeps : ∀ i ∈ idx₀, i ∈ idx
  news : ∀ i ∈ idx, i ∈ idx₀ ∨ ∃ r ∈ ts, ops.val res i = some r

theorem acquire_cases (V : Valued ops) {rep : Bool} {v₀ : Nat → Option R} {idx₀ idx idx' : Index}
    {ts : List R} (A : Acquired ops v₀ idx₀ ts res idx) {p : Pos} {k : Nat} {r w : R}
    {found : Option Nat}
    (hf : Spelled v₀ idx₀ r w found) {j : Nat}
    (h : ops.acquire rep res idx p k r found = .ok (res', idx', j)) :
    Acquired ops v₀ idx₀ (r :: ts) res' idx' ∧ Grows (ops.val res) (ops.val res') ∧
      ops.val res' j = some w := by
  unfold ResOps.acquire at h
  cases found with
  | some i =>
    obtain ⟨res₁, h₁, h⟩ := bind_ok h
    cases pure_ok h
    obtain ⟨x, x', hx, hx', rfl⟩ := modify_cases h₁
    have hv := val_put hx (V.add hx')
    have hg : Grows (ops.val res) (ops.val (res.put j x')) := fun n r e => by rw [hv, e]
    refine ⟨⟨Slab.wf_put A.wf hx, A.grows.trans hg, A.keeps, ?_⟩, hg, ?_⟩
    · intro n hn
      rcases A.news n hn with h | ⟨r', hr', e⟩
      · exact .inl h
      · exact .inr ⟨r', by simp [hr'], hg n r' e⟩
    · exact hg j w (A.grows j w hf)
  | none =>
    obtain ⟨rfl, hn⟩ := hf
    obtain ⟨idx₁, h₁, h⟩ := bind_ok h
    cases pure_ok h
    have hv := val_insert (ops := ops) A.wf (ops.create w p k)
    rw [V.create] at hv
    have hvac : ops.val res res.vacantKey = none := by
      simp [ResOps.val, Slab.get_vacantKey A.wf]
    have hg : Grows (ops.val res) (ops.val (res.insert (ops.create w p k))) := by
      intro n r e
      rw [hv]
      split
      · rename_i hne
        rw [hne, hvac] at e
        cases e
      · exact e
    have hnew : ops.val (res.insert (ops.create w p k)) res.vacantKey = some w := by simp [hv]
    obtain ⟨m1, m2, -⟩ := insert_mem h₁
    refine ⟨⟨Slab.wf_insert A.wf _, A.grows.trans hg, ?_, ?_⟩, hg, hnew⟩
    · intro i hi
      refine m2 i (A.keeps i hi) fun e => ?_
      obtain ⟨v, w', hv', hw', e⟩ := resourceIndexCmp_cases e
      rw [hnew] at hw'
      cases hw'
      obtain ⟨v', hv₀, hne⟩ := hn i hi
      rw [hg i v' (A.grows i v' hv₀)] at hv'
      cases hv'
      exact hne e
    · intro n hn
      rcases m1 n hn with h | rfl
      · rcases A.news n h with h | ⟨r', hr', e⟩
        · exact .inl h
        · exact .inr ⟨r', by simp [hr'], hg n r' e⟩
      · exact .inr ⟨w, by simp, hnew⟩

/-- Releasing keeps the values of the slots that stay, and lists no other slot. -/
theorem release_cases (V : Valued ops) {idx idx' : Index} {p : Pos} {k i : Nat}
    {cmp : Slab ρ → Nat → Res Ordering} {b : Bool}
    (h : ops.release res idx p k i cmp = .ok (res', idx', b)) :
    Grows (ops.val res') (ops.val res) ∧ ∀ j ∈ idx', j ∈ idx := by
  unfold ResOps.release at h
  obtain ⟨res₁, h₁, h⟩ := bind_ok h
  obtain ⟨x, x', hx, hx', rfl⟩ := modify_cases h₁
  have hv := val_put hx (V.del hx')
  obtain ⟨y, -, h⟩ := bind_ok h
  split at h
  · obtain ⟨⟨idx₁, o⟩, h₂, h⟩ := bind_ok h
    obtain ⟨⟨res₂, z⟩, h₃, h⟩ := bind_ok h
    cases pure_ok h
    obtain ⟨-, rfl⟩ := remove_cases h₃
    refine ⟨?_, remove_mem h₂⟩
    intro n r e
    rw [val_erase] at e
    split at e
    · cases e
    · rwa [hv] at e
  · cases pure_ok h
    exact ⟨fun n r e => by rwa [hv] at e, fun _ h => h⟩

/-! ## Statements -/

theorem valued_grows {sh : Shape K S R} (H : ShapeLaws sh) {v v' : Nat → Option R}
    (h : Grows v v') {q : K} {x : S} (hx : sh.valued v q = some x) : sh.valued v' q = some x := by
  rw [H.valued_iff] at hx ⊢
  intro p
  have := hx p
  split at this
  · exact this
  · obtain ⟨r, hr, e⟩ := this
    exact ⟨r, h _ _ hr, e⟩

theorem readQuad_iff {quads : Slab (Quad Nat)} {k : Nat} {x : Quad R} :
    ops.readQuad res quads k = .ok x ↔ (quadShape R).sval ops res quads k = some x := by
  unfold ResOps.readQuad Shape.sval Slab.index
  cases quads.get k with
  | none => simp [bind, Except.bind]
  | some q =>
    obtain ⟨s, p, o, g⟩ := q
    simp only [bind, Except.bind, Option.bind, ResOps.quadWithResources, quadShape, ResOps.val,
      Slab.index]
    cases res.get s <;> simp
    cases res.get p <;> simp
    cases res.get o <;> simp
    cases g with
    | none => simp [pure, Except.pure]
    | some g => simp; cases res.get g <;> simp [pure, Except.pure]

theorem readTriple_iff {triples : Slab (Triple Nat)} {k : Nat} {x : Triple R} :
    ops.readTriple res triples k = .ok x ↔ (tripleShape R).sval ops res triples k = some x := by
  unfold ResOps.readTriple Shape.sval Slab.index
  cases triples.get k with
  | none => simp [bind, Except.bind]
  | some q =>
    obtain ⟨s, p, o⟩ := q
    simp only [bind, Except.bind, Option.bind, ResOps.tripleWithResources, tripleShape, ResOps.val,
      Slab.index]
    cases res.get s <;> simp
    cases res.get p <;> simp
    cases res.get o <;> simp [pure, Except.pure]

theorem acquireQuad_cases (V : Valued ops) {rep : Bool} {idx idx' : Index} {k : Nat} {q : Quad R}
    {q' : Quad Nat} (hwf : res.WF) {rs : List R} (hrs : ops.readResources res idx = .ok rs)
    (hd : ∀ i ∈ idx, ∃ v, ops.val res i = some v)
    (h : ops.acquireQuad rep res idx k q = .ok (res', idx', q')) :
    ∃ ts, (∀ t ∈ ts, t ∈ quadTerms q) ∧ Acquired ops (ops.val res) idx ts res' idx' ∧
      (quadShape R).valued (ops.val res') q' = some (q.map (spell rs)) := by
  have key : ∀ {r : R} {found : Option Nat}, ops.indexOfResource res idx r = .ok found →
      Spelled (ops.val res) idx r (spell rs r) found := found_spell hrs hd
  have A₀ : Acquired ops (ops.val res) idx [] res idx :=
    ⟨hwf, Grows.refl _, fun _ h => h, fun _ h => .inl h⟩
  obtain ⟨s, p, o, g⟩ := q
  unfold ResOps.acquireQuad at h
  obtain ⟨sf, hs, h⟩ := bind_ok h
  obtain ⟨pf, hp, h⟩ := bind_ok h
  obtain ⟨of, ho, h⟩ := bind_ok h
  cases g with
  | none =>
    obtain ⟨gf, hg, h⟩ := bind_ok h
    obtain ⟨⟨res₁, idx₁, s'⟩, h₁, h⟩ := bind_ok h
    obtain ⟨⟨res₂, idx₂, p'⟩, h₂, h⟩ := bind_ok h
    obtain ⟨⟨res₃, idx₃, o'⟩, h₃, h⟩ := bind_ok h
    obtain ⟨A₁, g₁, v₁⟩ := acquire_cases V A₀ (key hs) h₁
    obtain ⟨A₂, g₂, v₂⟩ := acquire_cases V A₁ (key hp) h₂
    obtain ⟨A₃, g₃, v₃⟩ := acquire_cases V A₂ (key ho) h₃
    cases pure_ok h
    refine ⟨_, ?_, A₃, ?_⟩
    · simp [quadTerms]
    · simp [quadShape, v₃, g₃ _ _ v₂, g₃ _ _ (g₂ _ _ v₁), Quad.map]
  | some g =>
    obtain ⟨gf, hg, h⟩ := bind_ok h
    obtain ⟨⟨res₁, idx₁, s'⟩, h₁, h⟩ := bind_ok h
    obtain ⟨⟨res₂, idx₂, p'⟩, h₂, h⟩ := bind_ok h
    obtain ⟨⟨res₃, idx₃, o'⟩, h₃, h⟩ := bind_ok h
    obtain ⟨⟨res₄, idx₄, g'⟩, h₄, h⟩ := bind_ok h
    obtain ⟨A₁, g₁, v₁⟩ := acquire_cases V A₀ (key hs) h₁
    obtain ⟨A₂, g₂, v₂⟩ := acquire_cases V A₁ (key hp) h₂
    obtain ⟨A₃, g₃, v₃⟩ := acquire_cases V A₂ (key ho) h₃
    obtain ⟨A₄, g₄, v₄⟩ := acquire_cases V A₃ (key hg) h₄
    cases pure_ok h
    refine ⟨_, ?_, A₄, ?_⟩
    · simp [quadTerms]
    · simp [quadShape, v₄, g₄ _ _ v₃, g₄ _ _ (g₃ _ _ v₂), g₄ _ _ (g₃ _ _ (g₂ _ _ v₁)), Quad.map]

theorem acquireTriple_cases (V : Valued ops) {rep : Bool} {idx idx' : Index} {k : Nat}
    {t : Triple R} {t' : Triple Nat} (hwf : res.WF) {rs : List R}
    (hrs : ops.readResources res idx = .ok rs) (hd : ∀ i ∈ idx, ∃ v, ops.val res i = some v)
    (h : ops.acquireTriple rep res idx k t = .ok (res', idx', t')) :
    ∃ ts, (∀ r ∈ ts, r ∈ tripleTerms t) ∧ Acquired ops (ops.val res) idx ts res' idx' ∧
      (tripleShape R).valued (ops.val res') t' = some (t.map (spell rs)) := by
  have key : ∀ {r : R} {found : Option Nat}, ops.indexOfResource res idx r = .ok found →
      Spelled (ops.val res) idx r (spell rs r) found := found_spell hrs hd
  have A₀ : Acquired ops (ops.val res) idx [] res idx :=
    ⟨hwf, Grows.refl _, fun _ h => h, fun _ h => .inl h⟩
  obtain ⟨s, p, o⟩ := t
  unfold ResOps.acquireTriple at h
  obtain ⟨sf, hs, h⟩ := bind_ok h
  obtain ⟨pf, hp, h⟩ := bind_ok h
  obtain ⟨of, ho, h⟩ := bind_ok h
  obtain ⟨⟨res₁, idx₁, s'⟩, h₁, h⟩ := bind_ok h
  obtain ⟨⟨res₂, idx₂, p'⟩, h₂, h⟩ := bind_ok h
  obtain ⟨⟨res₃, idx₃, o'⟩, h₃, h⟩ := bind_ok h
  obtain ⟨A₁, g₁, v₁⟩ := acquire_cases V A₀ (key hs) h₁
  obtain ⟨A₂, g₂, v₂⟩ := acquire_cases V A₁ (key hp) h₂
  obtain ⟨A₃, g₃, v₃⟩ := acquire_cases V A₂ (key ho) h₃
  cases pure_ok h
  refine ⟨_, ?_, A₃, ?_⟩
  · simp [tripleTerms]
  · simp [tripleShape, v₃, g₃ _ _ v₂, g₃ _ _ (g₂ _ _ v₁), Triple.map]

/-! ## Containers -/

/-- What both slabs and indexes of a container satisfy, whatever the terms. -/
structure Slots (ops : ResOps R ρ) (res : Slab ρ) (ridx : Index) (st : Slab K) (sidx : Index) :
    Prop where
  wf : res.WF
  swf : st.WF
  mem : ∀ k, k ∈ sidx ↔ ∃ q, st.get k = some q
  listed : ∀ i ∈ ridx, ∃ v, ops.val res i = some v

theorem wf_of_rel {α β : Type} {V : α → β → Prop} {s : Slab α} {s' : Slab β} (h : SlabRel V s s')
    (hw : s'.WF) : s.WF := by
  refine ⟨h.free ▸ hw.nodup, fun k => ?_⟩
  rw [← h.free, hw.mem_free, h.length]
  have := h.get k
  refine and_congr_right fun _ => ?_
  cases hs : s.get k <;> cases hs' : s'.get k <;> simp_all [OptRel]

theorem slots_of_rel {Q ρ' S' : Type} [Ord Q] [Ord S'] {Z : ρ → ρ' → Prop}
    {ops' : ResOps Q ρ'}
    {sh : Shape K S' Q} {Rep : ρ' → (Pos → Nat → Prop) → Prop} {res' : Slab ρ'} {ridx sidx : Index}
    {st : Slab K} (h : SlabRel Z res res') (I : Inv sh ops' Rep res' ridx st sidx) :
    Slots ops res ridx st sidx := by
  refine ⟨wf_of_rel h I.table.wf, I.wf, I.mem, ?_⟩
  intro i hi
  obtain ⟨v, hv⟩ := I.table.sorted.defined i hi
  have := h.get i
  unfold ResOps.val at hv ⊢
  cases hs : res.get i <;> cases hs' : res'.get i <;> simp_all [OptRel]

theorem readResources_ok {ridx : Index} (h : ∀ i ∈ ridx, ∃ v, ops.val res i = some v) :
    ∃ rs, ops.readResources res ridx = .ok rs := by
  obtain ⟨rs, h, -⟩ := readResources_spec h
  exact ⟨rs, h⟩

/-- What has to be known of the calls of a container; `Good` are the states that some container
with an order that tells all terms apart mirrors. -/
structure CallCases {D : Type} (Good : D → Prop) (c : Container S D)
    (respell : (R → R) → S → S) (terms : S → List R) (resources : D → Res (List R))
    (sh : Shape K S R) (ops : ResOps R ρ) (res : D → Slab ρ) (ridx : D → Index) (st : D → Slab K)
    (sidx : D → Index) : Prop where
  slots : ∀ d, Good d → Slots ops (res d) (ridx d) (st d) (sidx d)
  iter : ∀ d xs, c.iter d = .ok xs →
    ∀ z, z ∈ xs ↔ ∃ k ∈ sidx d, sh.sval ops (res d) (st d) k = some z
  lists : ∀ d, resources d = ops.readResources (res d) (ridx d)
  same : ∀ d x d', c.insert d x = .ok (d', false) → d' = d
  insert : ∀ d x d' rs, Slots ops (res d) (ridx d) (st d) (sidx d) → resources d = .ok rs →
    c.insert d x = .ok (d', true) →
    ∃ q ts, st d' = (st d).insert q ∧ (∀ t ∈ ts, t ∈ terms x) ∧
      Acquired ops (ops.val (res d)) (ridx d) ts (res d') (ridx d') ∧
      sh.valued (ops.val (res d')) q = some (respell (spell rs) x)
  remove : ∀ d x d' b, c.remove d x = .ok (d', b) →
    Grows (ops.val (res d')) (ops.val (res d)) ∧ (∀ j ∈ ridx d', j ∈ ridx d) ∧
      ∀ k q, (st d').get k = some q → (st d).get k = some q

section mirror

variable [Ord S] {S' D D' : Type} [Ord S'] {c : Container S D} {c' : Container S' D'} {σ : S → S'}
  {T : D → D' → Prop} {I : D' → Prop} {abs : D' → S' → Prop}

/-- Some container with an order that tells all terms apart mirrors `d`. -/
def Good (T : D → D' → Prop) (I : D' → Prop) (d : D) : Prop := ∃ d', T d d' ∧ I d'

/-- `xs` lists what the mirror `d'` holds. -/
structure Mirrors (abs : D' → S' → Prop) (σ : S → S') (xs : List S) (d' : D') : Prop where
  ascending : xs.Pairwise (fun x y => compare x y = .lt)
  sound : ∀ x ∈ xs, abs d' (σ x)
  complete : ∀ y, abs d' y → ∃ x ∈ xs, σ x = y

theorem Mirrors.inj {xs : List S} {d' : D'} (M : Mirrors abs σ xs d')
    (eq : ∀ x y, σ x = σ y → compare x y = .eq) {a b : S} (ha : a ∈ xs) (hb : b ∈ xs)
    (hab : σ a = σ b) : a = b := by
  have hl := M.ascending
  clear M
  induction xs with
  | nil => simp at ha
  | cons y l ih =>
    obtain ⟨h1, h2⟩ := List.pairwise_cons.1 hl
    rcases List.mem_cons.1 ha with e | ha' <;> rcases List.mem_cons.1 hb with e' | hb'
    · rw [e, e']
    · have := h1 b hb'
      rw [← e, eq _ _ hab] at this
      cases this
    · have := h1 a ha'
      rw [← e', eq _ _ hab.symm] at this
      cases this
    · exact ih ha' hb' h2

theorem mirrors (h : ContainerRel c c' (Named σ) (Named σ) T)
    (ho : ∀ x y, compare (σ x) (σ y) = compare x y) (L : c'.Laws I abs) {d : D} {d' : D'}
    (hT : T d d') (hI : I d') : ∃ xs, c.iter d = .ok xs ∧ Mirrors abs σ xs d' := by
  obtain ⟨ys, hy, hl, -⟩ := L.iter d' hI
  obtain ⟨xs, hx, hxy⟩ := (h.iter d d' hT).ok_right hy
  have e : ys = xs.map σ := eq_of_each (fun _ _ h => h) hxy
  subst e
  refine ⟨xs, hx, ?_, ?_, ?_⟩
  · exact (List.pairwise_map.1 hl.ascending).imp fun h => by rwa [ho] at h
  · exact fun x hx => (hl.exact _).1 (List.mem_map_of_mem hx)
  · intro y hy
    obtain ⟨x, hx, e⟩ := List.mem_map.1 ((hl.exact _).2 hy)
    exact ⟨x, hx, e⟩

/-- The mirror of a state after an insertion. -/
theorem mirror_insert (h : ContainerRel c c' (Named σ) (Named σ) T) (L : c'.Laws I abs) {d : D}
    {d' : D'} (hT : T d d') (hI : I d') (x : S) :
    ∃ d₁ b d₁', c.insert d x = .ok (d₁, b) ∧ T d₁ d₁' ∧ I d₁' ∧
      (∀ y, abs d₁' y ↔ abs d' y ∨ y = σ x) ∧ (b = true ↔ ¬ abs d' (σ x)) := by
  obtain ⟨d₁', b', h₁, hI₁, ha, hb, -⟩ := L.insert d' (σ x) hI
  obtain ⟨⟨d₁, b⟩, e, hT₁, hbb⟩ := (h.insert d d' x (σ x) hT rfl).ok_right h₁
  exact ⟨d₁, b, d₁', e, hT₁, hI₁, ha, by rw [← hb]; exact (congrArg (· = true) hbb).to_iff⟩

/-- The mirror of a state after a removal. -/
theorem mirror_remove (h : ContainerRel c c' (Named σ) (Named σ) T) (L : c'.Laws I abs) {d : D}
    {d' : D'} (hT : T d d') (hI : I d') (x : S) :
    ∃ d₁ b d₁', c.remove d x = .ok (d₁, b) ∧ T d₁ d₁' ∧ I d₁' ∧
      (∀ y, abs d₁' y ↔ abs d' y ∧ y ≠ σ x) ∧ (b = true ↔ abs d' (σ x)) := by
  obtain ⟨d₁', b', h₁, hI₁, ha, hb, -⟩ := L.remove d' (σ x) hI
  obtain ⟨⟨d₁, b⟩, e, hT₁, hbb⟩ := (h.remove d d' x (σ x) hT rfl).ok_right h₁
  exact ⟨d₁, b, d₁', e, hT₁, hI₁, ha, by rw [← hb]; exact (congrArg (· = true) hbb).to_iff⟩

theorem good_extend (h : ContainerRel c c' (Named σ) (Named σ) T) (L : c'.Laws I abs) {d d₁ : D}
    (hd : Good T I d) {l : List S} (he : c.extend d l = .ok d₁) : Good T I d₁ := by
  induction l generalizing d with
  | nil =>
    cases he
    exact hd
  | cons x l ih =>
    obtain ⟨⟨d₂, b⟩, h₂, he⟩ := bind_ok he
    obtain ⟨d', hT, hI⟩ := hd
    obtain ⟨_, _, d₁', e, hT', hI', -⟩ := mirror_insert h L hT hI x
    rw [h₂] at e
    cases e
    exact ih ⟨d₁', hT', hI'⟩ he

theorem good_answer (h : ContainerRel c c' (Named σ) (Named σ) T) (L : c'.Laws I abs)
    {resources : D → Res (List R)} {containsResource : D → R → Res Bool} {d d₁ : D}
    {a : Call S R} {x : Reply S R} (hd : Good T I d)
    (ha : answer c resources containsResource d a = .ok (d₁, x)) : Good T I d₁ := by
  cases a with
  | insert x =>
    obtain ⟨⟨d₂, b⟩, h₂, ha⟩ := bind_ok ha
    cases pure_ok ha
    obtain ⟨d', hT, hI⟩ := hd
    obtain ⟨_, _, d₁', e, hT', hI', -⟩ := mirror_insert h L hT hI x
    rw [h₂] at e
    cases e
    exact ⟨d₁', hT', hI'⟩
  | remove x =>
    obtain ⟨⟨d₂, b⟩, h₂, ha⟩ := bind_ok ha
    cases pure_ok ha
    obtain ⟨d', hT, hI⟩ := hd
    obtain ⟨_, _, d₁', e, hT', hI', -⟩ := mirror_remove h L hT hI x
    rw [h₂] at e
    cases e
    exact ⟨d₁', hT', hI'⟩
  | extend l =>
    obtain ⟨d₂, h₂, ha⟩ := bind_ok ha
    cases pure_ok ha
    exact good_extend h L hd h₂
  | contains x =>
    obtain ⟨_, -, ha⟩ := bind_ok ha
    cases pure_ok ha
    exact hd
  | iter =>
    obtain ⟨_, -, ha⟩ := bind_ok ha
    cases pure_ok ha
    exact hd
  | intoIter =>
    obtain ⟨_, -, ha⟩ := bind_ok ha
    cases pure_ok ha
    exact hd
  | len =>
    cases pure_ok ha
    exact hd
  | isEmpty =>
    cases pure_ok ha
    exact hd
  | resources =>
    obtain ⟨_, -, ha⟩ := bind_ok ha
    cases pure_ok ha
    exact hd
  | containsResource r =>
    obtain ⟨_, -, ha⟩ := bind_ok ha
    cases pure_ok ha
    exact hd

theorem good_session {A X : Type} {P : D → Prop} {ask : D → A → Res (D × X)}
    (h : ∀ d a d₁ x, P d → ask d a = .ok (d₁, x) → P d₁) {d d₁ : D} (hd : P d) {l : List A}
    (hs : sessionEnd ask d l = .ok d₁) : P d₁ := by
  induction l generalizing d with
  | nil =>
    cases hs
    exact hd
  | cons a l ih =>
    obtain ⟨⟨d₂, x⟩, h₂, hs⟩ := bind_ok hs
    exact ih (h d a d₂ x hd h₂) hs

theorem keepsSpelling {Reached : D → Prop} {like : S → S → Prop} {respell : (R → R) → S → S}
    {terms : S → List R} {resources : D → Res (List R)} {sh : Shape K S R} (H : ShapeLaws sh)
    {res : D → Slab ρ} {ridx : D → Index} {st : D → Slab K} {sidx : D → Index}
    (h : ContainerRel c c' (Named σ) (Named σ) T) (L : c'.Laws I abs)
    (ho : ∀ x y, compare (σ x) (σ y) = compare x y) (eq : ∀ x y, σ x = σ y → compare x y = .eq)
    (hσ : ∀ x y, σ x = σ y ↔ like x y) (reached : ∀ d, Reached d → Good T I d)
    (C : CallCases (Good T I) c respell terms resources sh ops res ridx st sidx)
    (spelled : ∀ rs x, like (respell (spell rs) x) x) :
    KeepsSpelling Reached c like respell terms resources := by
  intro d hd
  obtain ⟨d', hT, hI⟩ := reached d hd
  have Sl := C.slots d ⟨d', hT, hI⟩
  obtain ⟨xs, hx, M⟩ := mirrors h ho L hT hI
  obtain ⟨rs, hrs⟩ := readResources_ok Sl.listed
  have held : ∀ x, abs d' (σ x) ↔ ∃ z ∈ xs, like x z := fun x =>
    ⟨fun h => by
      obtain ⟨z, hz, e⟩ := M.complete _ h
      exact ⟨z, hz, (hσ _ _).1 e.symm⟩,
    fun ⟨z, hz, hl⟩ => (hσ _ _).2 hl ▸ M.sound z hz⟩
  refine ⟨xs, rs, hx, by rw [C.lists, hrs], ?_, ?_⟩
  · intro x
    obtain ⟨d₁, b, d₁', hi, hT₁, hI₁, ha, hb⟩ := mirror_insert h L hT hI x
    refine ⟨d₁, b, hi, by rw [hb, held]; simp, ?_, ?_⟩
    · rintro rfl
      exact C.same d x d₁ hi
    rintro rfl
    have Sl' := C.slots d₁ ⟨d₁', hT₁, hI₁⟩
    obtain ⟨ys, hy, M'⟩ := mirrors h ho L hT₁ hI₁
    obtain ⟨rs', hrs'⟩ := readResources_ok Sl'.listed
    obtain ⟨q, ts, hst, hts, A, hq⟩ := C.insert d x d₁ rs Sl (by rw [C.lists, hrs]) hi
    have hsub : ∀ z ∈ xs, z ∈ ys := by
      intro z hz
      obtain ⟨k, hk, hv⟩ := (C.iter d xs hx z).1 hz
      obtain ⟨q₀, hq₀⟩ := (Sl.mem k).1 hk
      have hk' : (st d₁).get k = some q₀ := by
        rw [hst, Slab.get_insert Sl.swf, if_neg, hq₀]
        rintro rfl
        rw [Slab.get_vacantKey Sl.swf] at hq₀
        cases hq₀
      refine (C.iter d₁ ys hy z).2 ⟨k, (Sl'.mem k).2 ⟨q₀, hk'⟩, ?_⟩
      simp only [Shape.sval, hq₀, hk', Option.bind_some] at hv ⊢
      exact valued_grows H A.grows hv
    have hnew : respell (spell rs) x ∈ ys := by
      have hk : (st d₁).get (st d).vacantKey = some q := by
        rw [hst, Slab.get_insert Sl.swf, if_pos rfl]
      refine (C.iter d₁ ys hy _).2 ⟨_, (Sl'.mem _).2 ⟨q, hk⟩, ?_⟩
      simp only [Shape.sval, hk, Option.bind_some]
      exact hq
    refine ⟨ys, rs', hy, by rw [C.lists, hrs'], ?_, ?_, ?_⟩
    · intro z
      constructor
      · intro hz
        rcases (ha _).1 (M'.sound z hz) with h | h
        · obtain ⟨w, hw, hwz⟩ := M.complete _ h
          exact .inl (M'.inj eq (hsub w hw) hz hwz ▸ hw)
        · exact .inr (M'.inj eq hz hnew (h.trans ((hσ _ _).2 (spelled rs x)).symm))
      · rintro (hz | rfl)
        · exact hsub z hz
        · exact hnew
    · intro r hr
      obtain ⟨i, hi, hv⟩ := (readResources_mem hrs r).1 hr
      exact (readResources_mem hrs' r).2 ⟨i, A.keeps i hi, A.grows i r hv⟩
    · intro r hr
      obtain ⟨i, hi, hv⟩ := (readResources_mem hrs' r).1 hr
      rcases A.news i hi with h | ⟨t, ht, e⟩
      · obtain ⟨v, hv'⟩ := Sl.listed i h
        rw [A.grows i v hv'] at hv
        cases hv
        exact .inl ((readResources_mem hrs _).2 ⟨i, h, hv'⟩)
      · rw [hv] at e
        cases e
        exact .inr (hts _ ht)
  · intro x
    obtain ⟨d₁, b, d₁', hr, hT₁, hI₁, ha, hb⟩ := mirror_remove h L hT hI x
    refine ⟨d₁, b, hr, by rw [hb, held], ?_⟩
    have Sl' := C.slots d₁ ⟨d₁', hT₁, hI₁⟩
    obtain ⟨ys, hy, M'⟩ := mirrors h ho L hT₁ hI₁
    obtain ⟨rs', hrs'⟩ := readResources_ok Sl'.listed
    obtain ⟨G, hi, hk⟩ := C.remove d x d₁ b hr
    have hsub : ∀ z ∈ ys, z ∈ xs := by
      intro z hz
      obtain ⟨k, hk', hv⟩ := (C.iter d₁ ys hy z).1 hz
      obtain ⟨q, hq⟩ := (Sl'.mem k).1 hk'
      refine (C.iter d xs hx z).2 ⟨k, (Sl.mem k).2 ⟨q, hk k q hq⟩, ?_⟩
      simp only [Shape.sval, hq, hk k q hq, Option.bind_some] at hv ⊢
      exact valued_grows H G hv
    refine ⟨ys, rs', hy, by rw [C.lists, hrs'], ?_, ?_⟩
    · intro z
      constructor
      · intro hz
        exact ⟨hsub z hz, fun hl => ((ha _).1 (M'.sound z hz)).2 ((hσ _ _).2 hl).symm⟩
      · rintro ⟨hz, hn⟩
        obtain ⟨w, hw, hwz⟩ := M'.complete (σ z)
          ((ha _).2 ⟨M.sound z hz, fun e => hn ((hσ _ _).1 e.symm)⟩)
        exact M.inj eq (hsub w hw) hz hwz ▸ hw
    · intro r hr
      obtain ⟨i, hi', hv⟩ := (readResources_mem hrs' r).1 hr
      exact (readResources_mem hrs r).2 ⟨i, hi i hi', G i r hv⟩

end mirror

/-! ## The four containers -/

section containers

variable [Std.TransOrd R]

theorem like_spell (rs : List R) (r : R) : Like (spell rs r) r := by
  induction rs with
  | nil => exact Std.ReflCmp.compare_self (cmp := (compare : R → R → Ordering))
  | cons a l ih =>
    unfold spell
    split
    · assumption
    · exact ih

theorem alikeQuad_spell (rs : List R) (q : Quad R) : AlikeQuad (q.map (spell rs)) q := by
  obtain ⟨s, p, o, g⟩ := q
  refine ⟨like_spell rs s, like_spell rs p, like_spell rs o, ?_⟩
  cases g with
  | none => exact .inl ⟨rfl, rfl⟩
  | some g => exact .inr ⟨_, _, rfl, rfl, like_spell rs g⟩

theorem alikeTriple_spell (rs : List R) (t : Triple R) : AlikeTriple (t.map (spell rs)) t :=
  ⟨like_spell rs t.s, like_spell rs t.p, like_spell rs t.o⟩

theorem alikeQuad_eq (x y : Quad R) (h : AlikeQuad x y) : compare x y = .eq := by
  rw [← quad_keeps (classOf_keeps R), (quad_class x y).2 h]
  exact Std.ReflCmp.compare_self

theorem alikeTriple_eq (x y : Triple R) (h : AlikeTriple x y) : compare x y = .eq := by
  rw [← triple_keeps (classOf_keeps R), (triple_class x y).2 h]
  exact Std.ReflCmp.compare_self

/-- States mirrored by a dataset of classes. -/
def GoodDataset : BTreeDataset R → Prop :=
  Good (DatasetRel (Named (classOf R))) BTreeDataset.WF

/-- States mirrored by a graph of classes. -/
def GoodGraph : BTreeGraph R → Prop := Good (GraphRel (Named (classOf R))) BTreeGraph.WF

/-- States mirrored by an indexed dataset of classes. -/
def GoodIndexed : IndexedBTreeDataset R → Prop :=
  Good (IndexedDatasetRel (Named (classOf R))) IndexedBTreeDataset.WF

/-- States mirrored by an indexed graph of classes. -/
def GoodIndexedGraph : IndexedBTreeGraph R → Prop :=
  Good (IndexedGraphRel (Named (classOf R))) IndexedBTreeGraph.WF

theorem dataset_mirror (rep : Bool) : ContainerRel (BTreeDataset.container rep R)
    (BTreeDataset.container rep (Class R)) (Named (fun q => q.map (classOf R)))
    (Named (fun q => q.map (classOf R))) (DatasetRel (Named (classOf R))) := by
  have h := dataset_rel (compat_named (classOf_keeps R)) rep
  rwa [quadRel_named (classOf R)] at h

theorem graph_mirror (rep : Bool) : ContainerRel (BTreeGraph.container rep R)
    (BTreeGraph.container rep (Class R)) (Named (fun q => q.map (classOf R)))
    (Named (fun q => q.map (classOf R))) (GraphRel (Named (classOf R))) := by
  have h := graph_rel (compat_named (classOf_keeps R)) rep
  rwa [tripleRel_named (classOf R)] at h

theorem indexed_mirror (rep : Bool) : ContainerRel (IndexedBTreeDataset.container rep R)
    (IndexedBTreeDataset.container rep (Class R)) (Named (fun q => q.map (classOf R)))
    (Named (fun q => q.map (classOf R))) (IndexedDatasetRel (Named (classOf R))) := by
  have h := indexed_rel (compat_named (classOf_keeps R)) rep
  rwa [quadRel_named (classOf R)] at h

theorem indexedGraph_mirror (rep : Bool) : ContainerRel (IndexedBTreeGraph.container rep R)
    (IndexedBTreeGraph.container rep (Class R)) (Named (fun q => q.map (classOf R)))
    (Named (fun q => q.map (classOf R))) (IndexedGraphRel (Named (classOf R))) := by
  have h := indexedGraph_rel (compat_named (classOf_keeps R)) rep
  rwa [tripleRel_named (classOf R)] at h

theorem dataset_calls (rep : Bool) : CallCases GoodDataset (BTreeDataset.container rep R)
    (fun f q => q.map f) quadTerms BTreeDataset.resourceList (quadShape R) (countOps R)
    BTreeDataset.resources BTreeDataset.resourcesIndexes BTreeDataset.quads
    BTreeDataset.quadsIndexes where
  slots d hd := by
    obtain ⟨d', hT, hI⟩ := hd
    have I : Inv _ _ _ _ _ _ _ := hI
    rw [hT.quads, hT.resourcesIndexes, hT.quadsIndexes] at I
    exact slots_of_rel hT.resources I
  iter d xs h z := by
    rw [mem_mapM h]
    simp only [readQuad_iff]
  lists d := rfl
  same d x d' h := by
    simp only [BTreeDataset.container, BTreeDataset.insert] at h
    obtain ⟨b, -, h⟩ := bind_ok h
    split at h
    · cases pure_ok h
      rfl
    · obtain ⟨⟨res, idx, q⟩, -, h⟩ := bind_ok h
      obtain ⟨si, -, h⟩ := bind_ok h
      cases pure_ok h
  insert d x d' rs Sl hrs h := by
    simp only [BTreeDataset.container, BTreeDataset.insert] at h
    obtain ⟨b, -, h⟩ := bind_ok h
    split at h
    · cases pure_ok h
    · obtain ⟨⟨res, idx, q⟩, ha, h⟩ := bind_ok h
      obtain ⟨si, -, h⟩ := bind_ok h
      cases pure_ok h
      obtain ⟨ts, hts, A, hq⟩ := acquireQuad_cases valued_count Sl.wf hrs Sl.listed ha
      exact ⟨q, ts, rfl, hts, A, hq⟩
  remove d x d' b h := by
    simp only [BTreeDataset.container, BTreeDataset.remove] at h
    obtain ⟨⟨si, o⟩, -, h⟩ := bind_ok h
    cases o with
    | none =>
      cases pure_ok h
      exact ⟨Grows.refl _, fun _ h => h, fun _ _ h => h⟩
    | some i =>
      obtain ⟨⟨st, q⟩, hq, h⟩ := bind_ok h
      obtain ⟨-, rfl⟩ := remove_cases hq
      obtain ⟨⟨r₁, i₁, b₁⟩, h₁, h⟩ := bind_ok h
      obtain ⟨⟨r₂, i₂, b₂⟩, h₂, h⟩ := bind_ok h
      obtain ⟨⟨r₃, i₃, b₃⟩, h₃, h⟩ := bind_ok h
      obtain ⟨g₁, m₁⟩ := release_cases valued_count h₁
      obtain ⟨g₂, m₂⟩ := release_cases valued_count h₂
      obtain ⟨g₃, m₃⟩ := release_cases valued_count h₃
      have hst : ∀ k q, (d.quads.erase i).get k = some q → d.quads.get k = some q := by
        intro k q e
        rw [Slab.get_erase] at e
        split at e
        · cases e
        · exact e
      dsimp only at h
      split at h
      · obtain ⟨⟨r₄, i₄, b₄⟩, h₄, h⟩ := bind_ok h
        obtain ⟨g₄, m₄⟩ := release_cases valued_count h₄
        cases pure_ok h
        exact ⟨g₄.trans (g₃.trans (g₂.trans g₁)),
          fun j hj => m₁ j (m₂ j (m₃ j (m₄ j hj))), hst⟩
      · cases pure_ok h
        exact ⟨g₃.trans (g₂.trans g₁), fun j hj => m₁ j (m₂ j (m₃ j hj)), hst⟩

theorem graph_calls (rep : Bool) : CallCases GoodGraph (BTreeGraph.container rep R)
    (fun f t => t.map f) tripleTerms BTreeGraph.resourceList (tripleShape R) (countOps R)
    BTreeGraph.resources BTreeGraph.resourcesIndexes BTreeGraph.triples
    BTreeGraph.triplesIndexes where
  slots d hd := by
    obtain ⟨d', hT, hI⟩ := hd
    have I : Inv _ _ _ _ _ _ _ := hI
    rw [hT.triples, hT.resourcesIndexes, hT.triplesIndexes] at I
    exact slots_of_rel hT.resources I
  iter d xs h z := by
    rw [mem_mapM h]
    simp only [readTriple_iff]
  lists d := rfl
  same d x d' h := by
    simp only [BTreeGraph.container, BTreeGraph.insert] at h
    obtain ⟨b, -, h⟩ := bind_ok h
    split at h
    · cases pure_ok h
      rfl
    · obtain ⟨⟨res, idx, q⟩, -, h⟩ := bind_ok h
      obtain ⟨si, -, h⟩ := bind_ok h
      cases pure_ok h
  insert d x d' rs Sl hrs h := by
    simp only [BTreeGraph.container, BTreeGraph.insert] at h
    obtain ⟨b, -, h⟩ := bind_ok h
    split at h
    · cases pure_ok h
    · obtain ⟨⟨res, idx, q⟩, ha, h⟩ := bind_ok h
      obtain ⟨si, -, h⟩ := bind_ok h
      cases pure_ok h
      obtain ⟨ts, hts, A, hq⟩ := acquireTriple_cases valued_count Sl.wf hrs Sl.listed ha
      exact ⟨q, ts, rfl, hts, A, hq⟩
  remove d x d' b h := by
    simp only [BTreeGraph.container, BTreeGraph.remove] at h
    obtain ⟨⟨si, o⟩, -, h⟩ := bind_ok h
    cases o with
    | none =>
      cases pure_ok h
      exact ⟨Grows.refl _, fun _ h => h, fun _ _ h => h⟩
    | some i =>
      obtain ⟨⟨st, q⟩, hq, h⟩ := bind_ok h
      obtain ⟨-, rfl⟩ := remove_cases hq
      obtain ⟨⟨r₁, i₁, b₁⟩, h₁, h⟩ := bind_ok h
      obtain ⟨⟨r₂, i₂, b₂⟩, h₂, h⟩ := bind_ok h
      obtain ⟨⟨r₃, i₃, b₃⟩, h₃, h⟩ := bind_ok h
      obtain ⟨g₁, m₁⟩ := release_cases valued_count h₁
      obtain ⟨g₂, m₂⟩ := release_cases valued_count h₂
      obtain ⟨g₃, m₃⟩ := release_cases valued_count h₃
      have hst : ∀ k q, (d.triples.erase i).get k = some q → d.triples.get k = some q := by
        intro k q e
        rw [Slab.get_erase] at e
        split at e
        · cases e
        · exact e
      cases pure_ok h
      exact ⟨g₃.trans (g₂.trans g₁), fun j hj => m₁ j (m₂ j (m₃ j hj)), hst⟩

theorem indexedGraph_calls (rep : Bool) : CallCases GoodIndexedGraph (IndexedBTreeGraph.container rep R)
    (fun f t => t.map f) tripleTerms IndexedBTreeGraph.resourceList (tripleShape R) (indexOps R)
    IndexedBTreeGraph.resources IndexedBTreeGraph.resourcesIndexes IndexedBTreeGraph.triples
    IndexedBTreeGraph.triplesIndexes where
  slots d hd := by
    obtain ⟨d', hT, hI⟩ := hd
    have I := hI.inv
    rw [hT.triples, hT.resourcesIndexes, hT.triplesIndexes] at I
    exact slots_of_rel hT.resources I
  iter d xs h z := by
    rw [mem_mapM h]
    simp only [readTriple_iff]
  lists d := rfl
  same d x d' h := by
    simp only [IndexedBTreeGraph.container, IndexedBTreeGraph.insert] at h
    obtain ⟨b, -, h⟩ := bind_ok h
    split at h
    · cases pure_ok h
      rfl
    · obtain ⟨⟨res, idx, q⟩, -, h⟩ := bind_ok h
      obtain ⟨si, -, h⟩ := bind_ok h
      cases pure_ok h
  insert d x d' rs Sl hrs h := by
    simp only [IndexedBTreeGraph.container, IndexedBTreeGraph.insert] at h
    obtain ⟨b, -, h⟩ := bind_ok h
    split at h
    · cases pure_ok h
    · obtain ⟨⟨res, idx, q⟩, ha, h⟩ := bind_ok h
      obtain ⟨si, -, h⟩ := bind_ok h
      cases pure_ok h
      obtain ⟨ts, hts, A, hq⟩ := acquireTriple_cases valued_index Sl.wf hrs Sl.listed ha
      exact ⟨q, ts, rfl, hts, A, hq⟩
  remove d x d' b h := by
    simp only [IndexedBTreeGraph.container, IndexedBTreeGraph.remove] at h
    obtain ⟨⟨si, o⟩, -, h⟩ := bind_ok h
    cases o with
    | none =>
      cases pure_ok h
      exact ⟨Grows.refl _, fun _ h => h, fun _ _ h => h⟩
    | some i =>
      obtain ⟨⟨st, q⟩, hq, h⟩ := bind_ok h
      obtain ⟨-, rfl⟩ := remove_cases hq
      obtain ⟨⟨r₁, i₁, b₁⟩, h₁, h⟩ := bind_ok h
      obtain ⟨⟨r₂, i₂, b₂⟩, h₂, h⟩ := bind_ok h
      obtain ⟨⟨r₃, i₃, b₃⟩, h₃, h⟩ := bind_ok h
      obtain ⟨g₁, m₁⟩ := release_cases valued_index h₁
      obtain ⟨g₂, m₂⟩ := release_cases valued_index h₂
      obtain ⟨g₃, m₃⟩ := release_cases valued_index h₃
      have hst : ∀ k q, (d.triples.erase i).get k = some q → d.triples.get k = some q := by
        intro k q e
        rw [Slab.get_erase] at e
        split at e
        · cases e
        · exact e
      cases pure_ok h
      exact ⟨g₃.trans (g₂.trans g₁), fun j hj => m₁ j (m₂ j (m₃ j hj)), hst⟩

/-- Removing a slot changes no other. -/
theorem removeByIndex_cases {d d' : IndexedBTreeDataset R} {i : Nat} {rem : Bool}
    (h : d.removeByIndex i rem = .ok d') :
    Grows ((indexOps R).val d'.resources) ((indexOps R).val d.resources) ∧
      (∀ j ∈ d'.resourcesIndexes, j ∈ d.resourcesIndexes) ∧ d'.quads = d.quads.erase i ∧
      ∃ q, d.quads.get i = some q := by
  unfold IndexedBTreeDataset.removeByIndex at h
  have key : ∀ si, (do
      let (quads, q) ← d.quads.remove i
      let (res, idx, _) ← (indexOps R).release d.resources d.resourcesIndexes .subj i q.s
        (fun res => (indexOps R).resourceIndexCmp res q.s)
      let (res, idx, _) ← (indexOps R).release res idx .pred i q.p
        (fun res => (indexOps R).resourceIndexCmp res q.p)
      let (res, idx, _) ← (indexOps R).release res idx .obj i q.o
        (fun res => (indexOps R).resourceIndexCmp res q.o)
      let d := { d with
        quads := quads
        quadsIndexes := si
        subjects := NatSet.remove q.s d.subjects
        predicates := NatSet.remove q.p d.predicates
        objects := NatSet.remove q.o d.objects }
      match q.g with
      | some g => do
        let (res, idx, dropped) ← (indexOps R).release res idx .graph i g
          (fun res => (indexOps R).resourceIndexCmp res g)
        pure { d with
          resources := res
          resourcesIndexes := idx
          namedGraphs := if dropped then NatSet.remove g d.namedGraphs else d.namedGraphs }
      | none =>
        pure { d with
          resources := res
          resourcesIndexes := idx
          defaultGraph := NatSet.remove i d.defaultGraph } : Res (IndexedBTreeDataset R)) = .ok d' →
      Grows ((indexOps R).val d'.resources) ((indexOps R).val d.resources) ∧
      (∀ j ∈ d'.resourcesIndexes, j ∈ d.resourcesIndexes) ∧ d'.quads = d.quads.erase i ∧
      ∃ q, d.quads.get i = some q := by
    intro si h
    obtain ⟨⟨st, q⟩, hq, h⟩ := bind_ok h
    obtain ⟨hget, rfl⟩ := remove_cases hq
    obtain ⟨⟨r₁, i₁, b₁⟩, h₁, h⟩ := bind_ok h
    obtain ⟨⟨r₂, i₂, b₂⟩, h₂, h⟩ := bind_ok h
    obtain ⟨⟨r₃, i₃, b₃⟩, h₃, h⟩ := bind_ok h
    obtain ⟨g₁, m₁⟩ := release_cases valued_index h₁
    obtain ⟨g₂, m₂⟩ := release_cases valued_index h₂
    obtain ⟨g₃, m₃⟩ := release_cases valued_index h₃
    dsimp only at h
    split at h
    · obtain ⟨⟨r₄, i₄, b₄⟩, h₄, h⟩ := bind_ok h
      obtain ⟨g₄, m₄⟩ := release_cases valued_index h₄
      cases pure_ok h
      exact ⟨g₄.trans (g₃.trans (g₂.trans g₁)),
        fun j hj => m₁ j (m₂ j (m₃ j (m₄ j hj))), rfl, q, hget⟩
    · cases pure_ok h
      exact ⟨g₃.trans (g₂.trans g₁), fun j hj => m₁ j (m₂ j (m₃ j hj)), rfl, q, hget⟩
  cases rem with
  | false => exact key _ h
  | true =>
    obtain ⟨⟨l, o⟩, -, h⟩ := bind_ok h
    exact key _ h

theorem get_of_erase {α : Type} {s : Slab α} {i k : Nat} {q : α} (h : (s.erase i).get k = some q) :
    s.get k = some q := by
  rw [Slab.get_erase] at h
  split at h
  · cases h
  · exact h

theorem indexed_calls (rep : Bool) : CallCases GoodIndexed (IndexedBTreeDataset.container rep R)
    (fun f q => q.map f) quadTerms IndexedBTreeDataset.resourceList (quadShape R) (indexOps R)
    IndexedBTreeDataset.resources IndexedBTreeDataset.resourcesIndexes IndexedBTreeDataset.quads
    IndexedBTreeDataset.quadsIndexes where
  slots d hd := by
    obtain ⟨d', hT, hI⟩ := hd
    have I := hI.inv
    rw [hT.quads, hT.resourcesIndexes, hT.quadsIndexes] at I
    exact slots_of_rel hT.resources I
  iter d xs h z := by
    rw [mem_mapM h]
    simp only [readQuad_iff]
  lists d := rfl
  same d x d' h := by
    simp only [IndexedBTreeDataset.container, IndexedBTreeDataset.insert] at h
    obtain ⟨b, -, h⟩ := bind_ok h
    split at h
    · cases pure_ok h
      rfl
    · obtain ⟨⟨res, idx, q⟩, -, h⟩ := bind_ok h
      obtain ⟨si, -, h⟩ := bind_ok h
      cases pure_ok h
  insert d x d' rs Sl hrs h := by
    simp only [IndexedBTreeDataset.container, IndexedBTreeDataset.insert] at h
    obtain ⟨b, -, h⟩ := bind_ok h
    split at h
    · cases pure_ok h
    · obtain ⟨⟨res, idx, q⟩, ha, h⟩ := bind_ok h
      obtain ⟨si, -, h⟩ := bind_ok h
      cases pure_ok h
      obtain ⟨ts, hts, A, hq⟩ := acquireQuad_cases valued_index Sl.wf hrs Sl.listed ha
      exact ⟨q, ts, rfl, hts, A, hq⟩
  remove d x d' b h := by
    simp only [IndexedBTreeDataset.container, IndexedBTreeDataset.remove] at h
    obtain ⟨⟨si, o⟩, -, h⟩ := bind_ok h
    cases o with
    | none =>
      cases pure_ok h
      exact ⟨Grows.refl _, fun _ h => h, fun _ _ h => h⟩
    | some i =>
      obtain ⟨d₁, h₁, h⟩ := bind_ok h
      cases pure_ok h
      obtain ⟨g, m, e, -⟩ := removeByIndex_cases h₁
      refine ⟨g, m, fun k q hk => ?_⟩
      rw [e] at hk
      exact get_of_erase hk

/-! ### States that can be reached -/

theorem reached_dataset (rep : Bool) (d : BTreeDataset R) (h : ReachedDataset rep d) :
    GoodDataset d := by
  obtain ⟨l, hl⟩ := h
  exact good_session (P := GoodDataset)
    (fun _ _ _ _ => good_answer (dataset_mirror rep) (BTreeDataset.laws rep))
    ⟨_, (dataset_mirror rep).empty, (BTreeDataset.laws rep).inv_empty⟩ hl

theorem reached_graph (rep : Bool) (d : BTreeGraph R) (h : ReachedGraph rep d) :
    GoodGraph d := by
  obtain ⟨l, hl⟩ := h
  exact good_session (P := GoodGraph)
    (fun _ _ _ _ => good_answer (graph_mirror rep) (BTreeGraph.laws rep))
    ⟨_, (graph_mirror rep).empty, (BTreeGraph.laws rep).inv_empty⟩ hl

/-- A mirrored state stays so when the quad of a slot is removed. -/
theorem removeByIndex_good {d d₁ : IndexedBTreeDataset R} {d' : IndexedBTreeDataset (Class R)}
    (hT : IndexedDatasetRel (Named (classOf R)) d d') (hI : d'.WF) {i : Nat}
    (h : d.removeByIndex i true = .ok d₁) :
    ∃ d₁', IndexedDatasetRel (Named (classOf R)) d₁ d₁' ∧ d₁'.WF ∧
      ∃ x, d'.sval i = some x ∧ ∀ y, d₁'.abs y ↔ d'.abs y ∧ y ≠ x := by
  obtain ⟨-, -, -, q, hq⟩ := removeByIndex_cases h
  obtain ⟨x, hx⟩ := hI.inv.sval_exists quadShape_laws (k := i) (q := q) (by rw [hT.quads, hq])
  obtain ⟨q', d₁', h₁, hr⟩ := IndexedBTreeDataset.removeByIndex_spec hI hx
  obtain ⟨a, ha, hT'⟩ := (indexed_removeByIndex (compat_named (classOf_keeps R)) hT i true).ok_right h₁
  rw [h] at ha
  cases ha
  exact ⟨d₁', hT', hr.wf, x, hx, hr.abs⟩

end containers

end RdfTypes.Proof.Spelling
