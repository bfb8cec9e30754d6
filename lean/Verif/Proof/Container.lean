import Verif.Spec.Set

/-! # Consequences of the basic laws of a container -/

set_option linter.unusedSectionVars false
set_option linter.unusedSimpArgs false

namespace RdfTypes

variable {S D : Type} [Ord S]

/-- The methods of `c` follow sets, on the states satisfying `Inv`; `abs d` is
the set represented by `d`. -/
structure Container.Laws (c : Container S D) (Inv : D → Prop) (abs : D → S → Prop) : Prop where
  inv_empty : Inv c.empty
  abs_empty : ∀ x, ¬ abs c.empty x
  insert : ∀ d x, Inv d → ∃ d' b, c.insert d x = .ok (d', b) ∧ Inv d' ∧
    (∀ y, abs d' y ↔ abs d y ∨ y = x) ∧ (b = true ↔ ¬ abs d x) ∧ (b = false → d' = d)
  remove : ∀ d x, Inv d → ∃ d' b, c.remove d x = .ok (d', b) ∧ Inv d' ∧
    (∀ y, abs d' y ↔ abs d y ∧ y ≠ x) ∧ (b = true ↔ abs d x) ∧ (b = false → d' = d)
  contains : ∀ d x, Inv d → ∃ b, c.contains d x = .ok b ∧ (b = true ↔ abs d x)
  iter : ∀ d, Inv d → ∃ xs, c.iter d = .ok xs ∧ Spec.Lists xs (abs d) ∧ c.len d = xs.length
  intoIter : ∀ d xs, Inv d → c.iter d = .ok xs → c.intoIter d = .ok xs
  isEmpty : ∀ d, c.isEmpty d = (c.len d == 0)

theorem Spec.apply_congr {A B : S → Prop} (h : ∀ x, A x ↔ B x) (op : Op S) :
    ∀ x, Spec.apply A op x ↔ Spec.apply B op x := by
  intro x
  cases op <;> simp [Spec.apply, h]

theorem Spec.after_congr {A B : S → Prop} (h : ∀ x, A x ↔ B x) (l : List (Op S)) :
    ∀ x, Spec.after A l x ↔ Spec.after B l x := by
  induction l generalizing A B with
  | nil => exact h
  | cons op l ih => exact ih (Spec.apply_congr h op)

/-- Two strictly ascending lists with the same elements are equal. -/
theorem Spec.Lists.unique [Std.TransOrd S] [Std.LawfulEqOrd S] {xs ys : List S} {A B : S → Prop}
    (hx : Spec.Lists xs A) (hy : Spec.Lists ys B) (h : ∀ x, A x ↔ B x) : xs = ys := by
  have hmem : ∀ x, x ∈ xs ↔ x ∈ ys := fun x => by rw [hx.exact, hy.exact, h]
  have hxp := hx.ascending
  have hyp := hy.ascending
  clear hx hy h
  induction xs generalizing ys with
  | nil =>
    cases ys with
    | nil => rfl
    | cons y ys => exact absurd ((hmem y).2 (by simp)) (by simp)
  | cons x xs ih =>
    cases ys with
    | nil => exact absurd ((hmem x).1 (by simp)) (by simp)
    | cons y ys =>
      obtain ⟨hxl, hxs⟩ := List.pairwise_cons.1 hxp
      obtain ⟨hyl, hys⟩ := List.pairwise_cons.1 hyp
      have irr : ∀ z : S, compare z z ≠ .lt := fun z => by simp [Std.ReflCmp.compare_self]
      have hxy : x = y := by
        rcases List.mem_cons.1 ((hmem x).1 (by simp)) with e | hx'
        · exact e
        · rcases List.mem_cons.1 ((hmem y).2 (by simp)) with e | hy'
          · exact e.symm
          · exact absurd (Std.TransCmp.lt_trans (hxl y hy') (hyl x hx')) (irr x)
      subst hxy
      congr 1
      refine ih ?_ hxs hys
      intro z
      constructor
      · intro hz
        rcases List.mem_cons.1 ((hmem z).1 (by simp [hz])) with e | h
        · exact absurd (hxl z hz) (e ▸ irr x)
        · exact h
      · intro hz
        rcases List.mem_cons.1 ((hmem z).2 (by simp [hz])) with e | h
        · exact absurd (hyl z hz) (e ▸ irr x)
        · exact h

theorem Spec.Lists.nodup [Std.TransOrd S] [Std.LawfulEqOrd S] {xs : List S} {A : S → Prop}
    (h : Spec.Lists xs A) : xs.Nodup := by
  refine List.Pairwise.imp ?_ h.ascending
  rintro a b hab rfl
  simp [Std.ReflCmp.compare_self] at hab

namespace Container

variable {c : Container S D} {Inv : D → Prop} {abs : D → S → Prop}

theorem Laws.extend_spec (L : c.Laws Inv abs) {d : D} (hd : Inv d) (l : List S) :
    ∃ d', c.extend d l = .ok d' ∧ Inv d' ∧ (∀ x, abs d' x ↔ abs d x ∨ x ∈ l) := by
  induction l generalizing d with
  | nil => exact ⟨d, rfl, hd, by simp⟩
  | cons y l ih =>
    obtain ⟨d1, b, h1, i1, a1, -, -⟩ := L.insert d y hd
    obtain ⟨d2, h2, i2, a2⟩ := ih i1
    refine ⟨d2, by simp [extend, h1, h2, bind, Except.bind], i2, ?_⟩
    intro x
    rw [a2, a1, List.mem_cons]
    exact or_assoc

theorem Laws.step_spec (L : c.Laws Inv abs) {d : D} (hd : Inv d) (op : Op S) :
    ∃ d', c.step d op = .ok d' ∧ Inv d' ∧ (∀ x, abs d' x ↔ Spec.apply (abs d) op x) := by
  cases op with
  | insert x =>
    obtain ⟨d', b, h, hi, ha, -, -⟩ := L.insert d x hd
    exact ⟨d', by simp [step, h, bind, Except.bind, pure, Except.pure], hi, ha⟩
  | remove x =>
    obtain ⟨d', b, h, hi, ha, -, -⟩ := L.remove d x hd
    exact ⟨d', by simp [step, h, bind, Except.bind, pure, Except.pure], hi, ha⟩
  | extend l =>
    obtain ⟨d', h, hi, ha⟩ := L.extend_spec hd l
    exact ⟨d', h, hi, ha⟩

theorem Laws.run_spec (L : c.Laws Inv abs) {d : D} (hd : Inv d) (l : List (Op S)) :
    ∃ d', c.run d l = .ok d' ∧ Inv d' ∧ (∀ x, abs d' x ↔ Spec.after (abs d) l x) := by
  induction l generalizing d with
  | nil => exact ⟨d, rfl, hd, fun x => Iff.rfl⟩
  | cons op l ih =>
    obtain ⟨d1, h1, hi1, ha1⟩ := L.step_spec hd op
    obtain ⟨d2, h2, hi2, ha2⟩ := ih hi1
    refine ⟨d2, by simp [run, h1, h2, bind, Except.bind], hi2, ?_⟩
    intro x
    rw [ha2]
    exact Spec.after_congr ha1 l x

/-- `abs d` is the set `A`. -/
def Stands (Inv : D → Prop) (abs : D → S → Prop) (d : D) (A : S → Prop) : Prop :=
  Inv d ∧ ∀ x, abs d x ↔ A x

theorem Laws.stands_empty (L : c.Laws Inv abs) : Stands Inv abs c.empty Spec.nothing :=
  ⟨L.inv_empty, fun y => ⟨fun hy => L.abs_empty y hy, fun hy => hy.elim⟩⟩

theorem Laws.run_stands (L : c.Laws Inv abs) {d : D} {A : S → Prop} (hd : Stands Inv abs d A)
    (l : List (Op S)) : ∃ d', c.run d l = .ok d' ∧ Stands Inv abs d' (Spec.after A l) := by
  obtain ⟨d', h, hi, ha⟩ := L.run_spec hd.1 l
  exact ⟨d', h, hi, fun x => by rw [ha]; exact Spec.after_congr hd.2 l x⟩

end Container

/-! ## Comparisons of sequences -/

namespace Container

variable [Std.TransOrd S] [Std.LawfulEqOrd S]

theorem iterCmp_eq_iff (xs ys : List S) : iterCmp xs ys = .eq ↔ xs = ys := by
  induction xs generalizing ys with
  | nil => cases ys <;> simp [iterCmp]
  | cons x xs ih =>
    cases ys with
    | nil => simp [iterCmp]
    | cons y ys => simp [iterCmp, Ordering.then_eq_eq, ih, Std.LawfulEqCmp.compare_eq_iff_eq]

theorem iterCmp_swap (xs ys : List S) : iterCmp ys xs = (iterCmp xs ys).swap := by
  induction xs generalizing ys with
  | nil => cases ys <;> rfl
  | cons x xs ih =>
    cases ys with
    | nil => rfl
    | cons y ys =>
      simp only [iterCmp, ih, Ordering.swap_then]
      rw [Std.OrientedCmp.eq_swap (cmp := (compare : S → S → Ordering)) (a := y) (b := x)]

theorem iterCmp_trans {xs ys zs : List S} (h1 : iterCmp xs ys = .lt) (h2 : iterCmp ys zs = .lt) :
    iterCmp xs zs = .lt := by
  induction xs generalizing ys zs with
  | nil =>
    cases ys with
    | nil => simp [iterCmp] at h1
    | cons y ys =>
      cases zs with
      | nil => simp [iterCmp] at h2
      | cons z zs => rfl
  | cons x xs ih =>
    cases ys with
    | nil => simp [iterCmp] at h1
    | cons y ys =>
      cases zs with
      | nil => simp [iterCmp] at h2
      | cons z zs =>
        simp only [iterCmp, Ordering.then_eq_lt] at h1 h2 ⊢
        rcases h1 with h1 | ⟨e1, h1⟩
        · rcases h2 with h2 | ⟨e2, h2⟩
          · exact Or.inl (Std.TransCmp.lt_trans h1 h2)
          · have := Std.LawfulEqCmp.eq_of_compare e2
            subst this
            exact Or.inl h1
        · have := Std.LawfulEqCmp.eq_of_compare e1
          subst this
          rcases h2 with h2 | ⟨e2, h2⟩
          · exact Or.inl h2
          · exact Or.inr ⟨e2, ih h1 h2⟩

theorem iterPartialCmp_eq (pc : S → S → Option Ordering)
    (h : ∀ x y, pc x y = some (compare x y)) (xs ys : List S) :
    iterPartialCmp pc xs ys = some (iterCmp xs ys) := by
  induction xs generalizing ys with
  | nil => cases ys <;> rfl
  | cons x xs ih =>
    cases ys with
    | nil => rfl
    | cons y ys =>
      simp only [iterPartialCmp, iterCmp, h]
      cases hc : compare x y <;> simp [ih]

theorem zip_all_iff {S' : Type} {e : S → S' → Bool} {xs : List S} {ys : List S'}
    (hl : xs.length = ys.length) :
    ((xs.zip ys).all (fun p => e p.1 p.2) = true ↔
      ∀ (n : Nat) x y, xs[n]? = some x → ys[n]? = some y → e x y = true) := by
  induction xs generalizing ys with
  | nil => simp
  | cons x xs ih =>
    cases ys with
    | nil => simp at hl
    | cons y ys =>
      simp only [List.zip_cons_cons, List.all_cons, Bool.and_eq_true]
      rw [ih (by simpa using hl)]
      constructor
      · rintro ⟨h1, h2⟩ n a b ha hb
        cases n with
        | zero =>
          simp at ha hb
          subst ha hb
          exact h1
        | succ n => exact h2 n a b (by simpa using ha) (by simpa using hb)
      · intro h
        exact ⟨h 0 x y rfl rfl, fun n a b ha hb => h (n+1) a b (by simpa using ha) (by simpa using hb)⟩

theorem zip_all_eq {e : S → S → Bool} (he : ∀ x y, e x y = true ↔ x = y) {xs ys : List S}
    (hl : xs.length = ys.length) :
    ((xs.zip ys).all (fun p => e p.1 p.2) = true ↔ xs = ys) := by
  induction xs generalizing ys with
  | nil => cases ys <;> simp at hl ⊢
  | cons x xs ih =>
    cases ys with
    | nil => simp at hl
    | cons y ys =>
      simp only [List.zip_cons_cons, List.all_cons, Bool.and_eq_true, he]
      rw [ih (by simpa using hl)]
      simp

/-! ## Generic forms of the properties of containers -/

variable {c : Container S D} {Inv : D → Prop} {abs : D → S → Prop}

theorem Laws.membership (L : c.Laws Inv abs) {d : D} {A : S → Prop} (hd : Stands Inv abs d A)
    (x : S) : ∃ b, c.contains d x = .ok b ∧ (b = true ↔ A x) := by
  obtain ⟨b, hb, hbi⟩ := L.contains d x hd.1
  exact ⟨b, hb, by rw [hbi, hd.2]⟩

theorem Laws.returns (L : c.Laws Inv abs) {d : D} {A : S → Prop} (hd : Stands Inv abs d A) (x : S) :
    (∃ d' b, c.insert d x = .ok (d', b) ∧ (b = true ↔ ¬ A x) ∧ (b = false → d' = d)) ∧
    (∃ d' b, c.remove d x = .ok (d', b) ∧ (b = true ↔ A x) ∧ (b = false → d' = d)) := by
  obtain ⟨hi, ha⟩ := hd
  obtain ⟨d1, b1, h1, -, -, hb1, hn1⟩ := L.insert d x hi
  obtain ⟨d2, b2, h2, -, -, hb2, hn2⟩ := L.remove d x hi
  exact ⟨⟨d1, b1, h1, by rw [hb1, ha], hn1⟩, ⟨d2, b2, h2, by rw [hb2, ha], hn2⟩⟩

theorem Laws.iteration (L : c.Laws Inv abs) {d : D} {A : S → Prop} (hd : Stands Inv abs d A) :
    ∃ xs, c.iter d = .ok xs ∧ Spec.Lists xs A ∧ c.len d = xs.length := by
  obtain ⟨hi, ha⟩ := hd
  obtain ⟨xs, hx, hl, hlen⟩ := L.iter d hi
  exact ⟨xs, hx, ⟨hl.ascending, fun x => by rw [hl.exact, ha]⟩, hlen⟩

theorem Laws.equality (L : c.Laws Inv abs) {e : S → S → Bool} (he : ∀ x y, e x y = true ↔ x = y)
    {d₁ d₂ : D} {A₁ A₂ : S → Prop} (hd₁ : Stands Inv abs d₁ A₁) (hd₂ : Stands Inv abs d₂ A₂) :
    ∃ b, c.eq c e d₁ d₂ = .ok b ∧ (b = true ↔ ∀ x, A₁ x ↔ A₂ x) := by
  obtain ⟨xs, hx, hlx, hnx⟩ := L.iteration hd₁
  obtain ⟨ys, hy, hly, hny⟩ := L.iteration hd₂
  by_cases hl : xs.length = ys.length
  · refine ⟨(xs.zip ys).all (fun p => e p.1 p.2), ?_, ?_⟩
    · simp [Container.eq, hnx, hny, hl, hx, hy, bind, Except.bind, pure, Except.pure]
    · rw [zip_all_eq he hl]
      constructor
      · rintro rfl x
        rw [← hlx.exact, hly.exact]
      · exact hlx.unique hly
  · refine ⟨false, ?_, ?_⟩
    · simp [Container.eq, hnx, hny, hl, pure, Except.pure]
    · simp only [Bool.false_eq_true, false_iff]
      intro hsame
      exact hl (by rw [hlx.unique hly hsame])

theorem Laws.order (L : c.Laws Inv abs) (Reach : D → (S → Prop) → Prop)
    (hr : ∀ d A, Reach d A → Stands Inv abs d A) :
    Spec.TotalOrder (A := {p : D × (S → Prop) // Reach p.1 p.2})
      (fun a b => ∀ x, a.1.2 x ↔ b.1.2 x) (fun a b o => c.cmp a.1.1 b.1.1 = .ok o) := by
  have key : ∀ a : {p : D × (S → Prop) // Reach p.1 p.2}, ∃ xs, c.iter a.1.1 = .ok xs ∧
      Spec.Lists xs a.1.2 := fun a => by
    obtain ⟨xs, hx, hl, -⟩ := L.iteration (hr _ _ a.2)
    exact ⟨xs, hx, hl⟩
  have hcmp : ∀ (a b : D) xs ys o, c.iter a = .ok xs → c.iter b = .ok ys →
      (c.cmp a b = .ok o ↔ iterCmp xs ys = o) := by
    intro a b xs ys o hx hy
    simp [Container.cmp, hx, hy, bind, Except.bind, pure, Except.pure]
  constructor
  · intro a b
    obtain ⟨xs, hx, -⟩ := key a
    obtain ⟨ys, hy, -⟩ := key b
    exact ⟨iterCmp xs ys, (hcmp _ _ xs ys _ hx hy).2 rfl⟩
  · intro a b o o' h h'
    rw [h] at h'
    cases h'
    rfl
  · intro a b
    obtain ⟨xs, hx, hlx⟩ := key a
    obtain ⟨ys, hy, hly⟩ := key b
    rw [hcmp _ _ xs ys _ hx hy, iterCmp_eq_iff]
    constructor
    · rintro rfl x
      rw [← hlx.exact, hly.exact]
    · exact hlx.unique hly
  · intro a b o
    obtain ⟨xs, hx, -⟩ := key a
    obtain ⟨ys, hy, -⟩ := key b
    rw [hcmp _ _ xs ys _ hx hy, hcmp _ _ ys xs _ hy hx]
    rintro rfl
    exact iterCmp_swap xs ys
  · intro a b d
    obtain ⟨xs, hx, -⟩ := key a
    obtain ⟨ys, hy, -⟩ := key b
    obtain ⟨zs, hz, -⟩ := key d
    rw [hcmp _ _ xs ys _ hx hy, hcmp _ _ ys zs _ hy hz, hcmp _ _ xs zs _ hx hz]
    exact iterCmp_trans

/-- `partial_cmp` agrees with `cmp`. -/
theorem Laws.partialOrder (L : c.Laws Inv abs) (pc : S → S → Option Ordering)
    (hpc : ∀ x y, pc x y = some (compare x y)) {d₁ d₂ : D} {A₁ A₂ : S → Prop}
    (hd₁ : Stands Inv abs d₁ A₁) (hd₂ : Stands Inv abs d₂ A₂) :
    ∃ o, c.cmp d₁ d₂ = .ok o ∧ c.partialCmp pc d₁ d₂ = .ok (some o) := by
  obtain ⟨xs, hx, -⟩ := L.iteration hd₁
  obtain ⟨ys, hy, -⟩ := L.iteration hd₂
  exact ⟨iterCmp xs ys,
    by simp [Container.cmp, hx, hy, bind, Except.bind, pure, Except.pure],
    by simp [Container.partialCmp, hx, hy, iterPartialCmp_eq pc hpc, bind, Except.bind, pure,
      Except.pure]⟩

theorem Laws.same_iter (L : c.Laws Inv abs) {d₁ d₂ : D} {A₁ A₂ : S → Prop}
    (hd₁ : Stands Inv abs d₁ A₁) (hd₂ : Stands Inv abs d₂ A₂) (hs : ∀ x, A₁ x ↔ A₂ x) :
    c.iter d₁ = c.iter d₂ ∧ c.len d₁ = c.len d₂ := by
  obtain ⟨xs, hx, hlx, hnx⟩ := L.iteration hd₁
  obtain ⟨ys, hy, hly, hny⟩ := L.iteration hd₂
  have := hlx.unique hly hs
  subst this
  exact ⟨by rw [hx, hy], by rw [hnx, hny]⟩

theorem Laws.hashing (L : c.Laws Inv abs) (hw : S → List HashWrite)
    {d₁ d₂ : D} {A₁ A₂ : S → Prop}
    (hd₁ : Stands Inv abs d₁ A₁) (hd₂ : Stands Inv abs d₂ A₂) (hs : ∀ x, A₁ x ↔ A₂ x) :
    ∃ w, c.hash hw d₁ = .ok w ∧ c.hash hw d₂ = .ok w := by
  obtain ⟨he, hn⟩ := L.same_iter hd₁ hd₂ hs
  obtain ⟨xs, hx, -, -⟩ := L.iteration hd₁
  refine ⟨.usize (c.len d₁) :: xs.flatMap hw,
    by simp only [Container.hash, hx, bind, Except.bind, pure, Except.pure], ?_⟩
  rw [he] at hx
  simp only [Container.hash, hx, hn, bind, Except.bind, pure, Except.pure]

theorem Laws.collect (L : c.Laws Inv abs) (l : List S) :
    ∃ d, c.fromIter l = .ok d ∧ Stands Inv abs d (fun x => x ∈ l) := by
  obtain ⟨d, hd, hi, ha⟩ := L.extend_spec L.inv_empty l
  refine ⟨d, hd, hi, fun x => ?_⟩
  rw [ha]
  exact ⟨fun h => h.resolve_left (L.abs_empty x), Or.inr⟩

end Container

end RdfTypes
