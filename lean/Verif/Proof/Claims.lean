import Verif.Spec.Container
import Verif.Proof.Container

/-! # The claims of `Spec/Container.lean` follow from the laws -/

set_option linter.unusedSectionVars false
set_option linter.unusedSimpArgs false

namespace RdfTypes

open Container

variable {S D : Type} [Ord S]
variable {c : Container S D} {Inv : D → Prop} {abs : D → S → Prop}

theorem Container.Laws.reach_stands (L : c.Laws Inv abs) {P : (S → Prop) → Op S → Prop} {d : D}
    {A : S → Prop} (h : Spec.Reach c P d A) : Stands Inv abs d A := by
  induction h with
  | new => exact L.stands_empty
  | @insert d A x d' b h _ e ih =>
    obtain ⟨d1, b1, e1, i1, a1, -⟩ := L.insert d x ih.1
    rw [e] at e1
    cases e1
    exact ⟨i1, fun y => by rw [a1, ih.2]⟩
  | @remove d A x d' b h _ e ih =>
    obtain ⟨d1, b1, e1, i1, a1, -⟩ := L.remove d x ih.1
    rw [e] at e1
    cases e1
    exact ⟨i1, fun y => by rw [a1, ih.2]⟩

/-- `extend` also stays within reachable states. -/
theorem Spec.Reach.extend {P : (S → Prop) → Op S → Prop}
    (hP : ∀ A x, P A (.insert x)) {l : List S} :
    ∀ {d d' : D} {A : S → Prop}, Spec.Reach c P d A → c.extend d l = .ok d' →
      Spec.Reach c P d' (fun y => A y ∨ y ∈ l) := by
  induction l with
  | nil =>
    intro d d' A h e
    cases e
    have : (fun y => A y ∨ y ∈ ([] : List S)) = A := by funext y; simp
    rw [this]
    exact h
  | cons x l ih =>
    intro d d' A h e
    simp only [Container.extend, bind, Except.bind] at e
    cases hi : c.insert d x with
    | error er => simp [hi] at e
    | ok p =>
      simp only [hi] at e
      have := ih (h.insert (hP A x) hi) e
      have e2 : (fun y => (A y ∨ y = x) ∨ y ∈ l) = (fun y => A y ∨ y ∈ x :: l) := by
        funext y
        simp [or_assoc]
      rw [← e2]
      exact this

/-- Running any list of calls stays within reachable states. -/
theorem Spec.Reach.run {l : List (Op S)} :
    ∀ {d d' : D} {A : S → Prop}, Spec.Reach c Spec.anyCall d A → c.run d l = .ok d' →
      Spec.Reach c Spec.anyCall d' (Spec.after A l) := by
  induction l with
  | nil =>
    intro d d' A h e
    cases e
    exact h
  | cons op l ih =>
    intro d d' A h e
    simp only [Container.run, bind, Except.bind] at e
    cases hs : c.step d op with
    | error er => simp [hs] at e
    | ok d1 =>
      simp only [hs] at e
      refine ih ?_ e
      cases op with
      | insert x =>
        simp only [Container.step, bind, Except.bind, pure, Except.pure] at hs
        cases hi : c.insert d x with
        | error er => simp [hi] at hs
        | ok p =>
          simp only [hi, Except.ok.injEq] at hs
          subst hs
          exact h.insert trivial hi
      | remove x =>
        simp only [Container.step, bind, Except.bind, pure, Except.pure] at hs
        cases hi : c.remove d x with
        | error er => simp [hi] at hs
        | ok p =>
          simp only [hi, Except.ok.injEq] at hs
          subst hs
          exact h.remove trivial hi
      | extend l => exact h.extend (fun _ _ => trivial) hs

variable [Std.TransOrd S] [Std.LawfulEqOrd S]
variable {Reach : D → (S → Prop) → Prop}

theorem Container.Laws.isSet (L : c.Laws Inv abs) (hr : ∀ d A, Reach d A → Stands Inv abs d A) :
    Spec.IsSet c Reach := by
  intro d A h x
  refine ⟨L.membership (hr d A h) x, ?_, ?_, ?_⟩
  · obtain ⟨d', b, e, -⟩ := L.insert d x (hr d A h).1
    exact ⟨d', b, e⟩
  · obtain ⟨d', b, e, -⟩ := L.remove d x (hr d A h).1
    exact ⟨d', b, e⟩
  · intro l
    obtain ⟨d', e, -⟩ := L.extend_spec (hr d A h).1 l
    exact ⟨d', e⟩

theorem Container.Laws.reportsChange (L : c.Laws Inv abs)
    (hr : ∀ d A, Reach d A → Stands Inv abs d A) : Spec.ReportsChange c Reach :=
  fun d A h x => L.returns (hr d A h) x

theorem Container.Laws.iterates (L : c.Laws Inv abs)
    (hr : ∀ d A, Reach d A → Stands Inv abs d A) : Spec.Iterates c Reach := by
  intro d A h
  obtain ⟨xs, hx, hl, -⟩ := L.iteration (hr d A h)
  exact ⟨xs, hx, hl⟩

theorem Container.Laws.counts (L : c.Laws Inv abs)
    (hr : ∀ d A, Reach d A → Stands Inv abs d A) : Spec.Counts c Reach := by
  intro d A h
  obtain ⟨xs, hx, -, hn⟩ := L.iteration (hr d A h)
  refine ⟨xs, hx, hn, ?_⟩
  rw [L.isEmpty, hn]
  cases xs <;> simp

theorem Container.Laws.equalByContent (L : c.Laws Inv abs)
    (hr : ∀ d A, Reach d A → Stands Inv abs d A) : Spec.EqualByContent c Reach :=
  fun _ he _ _ _ _ h₁ h₂ => L.equality he (hr _ _ h₁) (hr _ _ h₂)

theorem Container.Laws.orderedByContent (L : c.Laws Inv abs)
    (hr : ∀ d A, Reach d A → Stands Inv abs d A) : Spec.OrderedByContent c Reach :=
  ⟨L.order Reach hr, fun pc hpc _ _ _ _ h₁ h₂ => L.partialOrder pc hpc (hr _ _ h₁) (hr _ _ h₂)⟩

theorem Container.Laws.hashedByContent (L : c.Laws Inv abs)
    (hr : ∀ d A, Reach d A → Stands Inv abs d A) : Spec.HashedByContent c Reach :=
  fun hw _ _ _ _ h₁ h₂ hs => L.hashing hw (hr _ _ h₁) (hr _ _ h₂) hs

theorem flatMap_inj {A : Type} {hw : A → List HashWrite} (hh : Spec.SelfDelimiting hw) :
    ∀ {xs ys : List A}, xs.length = ys.length → xs.flatMap hw = ys.flatMap hw → xs = ys
  | [], [], _, _ => rfl
  | [], _ :: _, h, _ => by simp at h
  | _ :: _, [], h, _ => by simp at h
  | x :: xs, y :: ys, h, e => by
    rw [List.flatMap_cons, List.flatMap_cons] at e
    obtain ⟨rfl, e'⟩ := hh _ _ _ _ e
    rw [flatMap_inj hh (Nat.succ.inj h) e']

theorem Container.Laws.hashTellsApart (L : c.Laws Inv abs)
    (hr : ∀ d A, Reach d A → Stands Inv abs d A) : Spec.HashTellsApart c Reach := by
  intro hw hh d₁ A₁ d₂ A₂ h₁ h₂ e
  obtain ⟨xs, hx, lx, nx⟩ := L.iteration (hr _ _ h₁)
  obtain ⟨ys, hy, ly, ny⟩ := L.iteration (hr _ _ h₂)
  simp only [Container.hash, hx, hy, bind, Except.bind, pure, Except.pure, Except.ok.injEq,
    List.cons.injEq, HashWrite.usize.injEq] at e
  have := flatMap_inj hh (nx.symm.trans (e.1.trans ny)) e.2
  subst this
  intro x
  exact (lx.exact x).symm.trans (ly.exact x)

theorem Container.Laws.collects (L : c.Laws Inv abs)
    (hr : ∀ d A, Reach d A → Stands Inv abs d A) : Spec.Collects c Reach := by
  refine ⟨?_, ?_, ?_, ?_⟩
  · intro l
    obtain ⟨d, hd, hs⟩ := L.collect l
    exact ⟨d, hd, fun x => L.membership hs x⟩
  · intro e he l₁ l₂ hl
    obtain ⟨d₁, hd₁, hs₁⟩ := L.collect l₁
    obtain ⟨d₂, hd₂, hs₂⟩ := L.collect l₂
    obtain ⟨b, hb, hbi⟩ := L.equality he hs₁ hs₂
    exact ⟨d₁, d₂, hd₁, hd₂, by rw [hb, hbi.2 hl]⟩
  · intro e he d A h
    obtain ⟨xs, hx, hl, -⟩ := L.iteration (hr d A h)
    obtain ⟨d₁, hd₁, hs₁⟩ := L.collect xs
    obtain ⟨b, hb, hbi⟩ := L.equality he hs₁ (hr d A h)
    have : c.eq c e d₁ d = .ok true := by rw [hb, hbi.2 hl.exact]
    exact ⟨xs, xs, d₁, d₁, hx, L.intoIter d xs (hr d A h).1 hx, hd₁, this, hd₁, this⟩
  · intro d A h l
    obtain ⟨d', e, i, a⟩ := L.extend_spec (hr d A h).1 l
    refine ⟨d', e, fun x => ?_⟩
    obtain ⟨b, hb, hbi⟩ := L.contains d' x i
    exact ⟨b, hb, by rw [hbi, a, (hr d A h).2]⟩

theorem Container.Laws.consumes (L : c.Laws Inv abs)
    (hr : ∀ d A, Reach d A → Stands Inv abs d A) : Spec.Consumes c Reach := by
  intro d A h
  obtain ⟨xs, hx, -, -⟩ := L.iteration (hr d A h)
  exact ⟨xs, hx, L.intoIter d xs (hr d A h).1 hx⟩

end RdfTypes
