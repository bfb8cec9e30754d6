import Verif.Proof.Peak

/-! # Histories from lists of calls -/

set_option linter.unusedSectionVars false

namespace RdfTypes

open Container

theorem Container.Laws.allowed_run {S D : Type} [Ord S] {c : Container S D} {Inv : D → Prop}
    {abs : D → S → Prop} (L : c.Laws Inv abs) {P : (S → Prop) → Op S → Prop} {l : List (Op S)} :
    ∀ {d : D} {A : S → Prop}, Spec.Reach c P d A → Spec.Allowed P A l →
      ∃ d', c.run d l = .ok d' ∧ Spec.Reach c P d' (Spec.after A l) := by
  induction l with
  | nil => exact fun h _ => ⟨_, rfl, h⟩
  | cons op l ih =>
    intro d A h ha
    cases op with
    | insert x =>
      obtain ⟨d1, b, e, -⟩ := L.insert d x (L.reach_stands h).1
      obtain ⟨d2, e2, h2⟩ := ih (h.insert ha.1 e) ha.2
      exact ⟨d2, by simp [run, step, e, e2, bind, Except.bind, pure, Except.pure], h2⟩
    | remove x =>
      obtain ⟨d1, b, e, -⟩ := L.remove d x (L.reach_stands h).1
      obtain ⟨d2, e2, h2⟩ := ih (h.remove ha.1 e) ha.2
      exact ⟨d2, by simp [run, step, e, e2, bind, Except.bind, pure, Except.pure], h2⟩
    | extend x => exact ha.elim

variable {R : Type} [Ord R] [Std.TransOrd R] [Std.LawfulEqOrd R] {rep : Bool}

theorem Spec.Reach.graph {P₀ P : (Triple R → Prop) → Op (Triple R) → Prop}
    {d : IndexedBTreeGraph R} {A : Triple R → Prop}
    (h : Spec.Reach (IndexedBTreeGraph.container rep R) P d A) : Spec.GraphReach rep P₀ P d A := by
  induction h with
  | new => exact .new
  | insert h hP e ih => exact ih.insert hP e
  | remove h hP e ih => exact ih.remove hP e

theorem Spec.Reach.dataset {P₀ P : (Quad R → Prop) → Op (Quad R) → Prop} {takes : Prop}
    {d : IndexedBTreeDataset R} {A : Quad R → Prop}
    (h : Spec.Reach (IndexedBTreeDataset.container rep R) P d A) :
    Spec.DatasetReach rep P₀ P takes d A := by
  induction h with
  | new => exact .new
  | insert h hP e ih => exact ih.insert hP e
  | remove h hP e ih => exact ih.remove hP e

/-- Any allowed list of calls gives a history. -/
theorem BTreeDataset.run_reach (rep : Bool) {P : (Quad R → Prop) → Op (Quad R) → Prop}
    {l : List (Op (Quad R))} (ha : Spec.Allowed P Spec.nothing l) :
    ∃ d, (container rep R).run new l = .ok d ∧
      Spec.Reach (container rep R) P d (Spec.after Spec.nothing l) :=
  (laws rep).allowed_run .new ha

theorem BTreeGraph.run_reach (rep : Bool) {P : (Triple R → Prop) → Op (Triple R) → Prop}
    {l : List (Op (Triple R))} (ha : Spec.Allowed P Spec.nothing l) :
    ∃ d, (container rep R).run new l = .ok d ∧
      Spec.Reach (container rep R) P d (Spec.after Spec.nothing l) :=
  (laws rep).allowed_run .new ha

theorem IndexedBTreeDataset.run_reach (rep : Bool)
    (P₀ : (Quad R → Prop) → Op (Quad R) → Prop) {P : (Quad R → Prop) → Op (Quad R) → Prop}
    (takes : Prop) {l : List (Op (Quad R))} (ha : Spec.Allowed P Spec.nothing l) :
    ∃ d, (container rep R).run new l = .ok d ∧
      Spec.DatasetReach rep P₀ P takes d (Spec.after Spec.nothing l) := by
  obtain ⟨d, e, h⟩ := (laws rep).allowed_run .new ha
  exact ⟨d, e, h.dataset⟩

theorem IndexedBTreeGraph.run_reach (rep : Bool)
    (P₀ : (Triple R → Prop) → Op (Triple R) → Prop) {P : (Triple R → Prop) → Op (Triple R) → Prop}
    {l : List (Op (Triple R))} (ha : Spec.Allowed P Spec.nothing l) :
    ∃ d, (container rep R).run new l = .ok d ∧
      Spec.GraphReach rep P₀ P d (Spec.after Spec.nothing l) := by
  obtain ⟨d, e, h⟩ := (laws rep).allowed_run .new ha
  exact ⟨d, e, h.graph⟩

end RdfTypes
