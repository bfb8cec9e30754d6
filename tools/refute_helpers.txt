/-! Helpers for proofs that a statement is false of an edited model; see `refute.py`. -/

namespace RdfTypes

/-- The call returns. -/
def Res.isOk {α : Type} : Res α → Bool
  | .ok _ => true
  | .error _ => false

/-- What a call that returns gives. -/
def Res.get {α : Type} : (x : Res α) → x.isOk = true → α
  | .ok a, _ => a

theorem Res.eq_get {α : Type} : {x : Res α} → (h : x.isOk = true) → x = .ok (x.get h)
  | .ok _, _ => rfl

theorem Res.fine {α : Type} {x : Res α} {P : α → Prop} (h : ∃ a, x = .ok a ∧ P a) :
    x.isOk = true := by
  obtain ⟨a, rfl, -⟩ := h; rfl

theorem Res.use {α : Type} {x : Res α} {P : α → Prop} (h : ∃ a, x = .ok a ∧ P a)
    (hx : x.isOk = true) : P (x.get hx) := by
  obtain ⟨a, rfl, h⟩ := h; exact h

theorem Res.fine2 {α β : Type} {x : Res (α × β)} {P : α → β → Prop}
    (h : ∃ a b, x = .ok (a, b) ∧ P a b) : x.isOk = true := by
  obtain ⟨a, b, rfl, -⟩ := h; rfl

theorem Res.use2 {α β : Type} {x : Res (α × β)} {P : α → β → Prop}
    (h : ∃ a b, x = .ok (a, b) ∧ P a b) (hx : x.isOk = true) :
    P (x.get hx).1 (x.get hx).2 := by
  obtain ⟨a, b, rfl, h⟩ := h; exact h

theorem Res.ran {α : Type} {x : Res α} (h : ∃ a, x = .ok a) : x.isOk = true := by
  obtain ⟨a, rfl⟩ := h; rfl

theorem Res.ran2 {α β : Type} {x : Res (α × β)} (h : ∃ a b, x = .ok (a, b)) : x.isOk = true := by
  obtain ⟨a, b, rfl⟩ := h; rfl

theorem Res.the {α : Type} {x : Res α} {a : α} (e : x = .ok a) (hx : x.isOk = true) :
    a = x.get hx := by
  subst e; rfl

theorem Res.fst {α β : Type} {x : Res (α × β)} {a : α} {b : β} (e : x = .ok (a, b))
    (hx : x.isOk = true) : a = (x.get hx).1 := by
  subst e; rfl

theorem Res.snd {α β : Type} {x : Res (α × β)} {a : α} {b : β} (e : x = .ok (a, b))
    (hx : x.isOk = true) : b = (x.get hx).2 := by
  subst e; rfl

/-- The state after insertions (`false`) and removals (`true`). -/
def Container.does {S D : Type} (c : Container S D) : List (Bool × S) → Res D
  | [] => .ok c.empty
  | (false, x) :: l => do
    let d ← c.does l
    let (d', _) ← c.insert d x
    pure d'
  | (true, x) :: l => do
    let d ← c.does l
    let (d', _) ← c.remove d x
    pure d'

/-- The set after insertions (`false`) and removals (`true`), the last first. -/
def Spec.done {S : Type} : List (Bool × S) → S → Prop
  | [] => nothing
  | (false, x) :: l => fun y => Spec.done l y ∨ y = x
  | (true, x) :: l => fun y => Spec.done l y ∧ y ≠ x

instance Spec.decDone {S : Type} [DecidableEq S] : (l : List (Bool × S)) → (x : S) → Decidable (Spec.done l x)
  | [], _ => inferInstanceAs (Decidable False)
  | (false, y) :: l, x => have := Spec.decDone l x; inferInstanceAs (Decidable (Spec.done l x ∨ x = y))
  | (true, y) :: l, x => have := Spec.decDone l x; inferInstanceAs (Decidable (Spec.done l x ∧ x ≠ y))

theorem Spec.reached {S D : Type} {c : Container S D} {P : (S → Prop) → Op S → Prop} :
    ∀ (l : List (Bool × S)) (_ : ∀ b x l', (b, x) :: l' <:+ l →
      P (done l') (if b then .remove x else .insert x)) (h : (c.does l).isOk = true),
    Reach c P ((c.does l).get h) (done l) := by
  have key : ∀ (l : List (Bool × S)) (_ : ∀ b x l', (b, x) :: l' <:+ l →
      P (done l') (if b then .remove x else .insert x)) d, c.does l = .ok d → Reach c P d (done l) := by
    intro l
    induction l with
    | nil => intro _ d e; cases e; exact .new
    | cons a l ih =>
      obtain ⟨b, x⟩ := a
      intro hP d e
      have hl := ih fun b x l' h => hP b x l' (h.trans (List.suffix_cons _ _))
      have hx := hP b x l (List.suffix_refl _)
      cases b <;> simp only [Container.does, bind, Except.bind, pure, Except.pure] at e
      · split at e
        · cases e
        · rename_i d0 e0
          split at e
          · cases e
          · rename_i v e1
            cases e
            exact .insert (hl _ e0) hx e1
      · split at e
        · cases e
        · rename_i d0 e0
          split at e
          · cases e
          · rename_i v e1
            cases e
            exact .remove (hl _ e0) hx e1
  exact fun l hP h => key l hP _ (Res.eq_get h)

/-- A history without restriction. -/
theorem Spec.free {S D : Type} {c : Container S D} (l : List (Bool × S))
    (h : (c.does l).isOk = true) : Reach c anyCall ((c.does l).get h) (done l) :=
  reached l (fun _ _ _ _ => trivial) h

section

variable {R : Type} [Ord R]

theorem Spec.datasetReached {rep : Bool} {P₀ P : (Quad R → Prop) → Op (Quad R) → Prop}
    {takes : Prop} {d : IndexedBTreeDataset R} {A : Quad R → Prop}
    (h : Reach (IndexedBTreeDataset.container rep R) P d A) :
    DatasetReach rep P₀ P takes d A := by
  induction h with
  | new => exact .new
  | insert _ hp e ih => exact .insert ih hp e
  | remove _ hp e ih => exact .remove ih hp e

theorem Spec.graphReached {rep : Bool} {P₀ P : (Triple R → Prop) → Op (Triple R) → Prop}
    {d : IndexedBTreeGraph R} {A : Triple R → Prop}
    (h : Reach (IndexedBTreeGraph.container rep R) P d A) :
    GraphReach rep P₀ P d A := by
  induction h with
  | new => exact .new
  | insert _ hp e ih => exact .insert ih hp e
  | remove _ hp e ih => exact .remove ih hp e

end

/-! ## Other accounts of histories -/

theorem Container.does_insert {S D : Type} {c : Container S D} {l : List (Bool × S)} {x : S} {d : D}
    (e : c.does ((false, x) :: l) = .ok d) : ∃ d₀ b, c.does l = .ok d₀ ∧ c.insert d₀ x = .ok (d, b) := by
  simp only [Container.does, bind, Except.bind, pure, Except.pure] at e
  split at e
  · cases e
  · rename_i d0 e0
    split at e
    · cases e
    · rename_i v e1
      cases e
      exact ⟨_, v.2, e0, e1⟩

theorem Container.does_remove {S D : Type} {c : Container S D} {l : List (Bool × S)} {x : S} {d : D}
    (e : c.does ((true, x) :: l) = .ok d) : ∃ d₀ b, c.does l = .ok d₀ ∧ c.remove d₀ x = .ok (d, b) := by
  simp only [Container.does, bind, Except.bind, pure, Except.pure] at e
  split at e
  · cases e
  · rename_i d0 e0
    split at e
    · cases e
    · rename_i v e1
      cases e
      exact ⟨_, v.2, e0, e1⟩

/-- What holds of a state and the calls that lead to it. -/
theorem Container.follow {S D : Type} {c : Container S D} {Q : D → List (Bool × S) → Prop}
    (new : Q c.empty [])
    (ins : ∀ d d' b x l, Q d l → c.insert d x = .ok (d', b) → Q d' ((false, x) :: l))
    (rem : ∀ d d' b x l, Q d l → c.remove d x = .ok (d', b) → Q d' ((true, x) :: l)) :
    ∀ l (h : (c.does l).isOk = true), Q ((c.does l).get h) l := by
  have key : ∀ l d, c.does l = .ok d → Q d l := by
    intro l
    induction l with
    | nil => intro d e; cases e; exact new
    | cons a l ih =>
      obtain ⟨b, x⟩ := a
      intro d e
      cases b
      · obtain ⟨d₀, b, e₀, e₁⟩ := Container.does_insert e
        exact ins _ _ _ _ _ (ih _ e₀) e₁
      · obtain ⟨d₀, b, e₀, e₁⟩ := Container.does_remove e
        exact rem _ _ _ _ _ (ih _ e₀) e₁
  exact fun l h => key l _ (Res.eq_get h)

namespace Spec

/-- The places after calls, the last first. -/
def shelf {S : Type} [DecidableEq S] : List (Bool × S) → Shelf S
  | [] => .empty
  | (false, x) :: l => if some x ∈ (shelf l).places then shelf l else (shelf l).put x
  | (true, x) :: l => if some x ∈ (shelf l).places then (shelf l).clear ((shelf l).places.idxOf (some x)) else shelf l

theorem shelf_adds {S : Type} [DecidableEq S] (l : List (Bool × S)) (x : S) :
    (shelf l).Adds x (shelf ((false, x) :: l)) := by
  simp only [shelf]
  split
  · exact .inl ⟨‹_›, rfl⟩
  · exact .inr ⟨‹_›, rfl⟩

theorem shelf_drops {S : Type} [DecidableEq S] (l : List (Bool × S)) (x : S) :
    (shelf l).Drops x (shelf ((true, x) :: l)) := by
  simp only [shelf]
  split
  · rename_i h
    refine .inr ⟨_, ?_, rfl⟩
    have := List.idxOf_lt_length_of_mem h
    rw [List.getElem?_eq_getElem this, List.getElem_idxOf]
  · exact .inl ⟨‹_›, rfl⟩

theorem Picks.mem {S : Type} {W : S → Prop} {l : List (Option S)} {xs : List S} {x : S}
    (h : Picks W l xs) (hx : some x ∈ l) (hw : W x) : x ∈ xs := by
  induction h with
  | nil => cases hx
  | empty _ ih => exact ih (by simpa using hx)
  | other hn _ ih =>
    rcases List.mem_cons.1 hx with e | hx
    · cases e; exact absurd hw hn
    · exact ih hx
  | wanted _ _ ih =>
    rcases List.mem_cons.1 hx with e | hx
    · cases e; exact .head _
    · exact .tail _ (ih hx)

theorem Picks.holds {S : Type} {W : S → Prop} {l : List (Option S)} {xs : List S} {x : S}
    (h : Picks W l xs) (hx : x ∈ xs) : W x := by
  induction h with
  | nil => cases hx
  | empty _ ih => exact ih hx
  | other _ _ ih => exact ih hx
  | wanted hw _ ih =>
    rcases List.mem_cons.1 hx with e | hx
    · cases e; exact hw
    · exact ih hx

/-- The events of calls. -/
def events {S : Type} : List (Bool × S) → List (Event S)
  | [] => []
  | (false, x) :: l => .added x :: events l
  | (true, x) :: l => .taken [x] :: events l

/-- The allContents after calls. -/
def allContents {S : Type} : List (Bool × S) → List (S → Prop)
  | [] => [nothing]
  | a :: l => done (a :: l) :: allContents l

/-- Restrictions that do not depend on the content. -/
def Fits {S : Type} (P : (S → Prop) → Op S → Prop) (l : List (Bool × S)) : Prop :=
  ∀ A, ∀ a ∈ l, P A (if a.1 then .remove a.2 else .insert a.2)

section

variable {R : Type} [Ord R]

theorem fits_any {S : Type} (l : List (Bool × S)) : Fits anyCall l := fun _ _ _ => trivial

theorem fits_repeats {l : List (Bool × Quad R)}
    (h : ∀ a ∈ l, a.1 = true ∨ (a.2.s ≠ a.2.p ∧ a.2.s ≠ a.2.o ∧ a.2.p ≠ a.2.o ∧ some a.2.s ≠ a.2.g ∧
      some a.2.p ≠ a.2.g ∧ some a.2.o ≠ a.2.g)) : Fits knownRepeats l := by
  intro A a ha
  have := h a ha
  obtain ⟨b, x⟩ := a
  cases b
  · intro r hr
    simp only [quadRepeats] at hr
    grind
  · trivial

theorem fits_triple_repeats {l : List (Bool × Triple R)}
    (h : ∀ a ∈ l, a.1 = true ∨ (a.2.s ≠ a.2.p ∧ a.2.s ≠ a.2.o ∧ a.2.p ≠ a.2.o)) :
    Fits knownTripleRepeats l := by
  intro A a ha
  have := h a ha
  obtain ⟨b, x⟩ := a
  cases b
  · intro r hr
    simp only [tripleRepeats] at hr
    grind
  · trivial

variable [DecidableEq R]

theorem datasetShelved {rep : Bool} {P : (Quad R → Prop) → Op (Quad R) → Prop} :
    ∀ (l : List (Bool × Quad R)) (_ : Fits P l)
      (h : ((IndexedBTreeDataset.container rep R).does l).isOk = true),
    DatasetShelf rep P (((IndexedBTreeDataset.container rep R).does l).get h) (shelf l) := by
  intro l hl h
  exact Container.follow (c := IndexedBTreeDataset.container rep R)
    (Q := fun d l => Fits P l → DatasetShelf rep P d (shelf l))
    (fun _ => .new)
    (fun d d' b x l ih e hf => .insert (ih fun A a ha => hf A a (.tail _ ha))
      (hf _ _ (.head _)) e (shelf_adds l x))
    (fun d d' b x l ih e hf => .remove (ih fun A a ha => hf A a (.tail _ ha))
      (hf _ _ (.head _)) e (shelf_drops l x)) l h hl

theorem graphShelved {rep : Bool} {P : (Triple R → Prop) → Op (Triple R) → Prop} :
    ∀ (l : List (Bool × Triple R)) (_ : Fits P l)
      (h : ((IndexedBTreeGraph.container rep R).does l).isOk = true),
    GraphShelf rep P (((IndexedBTreeGraph.container rep R).does l).get h) (shelf l) := by
  intro l hl h
  exact Container.follow (c := IndexedBTreeGraph.container rep R)
    (Q := fun d l => Fits P l → GraphShelf rep P d (shelf l))
    (fun _ => .new)
    (fun d d' b x l ih e hf => .insert (ih fun A a ha => hf A a (.tail _ ha))
      (hf _ _ (.head _)) e (shelf_adds l x))
    (fun d d' b x l ih e hf => .remove (ih fun A a ha => hf A a (.tail _ ha))
      (hf _ _ (.head _)) e (shelf_drops l x)) l h hl

theorem plainEvents {S D : Type} {c : Container S D} (l : List (Bool × S))
    (h : (c.does l).isOk = true) : PlainEvents c ((c.does l).get h) (events l) :=
  Container.follow (Q := fun d l => PlainEvents c d (events l)) .new
    (fun _ _ _ _ _ ih e => .insert ih e) (fun _ _ _ _ _ ih e => .remove ih e) l h

theorem datasetEvents {rep : Bool} (l : List (Bool × Quad R))
    (h : ((IndexedBTreeDataset.container rep R).does l).isOk = true) :
    DatasetEvents rep (((IndexedBTreeDataset.container rep R).does l).get h) (events l) :=
  Container.follow (c := IndexedBTreeDataset.container rep R)
    (Q := fun d l => DatasetEvents rep d (events l)) .new
    (fun _ _ _ _ _ ih e => .insert ih e) (fun _ _ _ _ _ ih e => .remove ih e) l h

theorem graphEvents {rep : Bool} (l : List (Bool × Triple R))
    (h : ((IndexedBTreeGraph.container rep R).does l).isOk = true) :
    GraphEvents rep (((IndexedBTreeGraph.container rep R).does l).get h) (events l) :=
  Container.follow (c := IndexedBTreeGraph.container rep R)
    (Q := fun d l => GraphEvents rep d (events l)) .new
    (fun _ _ _ _ _ ih e => .insert ih e) (fun _ _ _ _ _ ih e => .remove ih e) l h

theorem datasetSince {rep : Bool} (l : List (Bool × Quad R))
    (h : ((IndexedBTreeDataset.container rep R).does l).isOk = true) :
    Since (DatasetStart rep) (DatasetCall rep)
      (((IndexedBTreeDataset.container rep R).does l).get h) [] (events l) :=
  Container.follow (c := IndexedBTreeDataset.container rep R)
    (Q := fun d l => Since (DatasetStart rep) (DatasetCall rep) d [] (events l)) (.start .new)
    (fun _ _ _ _ _ ih e => .call ih (.insert e)) (fun _ _ _ _ _ ih e => .call ih (.remove e)) l h

theorem graphSince {rep : Bool} (l : List (Bool × Triple R))
    (h : ((IndexedBTreeGraph.container rep R).does l).isOk = true) :
    Since (GraphStart rep) (GraphCall rep)
      (((IndexedBTreeGraph.container rep R).does l).get h) [] (events l) :=
  Container.follow (c := IndexedBTreeGraph.container rep R)
    (Q := fun d l => Since (GraphStart rep) (GraphCall rep) d [] (events l)) (.start .new)
    (fun _ _ _ _ _ ih e => .call ih (.insert e)) (fun _ _ _ _ _ ih e => .call ih (.remove e)) l h

theorem allContents_head {S : Type} (l : List (Bool × S)) : ∃ t, allContents l = done l :: t := by
  cases l <;> exact ⟨_, rfl⟩

theorem datasetPast {rep : Bool} (l : List (Bool × Quad R)) (hl : Fits knownRepeats l)
    (h : ((IndexedBTreeDataset.container rep R).does l).isOk = true) :
    DatasetPast rep (((IndexedBTreeDataset.container rep R).does l).get h) (allContents l) := by
  refine Container.follow (c := IndexedBTreeDataset.container rep R)
    (Q := fun d l => Fits knownRepeats l → DatasetPast rep d (allContents l)) (fun _ => .new)
    (fun d d' b x l ih e hf => ?_) (fun d d' b x l ih e hf => ?_) l h hl
  all_goals
    have ih := ih fun A a ha => hf A a (.tail _ ha)
    have hx := hf (done l) _ (.head _)
    obtain ⟨t, ht⟩ := allContents_head l
    simp only [allContents]
    rw [ht] at ih ⊢
  · exact .step ih (.insert hx e)
  · exact .step ih (.remove e)

theorem graphPast {rep : Bool} (l : List (Bool × Triple R)) (hl : Fits knownTripleRepeats l)
    (h : ((IndexedBTreeGraph.container rep R).does l).isOk = true) :
    GraphPast rep (((IndexedBTreeGraph.container rep R).does l).get h) (allContents l) := by
  refine Container.follow (c := IndexedBTreeGraph.container rep R)
    (Q := fun d l => Fits knownTripleRepeats l → GraphPast rep d (allContents l)) (fun _ => .new)
    (fun d d' b x l ih e hf => ?_) (fun d d' b x l ih e hf => ?_) l h hl
  all_goals
    have ih := ih fun A a ha => hf A a (.tail _ ha)
    have hx := hf (done l) _ (.head _)
    obtain ⟨t, ht⟩ := allContents_head l
    simp only [allContents]
    rw [ht] at ih ⊢
  · exact .insert ih hx e
  · exact .remove ih e

end

/-- The book after calls, the last first. -/
def book {S : Type} [DecidableEq S] (terms : S → Pos → Option Nat) : List (Bool × S) → Book Nat S
  | [] => .empty
  | (false, x) :: l => (book terms l).enter true terms x
  | (true, x) :: l => (book terms l).leave x

theorem plainBook {S D : Type} [DecidableEq S] {c : Container S D} {terms : S → Pos → Option Nat}
    (l : List (Bool × S)) (h : (c.does l).isOk = true) :
    PlainBook c true terms ((c.does l).get h) (book terms l) :=
  Container.follow (c := c) (Q := fun d l => PlainBook c true terms d (book terms l)) .new
    (fun _ _ _ _ _ ih e => .insert ih e) (fun _ _ _ _ _ ih e => .remove ih e) l h

theorem datasetBook (l : List (Bool × Quad Nat))
    (h : ((IndexedBTreeDataset.container true Nat).does l).isOk = true) :
    DatasetBook true (((IndexedBTreeDataset.container true Nat).does l).get h) (book quadAt l) :=
  Container.follow (c := IndexedBTreeDataset.container true Nat)
    (Q := fun d l => DatasetBook true d (book quadAt l)) .new
    (fun _ _ _ _ _ ih e => .insert ih e) (fun _ _ _ _ _ ih e => .remove ih e) l h

theorem graphBook (l : List (Bool × Triple Nat))
    (h : ((IndexedBTreeGraph.container true Nat).does l).isOk = true) :
    GraphBook true (((IndexedBTreeGraph.container true Nat).does l).get h) (book tripleAt l) :=
  Container.follow (c := IndexedBTreeGraph.container true Nat)
    (Q := fun d l => GraphBook true d (book tripleAt l)) .new
    (fun _ _ _ _ _ ih e => .insert ih e) (fun _ _ _ _ _ ih e => .remove ih e) l h

end Spec

end RdfTypes
