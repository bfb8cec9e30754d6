import Verif.Property.Sets
import Verif.Spec.Debugging
import Verif.Proof.Debugging

/-!
# C95: `Debug` output of the containers
-/

set_option linter.unusedSectionVars false

namespace RdfTypes.Property

open Container Spec Debugging

variable {R : Type} [Ord R] [Std.TransOrd R] [Std.LawfulEqOrd R] [DecidableEq R]

/-- A dataset of either kind that holds `A` has this `Debug` output. -/
def DatasetPrints (rep : Bool) (f : R → Printed) (A : Quad R → Prop) (p : Printed) : Prop :=
  (∃ d, DatasetHistory rep d A ∧
    Debugging.container (BTreeDataset.container rep R) (quad f f f f) d = .ok p) ∨
  ∃ d, IndexedDatasetHistory rep d A ∧
    Debugging.container (IndexedBTreeDataset.container rep R) (quad f f f f) d = .ok p

/-- A graph of either kind that holds `A` has this `Debug` output. -/
def GraphPrints (rep : Bool) (f : R → Printed) (A : Triple R → Prop) (p : Printed) : Prop :=
  (∃ d, GraphHistory rep d A ∧
    Debugging.container (BTreeGraph.container rep R) (triple f f f) d = .ok p) ∨
  ∃ d, IndexedGraphHistory rep d A ∧
    Debugging.container (IndexedBTreeGraph.container rep R) (triple f f f) d = .ok p

/-- The containers can be printed after every history. -/
theorem C95_prints (rep : Bool) (f : R → Printed) :
    (∀ (d : BTreeDataset R) A, DatasetHistory rep d A →
      ∃ p, Debugging.container (BTreeDataset.container rep R) (quad f f f f) d = .ok p) ∧
    (∀ (d : BTreeGraph R) A, GraphHistory rep d A →
      ∃ p, Debugging.container (BTreeGraph.container rep R) (triple f f f) d = .ok p) ∧
    (∀ (d : IndexedBTreeDataset R) A, IndexedDatasetHistory rep d A →
      ∃ p, Debugging.container (IndexedBTreeDataset.container rep R) (quad f f f f) d = .ok p) ∧
    ∀ (d : IndexedBTreeGraph R) A, IndexedGraphHistory rep d A →
      ∃ p, Debugging.container (IndexedBTreeGraph.container rep R) (triple f f f) d = .ok p := by
  obtain ⟨i1, i2, i3, i4⟩ := C06_iteration (R := R) rep
  exact ⟨fun d A h => (i1 d A h).elim fun _ e => ⟨_, container_ok e.1⟩,
    fun d A h => (i2 d A h).elim fun _ e => ⟨_, container_ok e.1⟩,
    fun d A h => (i3 d A h).elim fun _ e => ⟨_, container_ok e.1⟩,
    fun d A h => (i4 d A h).elim fun _ e => ⟨_, container_ok e.1⟩⟩

theorem DatasetPrints.items {rep : Bool} {f : R → Printed} {A : Quad R → Prop} {p : Printed}
    (h : DatasetPrints rep f A p) :
    ∃ xs, Lists xs A ∧ p = Debugging.items ['{'] (xs.map (quad f f f f)) ['}'] := by
  obtain ⟨i1, -, i3, -⟩ := C06_iteration (R := R) rep
  rcases h with ⟨d, h, e⟩ | ⟨d, h, e⟩
  · obtain ⟨xs, ex, hl⟩ := i1 d A h
    cases (container_ok ex).symm.trans e
    exact ⟨xs, hl, rfl⟩
  · obtain ⟨xs, ex, hl⟩ := i3 d A h
    cases (container_ok ex).symm.trans e
    exact ⟨xs, hl, rfl⟩

theorem GraphPrints.items {rep : Bool} {f : R → Printed} {A : Triple R → Prop} {p : Printed}
    (h : GraphPrints rep f A p) :
    ∃ xs, Lists xs A ∧ p = Debugging.items ['{'] (xs.map (triple f f f)) ['}'] := by
  obtain ⟨-, i2, -, i4⟩ := C06_iteration (R := R) rep
  rcases h with ⟨d, h, e⟩ | ⟨d, h, e⟩
  · obtain ⟨xs, ex, hl⟩ := i2 d A h
    cases (container_ok ex).symm.trans e
    exact ⟨xs, hl, rfl⟩
  · obtain ⟨xs, ex, hl⟩ := i4 d A h
    cases (container_ok ex).symm.trans e
    exact ⟨xs, hl, rfl⟩

/-- `{:?}` gives the statements on one line, in ascending order. -/
theorem C95_one_line (rep : Bool) (f : R → Printed) (p : Printed) :
    (∀ A, DatasetPrints rep f A p → ∃ xs, Lists xs A ∧
      p false = setOnLine (xs.map (quadOnLine (f · false)))) ∧
    ∀ A, GraphPrints rep f A p → ∃ xs, Lists xs A ∧
      p false = setOnLine (xs.map (tripleOnLine (f · false))) := by
  refine ⟨fun A h => ?_, fun A h => ?_⟩
  · obtain ⟨xs, hl, rfl⟩ := h.items
    exact ⟨xs, hl, by rw [set_onLine]; simp only [quad_onLine]⟩
  · obtain ⟨xs, hl, rfl⟩ := h.items
    exact ⟨xs, hl, by rw [set_onLine]; simp only [triple_onLine]⟩

/-- `{:#?}` gives the statements on lines of their own, in ascending order. -/
theorem C95_lines (rep : Bool) (f : R → Printed) (p : Printed) :
    (∀ A, DatasetPrints rep f A p → ∃ xs, Lists xs A ∧
      p true = setOfLines (xs.flatMap (quadLines (f · true)))) ∧
    ∀ A, GraphPrints rep f A p → ∃ xs, Lists xs A ∧
      p true = setOfLines (xs.flatMap (tripleLines (f · true))) := by
  refine ⟨fun A h => ?_, fun A h => ?_⟩
  · obtain ⟨xs, hl, rfl⟩ := h.items
    exact ⟨xs, hl, set_lines (quad_lines f) (fun _ => by simp [quadLines]) xs⟩
  · obtain ⟨xs, hl, rfl⟩ := h.items
    exact ⟨xs, hl, set_lines (triple_lines f) (fun _ => by simp [tripleLines]) xs⟩

/-- The output depends on the contents only, for plain and indexed containers alike. -/
theorem C95_same (rep : Bool) (f : R → Printed) (p p' : Printed) :
    (∀ A A', DatasetPrints rep f A p → DatasetPrints rep f A' p' → (∀ q, A q ↔ A' q) → p = p') ∧
    ∀ A A', GraphPrints rep f A p → GraphPrints rep f A' p' → (∀ t, A t ↔ A' t) → p = p' := by
  refine ⟨fun A A' h h' e => ?_, fun A A' h h' e => ?_⟩
  · obtain ⟨xs, hl, rfl⟩ := h.items
    obtain ⟨ys, hl', rfl⟩ := h'.items
    rw [hl.unique hl' e]
  · obtain ⟨xs, hl, rfl⟩ := h.items
    obtain ⟨ys, hl', rfl⟩ := h'.items
    rw [hl.unique hl' e]

/-- The output tells contents apart, if the end of the texts of the resources can be told. -/
theorem C95_apart (rep : Bool) (f : R → Printed) (p p' : Printed) (alternate : Bool)
    (hd : Delimited (f · alternate)) (e : p alternate = p' alternate) :
    (∀ A A', DatasetPrints rep f A p → DatasetPrints rep f A' p' → ∀ q, A q ↔ A' q) ∧
    ∀ A A', GraphPrints rep f A p → GraphPrints rep f A' p' → ∀ t, A t ↔ A' t := by
  refine ⟨fun A A' h h' => ?_, fun A A' h h' => ?_⟩
  · obtain ⟨xs, hl, rfl⟩ := h.items
    obtain ⟨ys, hl', rfl⟩ := h'.items
    cases set_same (quad_readable hd) (quad_begins f alternate) e
    exact fun q => (hl.2 q).symm.trans (hl'.2 q)
  · obtain ⟨xs, hl, rfl⟩ := h.items
    obtain ⟨ys, hl', rfl⟩ := h'.items
    cases set_same (triple_readable hd) (triple_begins f alternate) e
    exact fun q => (hl.2 q).symm.trans (hl'.2 q)

/-- Numbers have such texts. -/
theorem C95_numbers : Delimited decimal := by
  have h : ∀ (c : Char) n, c ∈ decimal n → InClass digits c := fun c n => decimal_digits n c
  refine delimited_of_free (fun _ _ => decimal_inj) fun n => ⟨fun hc => ?_, fun hc => ?_⟩
  all_goals
    have := h _ n hc
    revert this
    simp [InClass, digits]

/-- Two quads of a dataset from which a third was removed. -/
example : (do
    let d ← (BTreeDataset.container true Nat).run BTreeDataset.new sampleOps
    let p ← Debugging.container (BTreeDataset.container true Nat)
      (quad (fun n _ => decimal n) (fun n _ => decimal n) (fun n _ => decimal n)
        (fun n _ => decimal n)) d
    pure (p false)) = .ok "{Quad(1, 1, 2, Some(5)), Quad(7, 2, 3, Some(1))}".toList := by
  decide +kernel

/-- The same with `{:#?}`, converted and with one quad more. -/
example : (do
    let d ← (BTreeDataset.container true Nat).run BTreeDataset.new
      [.insert ⟨1, 1, 2, some 50⟩]
    let d ← IndexedBTreeDataset.fromNonIndexed d
    let (d, _) ← d.insert true ⟨1, 1, 2, none⟩
    let p ← Debugging.container (IndexedBTreeDataset.container true Nat)
      (quad (fun n _ => decimal n) (fun n _ => decimal n) (fun n _ => decimal n)
        (fun n _ => decimal n)) d
    pure (p true)) = .ok "{
    Quad(
        1,
        1,
        2,
        None,
    ),
    Quad(
        1,
        1,
        2,
        Some(
            50,
        ),
    ),\n}".toList := by
  decide +kernel

/-- The hypotheses hold of these datasets and graphs. -/
example : (∃ p, DatasetPrints true (fun n _ => decimal n) (after nothing sampleOps) p) ∧
    ∃ p, GraphPrints true (fun n _ => decimal n) (after nothing sampleTripleOps) p := by
  obtain ⟨d, -, h⟩ := sample_dataset
  obtain ⟨g, -, h'⟩ := sample_graph
  obtain ⟨p, e⟩ := (C95_prints true (fun n _ => decimal n)).1 d _ h
  obtain ⟨p', e'⟩ := (C95_prints true (fun n _ => decimal n)).2.1 g _ h'
  exact ⟨⟨p, .inl ⟨d, h, e⟩⟩, p', .inl ⟨g, h', e'⟩⟩

/-- Texts whose end cannot be told: a comma in the text of a resource, and two triples that print
alike. -/
example :
    let f : Nat → Printed := fun n _ =>
      match n with
      | 0 => ['a']
      | 1 => ['a', ',', ' ', 'a']
      | _ => []
    triple f f f ⟨0, 1, 0⟩ false = triple f f f ⟨1, 0, 0⟩ false ∧ ¬ Delimited (f · false) := by
  refine ⟨by decide +kernel, fun h => ?_⟩
  have := h 0 1 ',' ',' [' ', 'a', ','] [] (.inl rfl) (.inl rfl) (by decide +kernel)
  cases this

end RdfTypes.Property
