import Verif.Proof.Runs

/-!
# A concrete history

The data of the concrete cases given beside the theorems: one list of calls on each
container, with a removal and a reused slot, and the state it leads to.
-/

namespace RdfTypes.Case

open Spec

/-- The quads left by `quadCalls`. -/
def quads : List (Quad Nat) := [⟨1, 2, 3, none⟩, ⟨1, 2, 4, some 9⟩, ⟨5, 2, 3, some 9⟩]

/-- The triples left by `tripleCalls`. -/
def triples : List (Triple Nat) := [⟨1, 2, 3⟩, ⟨1, 2, 4⟩, ⟨5, 2, 3⟩]

/-- The calls on datasets. -/
def quadCalls : List (Op (Quad Nat)) :=
  [.insert ⟨6, 7, 8, none⟩, .insert ⟨1, 2, 3, none⟩, .insert ⟨1, 2, 4, some 9⟩,
    .remove ⟨6, 7, 8, none⟩, .insert ⟨5, 2, 3, some 9⟩]

/-- The calls on graphs. -/
def tripleCalls : List (Op (Triple Nat)) :=
  [.insert ⟨6, 7, 8⟩, .insert ⟨1, 2, 3⟩, .insert ⟨1, 2, 4⟩, .remove ⟨6, 7, 8⟩, .insert ⟨5, 2, 3⟩]

/-- The state after the calls. -/
def state {S D : Type} (c : Container S D) (l : List (Op S)) : D :=
  match c.run c.empty l with
  | .ok d => d
  | .error _ => c.empty

/-- The `BTreeDataset` after the calls. -/
def dataset : BTreeDataset Nat := state (BTreeDataset.container true Nat) quadCalls

/-- The `BTreeGraph` after the calls. -/
def graph : BTreeGraph Nat := state (BTreeGraph.container true Nat) tripleCalls

/-- The `IndexedBTreeDataset` after the calls. -/
def indexedDataset : IndexedBTreeDataset Nat :=
  state (IndexedBTreeDataset.container true Nat) quadCalls

/-- The `IndexedBTreeGraph` after the calls. -/
def indexedGraph : IndexedBTreeGraph Nat := state (IndexedBTreeGraph.container true Nat) tripleCalls

theorem after_quads : after nothing quadCalls = (· ∈ quads) := by
  funext x
  apply propext
  simp only [quadCalls, after, apply, nothing, quads, List.mem_cons, List.not_mem_nil, or_false,
    false_or]
  constructor
  · rintro (⟨((h | h) | h), h'⟩ | h)
    · exact (h' h).elim
    · exact .inl h
    · exact .inr (.inl h)
    · exact .inr (.inr h)
  · rintro (h | h | h)
    · exact .inl ⟨.inl (.inr h), h ▸ by decide⟩
    · exact .inl ⟨.inr h, h ▸ by decide⟩
    · exact .inr h

theorem after_triples : after nothing tripleCalls = (· ∈ triples) := by
  funext x
  apply propext
  simp only [tripleCalls, after, apply, nothing, triples, List.mem_cons, List.not_mem_nil,
    or_false, false_or]
  constructor
  · rintro (⟨((h | h) | h), h'⟩ | h)
    · exact (h' h).elim
    · exact .inl h
    · exact .inr (.inl h)
    · exact .inr (.inr h)
  · rintro (h | h | h)
    · exact .inl ⟨.inl (.inr h), h ▸ by decide⟩
    · exact .inl ⟨.inr h, h ▸ by decide⟩
    · exact .inr h

theorem dataset_reached {P : (Quad Nat → Prop) → Op (Quad Nat) → Prop}
    (h : Allowed P nothing quadCalls) :
    Reach (BTreeDataset.container true Nat) P dataset (· ∈ quads) := by
  obtain ⟨d, e, hr⟩ := BTreeDataset.run_reach true h
  have e' : dataset = d := by simp only [dataset, state]; rw [show (BTreeDataset.container true
    Nat).empty = BTreeDataset.new from rfl, e]
  rw [e', ← after_quads]
  exact hr

theorem graph_reached {P : (Triple Nat → Prop) → Op (Triple Nat) → Prop}
    (h : Allowed P nothing tripleCalls) :
    Reach (BTreeGraph.container true Nat) P graph (· ∈ triples) := by
  obtain ⟨d, e, hr⟩ := BTreeGraph.run_reach true h
  have e' : graph = d := by simp only [graph, state]; rw [show (BTreeGraph.container true
    Nat).empty = BTreeGraph.new from rfl, e]
  rw [e', ← after_triples]
  exact hr

theorem indexedDataset_reached {P₀ P : (Quad Nat → Prop) → Op (Quad Nat) → Prop} {takes : Prop}
    (h : Allowed P nothing quadCalls) :
    DatasetReach true P₀ P takes indexedDataset (· ∈ quads) := by
  obtain ⟨d, e, hr⟩ := IndexedBTreeDataset.run_reach true P₀ takes h
  have e' : indexedDataset = d := by
    simp only [indexedDataset, state]
    rw [show (IndexedBTreeDataset.container true Nat).empty = IndexedBTreeDataset.new from rfl, e]
  rw [e', ← after_quads]
  exact hr

theorem indexedGraph_reached {P₀ P : (Triple Nat → Prop) → Op (Triple Nat) → Prop}
    (h : Allowed P nothing tripleCalls) :
    GraphReach true P₀ P indexedGraph (· ∈ triples) := by
  obtain ⟨d, e, hr⟩ := IndexedBTreeGraph.run_reach true P₀ h
  have e' : indexedGraph = d := by
    simp only [indexedGraph, state]
    rw [show (IndexedBTreeGraph.container true Nat).empty = IndexedBTreeGraph.new from rfl, e]
  rw [e', ← after_triples]
  exact hr

/-! ## The calls meet the restrictions -/

theorem any_quads : Allowed anyCall nothing quadCalls := by
  simp [Allowed, quadCalls, anyCall]

theorem any_triples : Allowed anyCall nothing tripleCalls := by
  simp [Allowed, tripleCalls, anyCall]

theorem known_quads : Allowed knownRepeats nothing quadCalls := by
  simp only [Allowed, quadCalls, knownRepeats, quadRepeats, and_true, true_and]
  refine ⟨?_, ?_, ?_, ?_⟩ <;> intro r h <;> exfalso <;> simp only [Option.some.injEq,
    reduceCtorEq, false_and, or_false] at h <;> omega

theorem known_triples : Allowed knownTripleRepeats nothing tripleCalls := by
  simp only [Allowed, tripleCalls, knownTripleRepeats, tripleRepeats, and_true, true_and]
  refine ⟨?_, ?_, ?_, ?_⟩ <;> intro r h <;> exfalso <;> omega

theorem apart_of_quads {A : Quad Nat → Prop} {x : Quad Nat}
    (hA : ∀ y, A y → y ∈ ⟨6, 7, 8, none⟩ :: quads) (hx : x ∈ ⟨6, 7, 8, none⟩ :: quads) :
    graphNamesApart A (.insert x) := by
  have key : ∀ y ∈ (⟨6, 7, 8, none⟩ :: quads : List (Quad Nat)),
      (∀ r, y.g = some r → r = 9) ∧ y.s ≠ 9 ∧ y.p ≠ 9 ∧ y.o ≠ 9 := by
    simp [quads]
  intro y z r hy hz hr
  have hy' := key y (hy.elim (hA y) (fun e => e ▸ hx))
  have hz' := key z (hz.elim (hA z) (fun e => e ▸ hx))
  cases hy'.1 r hr
  exact hz'.2

theorem apart_quads : Allowed graphNamesApart nothing quadCalls := by
  simp only [Allowed, quadCalls, and_true]
  refine ⟨apart_of_quads (fun _ h => h.elim) (by decide), apart_of_quads ?_ (by decide),
    apart_of_quads ?_ (by decide), trivial, apart_of_quads ?_ (by decide)⟩
  all_goals
    intro y h
    simp only [apply, nothing, false_or] at h
    simp only [quads, List.mem_cons, List.not_mem_nil, or_false]
  · exact .inl h
  · exact h.elim .inl (fun h => .inr (.inl h))
  · obtain ⟨((h | h) | h), -⟩ := h
    · exact .inl h
    · exact .inr (.inl h)
    · exact .inr (.inr (.inl h))

theorem allowed_both {S : Type} {P Q : (S → Prop) → Op S → Prop} {l : List (Op S)} :
    ∀ {A : S → Prop}, Allowed P A l → Allowed Q A l → Allowed (both P Q) A l := by
  induction l with
  | nil => exact fun _ _ => trivial
  | cons op l ih =>
    intro A hp hq
    cases op with
    | insert x => exact ⟨⟨hp.1, hq.1⟩, ih hp.2 hq.2⟩
    | remove x => exact ⟨⟨hp.1, hq.1⟩, ih hp.2 hq.2⟩
    | extend x => exact hp.elim

theorem last_quads {T : Type} (f : Quad Nat → T) (h1 : f ⟨1, 2, 3, none⟩ ≠ f ⟨6, 7, 8, none⟩)
    (h2 : f ⟨1, 2, 4, some 9⟩ ≠ f ⟨6, 7, 8, none⟩) : Allowed (lastWith f) nothing quadCalls := by
  simp only [Allowed, quadCalls, lastWith, apply, nothing, and_true, true_and, false_or]
  intro _ y h e
  rcases h with (h | h) | h
  · exact h
  · subst h; exact (h1 e).elim
  · subst h; exact (h2 e).elim

theorem last_triples {T : Type} (f : Triple Nat → T) (h1 : f ⟨1, 2, 3⟩ ≠ f ⟨6, 7, 8⟩)
    (h2 : f ⟨1, 2, 4⟩ ≠ f ⟨6, 7, 8⟩) : Allowed (lastWith f) nothing tripleCalls := by
  simp only [Allowed, tripleCalls, lastWith, apply, nothing, and_true, true_and, false_or]
  intro _ y h e
  rcases h with (h | h) | h
  · exact h
  · subst h; exact (h1 e).elim
  · subst h; exact (h2 e).elim

/-! ## The states are of the largest size so far -/

theorem indexedDataset_peak : DatasetPeak true knownRepeats indexedDataset (· ∈ quads)
    indexedDataset.len := by
  have hk := known_quads
  simp only [quadCalls, Allowed] at hk
  obtain ⟨k1, k2, k3, k4, k5, -⟩ := hk
  obtain ⟨d, e, hd⟩ := IndexedBTreeDataset.run_reach true (both insertOnly knownRepeats) False
    (P := both insertOnly knownRepeats) (l := quadCalls.take 3)
    ⟨⟨trivial, k1⟩, ⟨trivial, k2⟩, ⟨trivial, k3⟩, trivial⟩
  have h0 := DatasetPeak.start hd
  obtain ⟨d1, b1, e1, -⟩ := IndexedBTreeDataset.remove_spec
    (IndexedBTreeDataset.reach_stands hd).1 ⟨6, 7, 8, none⟩
  have h1 := h0.remove k4 e1
  obtain ⟨d2, b2, e2, -⟩ := IndexedBTreeDataset.insert_spec true
    (IndexedBTreeDataset.reach_stands h1.reach).1 ⟨5, 2, 3, some 9⟩
  have h2 := h1.insert k5 e2
  have e' : (IndexedBTreeDataset.container true Nat).run IndexedBTreeDataset.new quadCalls = .ok d2 := by
    have : (IndexedBTreeDataset.container true Nat).run IndexedBTreeDataset.new quadCalls
        = ((IndexedBTreeDataset.container true Nat).run IndexedBTreeDataset.new (quadCalls.take 3)).bind
          fun d => (d.remove ⟨6, 7, 8, none⟩).bind fun x => (x.1.insert true ⟨5, 2, 3, some 9⟩).bind
            fun y => .ok y.1 := by with_unfolding_all rfl
    rw [this, e]
    simp [Except.bind, e1, e2]
  have hs : indexedDataset = d2 := by
    simp only [indexedDataset, state]
    rw [show (IndexedBTreeDataset.container true Nat).empty = IndexedBTreeDataset.new from rfl, e']
  have hl : d.len = 3 := by
    have : (((IndexedBTreeDataset.container true Nat).run IndexedBTreeDataset.new
        (quadCalls.take 3)).bind fun d => .ok d.len) = .ok 3 := by decide +kernel
    rw [e] at this
    exact Except.ok.inj this
  have hl2 : d2.len = 3 := by
    have : indexedDataset.len = 3 := by decide +kernel
    rw [← hs, this]
  rw [hs]
  rw [hl, hl2] at h2
  rw [hl2, ← after_quads]
  exact h2

theorem indexedGraph_peak : GraphPeak true knownTripleRepeats indexedGraph (· ∈ triples)
    indexedGraph.len := by
  have hk := known_triples
  simp only [tripleCalls, Allowed] at hk
  obtain ⟨k1, k2, k3, k4, k5, -⟩ := hk
  obtain ⟨d, e, hd⟩ := IndexedBTreeGraph.run_reach true (both insertOnly knownTripleRepeats)
    (P := both insertOnly knownTripleRepeats) (l := tripleCalls.take 3)
    ⟨⟨trivial, k1⟩, ⟨trivial, k2⟩, ⟨trivial, k3⟩, trivial⟩
  have h0 := GraphPeak.start hd
  obtain ⟨d1, b1, e1, -⟩ := IndexedBTreeGraph.remove_spec
    (IndexedBTreeGraph.reach_stands hd).1 ⟨6, 7, 8⟩
  have h1 := h0.remove k4 e1
  obtain ⟨d2, b2, e2, -⟩ := IndexedBTreeGraph.insert_spec true
    (IndexedBTreeGraph.reach_stands h1.reach).1 ⟨5, 2, 3⟩
  have h2 := h1.insert k5 e2
  have e' : (IndexedBTreeGraph.container true Nat).run IndexedBTreeGraph.new tripleCalls = .ok d2 := by
    have : (IndexedBTreeGraph.container true Nat).run IndexedBTreeGraph.new tripleCalls
        = ((IndexedBTreeGraph.container true Nat).run IndexedBTreeGraph.new (tripleCalls.take 3)).bind
          fun d => (d.remove ⟨6, 7, 8⟩).bind fun x => (x.1.insert true ⟨5, 2, 3⟩).bind
            fun y => .ok y.1 := by with_unfolding_all rfl
    rw [this, e]
    simp [Except.bind, e1, e2]
  have hs : indexedGraph = d2 := by
    simp only [indexedGraph, state]
    rw [show (IndexedBTreeGraph.container true Nat).empty = IndexedBTreeGraph.new from rfl, e']
  have hl : d.len = 3 := by
    have : (((IndexedBTreeGraph.container true Nat).run IndexedBTreeGraph.new
        (tripleCalls.take 3)).bind fun d => .ok d.len) = .ok 3 := by decide +kernel
    rw [e] at this
    exact Except.ok.inj this
  have hl2 : d2.len = 3 := by
    have : indexedGraph.len = 3 := by decide +kernel
    rw [← hs, this]
  rw [hs]
  rw [hl, hl2] at h2
  rw [hl2, ← after_triples]
  exact h2

end RdfTypes.Case
