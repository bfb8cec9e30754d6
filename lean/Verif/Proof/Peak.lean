import Verif.Proof.Positions

/-! # Containers at their largest size have no vacant slot -/

set_option linter.unusedSectionVars false
set_option linter.unusedSimpArgs false

namespace RdfTypes

open Container

variable {R : Type} [Ord R] [Std.TransOrd R] [Std.LawfulEqOrd R] {rep : Bool}

/-! ## Weaker restrictions -/

theorem Spec.Reach.mono {S D : Type} {c : Container S D} {P Q : (S → Prop) → Op S → Prop}
    (hPQ : ∀ A op, P A op → Q A op) {d : D} {A : S → Prop} (h : Spec.Reach c P d A) :
    Spec.Reach c Q d A := by
  induction h with
  | new => exact .new
  | insert h hP e ih => exact ih.insert (hPQ _ _ hP) e
  | remove h hP e ih => exact ih.remove (hPQ _ _ hP) e

theorem Spec.GraphReach.mono {P₀ P Q₀ Q : (Triple R → Prop) → Op (Triple R) → Prop}
    (h0 : ∀ A op, P₀ A op → Q₀ A op) (h1 : ∀ A op, P A op → Q A op) {d : IndexedBTreeGraph R}
    {A : Triple R → Prop} (h : Spec.GraphReach rep P₀ P d A) : Spec.GraphReach rep Q₀ Q d A := by
  induction h with
  | new => exact .new
  | convert h e => exact .convert (h.mono h0) e
  | insert h hP e ih => exact ih.insert (h1 _ _ hP) e
  | remove h hP e ih => exact ih.remove (h1 _ _ hP) e

theorem Spec.DatasetReach.mono {P₀ P Q₀ Q : (Quad R → Prop) → Op (Quad R) → Prop}
    {takes takes' : Prop} (h0 : ∀ A op, P₀ A op → Q₀ A op) (h1 : ∀ A op, P A op → Q A op)
    (h2 : takes → takes') {d : IndexedBTreeDataset R}
    {A : Quad R → Prop} (h : Spec.DatasetReach rep P₀ P takes d A) :
    Spec.DatasetReach rep Q₀ Q takes' d A := by
  induction h with
  | new => exact .new
  | convert h e => exact .convert (h.mono h0) e
  | insert h hP e ih => exact ih.insert (h1 _ _ hP) e
  | remove h hP e ih => exact ih.remove (h1 _ _ hP) e
  | removeGraph h hT e ih => exact ih.removeGraph (h2 hT) e
  | extract h hT hc e ih => exact ih.extract (h2 hT) hc e

theorem Spec.DatasetPeak.reach {P : (Quad R → Prop) → Op (Quad R) → Prop}
    {d : IndexedBTreeDataset R} {A : Quad R → Prop} {m : Nat} (h : Spec.DatasetPeak rep P d A m) :
    Spec.DatasetReach rep P P True d A := by
  induction h with
  | start h => exact h.mono (fun _ _ h => h.2) (fun _ _ h => h.2) False.elim
  | insert h hP e ih => exact ih.insert hP e
  | remove h hP e ih => exact ih.remove hP e
  | removeGraph h e ih => exact ih.removeGraph trivial e
  | extract h hc e ih => exact ih.extract trivial hc e

theorem Spec.GraphPeak.reach {P : (Triple R → Prop) → Op (Triple R) → Prop}
    {d : IndexedBTreeGraph R} {A : Triple R → Prop} {m : Nat} (h : Spec.GraphPeak rep P d A m) :
    Spec.GraphReach rep P P d A := by
  induction h with
  | start h => exact h.mono (fun _ _ h => h.2) (fun _ _ h => h.2)
  | insert h hP e ih => exact ih.insert hP e
  | remove h hP e ih => exact ih.remove hP e

/-! ## Datasets -/

theorem BTreeDataset.reach_packed {P : (Quad R → Prop) → Op (Quad R) → Prop}
    (hP : ∀ A op, P A op → Spec.insertOnly A op) {d : BTreeDataset R} {A : Quad R → Prop}
    (h : Spec.Reach (BTreeDataset.container rep R) P d A) : d.quads.entries.length ≤ d.quads.len := by
  refine (BTreeDataset.laws rep).reach_keeps
    (Q := fun d : BTreeDataset R => d.quads.entries.length ≤ d.quads.len) ?_ ?_ ?_ h
  · exact Nat.zero_le _
  · intro d A x d' b hs hc hp e
    obtain ⟨d1, b1, e1, -, -, -, hb, -, -, hq⟩ := insert_spec rep hs.1 x
    cases Except.ok.inj (Eq.trans (Eq.symm e1) e)
    cases b with
    | false => rw [hb rfl]; exact hc
    | true =>
      obtain ⟨q, hq, -⟩ := hq rfl
      rw [hq]
      have h1 := Slab.length_insert d.quads hs.1.wf q
      have h2 := Slab.len_insert d.quads hs.1.wf q
      omega
  · intro d A x d' b hs hc hp e
    exact (hP _ _ hp).elim

theorem IndexedBTreeDataset.fromNonIndexed_quads {g : BTreeDataset R} {d : IndexedBTreeDataset R}
    (e : fromNonIndexed g = .ok d) : d.quads = g.quads := by
  simp only [fromNonIndexed, bind, Except.bind, pure, Except.pure] at e
  split at e
  · cases e
  · cases e
    rfl

/-- An insertion uses a new slot only when there is no vacant one. -/
theorem IndexedBTreeDataset.insert_length {d d' : IndexedBTreeDataset R} {x : Quad R} {b : Bool}
    (h : d.WF) (e : d.insert rep x = .ok (d', b)) :
    d'.quads.entries.length ≤ max d.quads.entries.length d'.quads.len ∧
    d.quads.len ≤ d'.quads.len := by
  obtain ⟨d1, b1, e1, -, -, -, hb, -, -, -, -, hi⟩ := insert_spec rep h x
  rw [e] at e1
  cases e1
  cases b with
  | false => rw [hb rfl]; omega
  | true =>
    obtain ⟨q, hq, -⟩ := hi rfl
    rw [hq]
    have h1 := Slab.length_insert d.quads h.inv.wf q
    have h2 := Slab.len_insert d.quads h.inv.wf q
    omega

theorem IndexedBTreeDataset.reach_packed {P₀ P : (Quad R → Prop) → Op (Quad R) → Prop}
    (hP₀ : ∀ A op, P₀ A op → Spec.insertOnly A op)
    (hP : ∀ A op, P A op → Spec.insertOnly A op) {d : IndexedBTreeDataset R} {A : Quad R → Prop}
    (h : Spec.DatasetReach rep P₀ P False d A) : d.quads.entries.length ≤ d.quads.len := by
  refine reach_keeps (Q := fun d => d.quads.entries.length ≤ d.quads.len) ?_ ?_ ?_ ?_ ?_ h
  · exact Nat.zero_le _
  · intro g A d hg e
    rw [fromNonIndexed_quads e]
    exact BTreeDataset.reach_packed hP₀ hg
  · intro d A x d' b hs hc hp e
    have := insert_length hs.1 e
    omega
  · intro d A k q x d' hs hc hp r
    exact (hP _ _ hp).elim
  · exact False.elim

/-- The number of slots is at most the largest size reached. -/
theorem IndexedBTreeDataset.peak_length {P : (Quad R → Prop) → Op (Quad R) → Prop}
    {d : IndexedBTreeDataset R} {A : Quad R → Prop} {m : Nat} (h : Spec.DatasetPeak rep P d A m) :
    d.quads.entries.length ≤ m := by
  induction h with
  | start h => exact reach_packed (fun _ _ h => h.1) (fun _ _ h => h.1) h
  | @insert d A m x d' b h hP e ih =>
    have := insert_length (reach_stands h.reach).1 e
    simp only [len]
    omega
  | @remove d A m x d' b h hP e ih =>
    rcases remove_core (reach_stands h.reach).1 x with ⟨k, q, d1, e1, r⟩ | ⟨e1, -⟩
    · rw [e] at e1
      cases e1
      rw [r.quads, Slab.length_erase]
      exact ih
    · rw [e] at e1
      cases e1
      exact ih
  | @removeGraph d A m g d' out h e ih =>
    obtain ⟨d1, out1, e1, gr⟩ := removeGraph_spec rep (reach_stands h.reach).1 g
    rw [e] at e1
    cases e1
    obtain ⟨xs, hx, -⟩ := gr.chain
    rw [hx.length]
    exact ih
  | @extract d A m pat cap n d' out ended h hcap e ih =>
    obtain ⟨d1, out1, ended1, e1, hx, -⟩ :=
      extractPatternMatching_spec (reach_stands h.reach).1 hcap pat n
    rw [e] at e1
    cases e1
    rw [hx.length]
    exact ih

theorem IndexedBTreeDataset.peak_dense {P : (Quad R → Prop) → Op (Quad R) → Prop}
    {d : IndexedBTreeDataset R} {A : Quad R → Prop} {m : Nat} (h : Spec.DatasetPeak rep P d A m)
    (hm : d.len = m) : d.Dense := by
  have := peak_length h
  intro n k q hn hk
  refine Slab.get_of_full (by rw [← hm] at this; exact this) ?_
  have := Slab.lt_of_get hk
  omega

/-! ## Graphs -/

theorem BTreeGraph.reach_packed {P : (Triple R → Prop) → Op (Triple R) → Prop}
    (hP : ∀ A op, P A op → Spec.insertOnly A op) {d : BTreeGraph R} {A : Triple R → Prop}
    (h : Spec.Reach (BTreeGraph.container rep R) P d A) :
    d.triples.entries.length ≤ d.triples.len := by
  refine (BTreeGraph.laws rep).reach_keeps
    (Q := fun d : BTreeGraph R => d.triples.entries.length ≤ d.triples.len) ?_ ?_ ?_ h
  · exact Nat.zero_le _
  · intro d A x d' b hs hc hp e
    obtain ⟨d1, b1, e1, -, -, -, hb, -, -, hq⟩ := insert_spec rep hs.1 x
    cases Except.ok.inj (Eq.trans (Eq.symm e1) e)
    cases b with
    | false => rw [hb rfl]; exact hc
    | true =>
      obtain ⟨q, hq, -⟩ := hq rfl
      rw [hq]
      have h1 := Slab.length_insert d.triples hs.1.wf q
      have h2 := Slab.len_insert d.triples hs.1.wf q
      omega
  · intro d A x d' b hs hc hp e
    exact (hP _ _ hp).elim

theorem IndexedBTreeGraph.fromNonIndexed_triples {g : BTreeGraph R} {d : IndexedBTreeGraph R}
    (e : fromNonIndexed g = .ok d) : d.triples = g.triples := by
  simp only [fromNonIndexed, bind, Except.bind, pure, Except.pure] at e
  split at e
  · cases e
  · cases e
    rfl

theorem IndexedBTreeGraph.insert_length {d d' : IndexedBTreeGraph R} {x : Triple R} {b : Bool}
    (h : d.WF) (e : d.insert rep x = .ok (d', b)) :
    d'.triples.entries.length ≤ max d.triples.entries.length d'.triples.len ∧
    d.triples.len ≤ d'.triples.len := by
  obtain ⟨d1, b1, e1, -, -, -, hb, -, -, -, hi⟩ := insert_spec rep h x
  rw [e] at e1
  cases e1
  cases b with
  | false => rw [hb rfl]; omega
  | true =>
    obtain ⟨q, hq, -⟩ := hi rfl
    rw [hq]
    have h1 := Slab.length_insert d.triples h.inv.wf q
    have h2 := Slab.len_insert d.triples h.inv.wf q
    omega

theorem IndexedBTreeGraph.reach_packed {P₀ P : (Triple R → Prop) → Op (Triple R) → Prop}
    (hP₀ : ∀ A op, P₀ A op → Spec.insertOnly A op)
    (hP : ∀ A op, P A op → Spec.insertOnly A op) {d : IndexedBTreeGraph R} {A : Triple R → Prop}
    (h : Spec.GraphReach rep P₀ P d A) : d.triples.entries.length ≤ d.triples.len := by
  refine reach_keeps (Q := fun d => d.triples.entries.length ≤ d.triples.len) ?_ ?_ ?_ ?_ h
  · exact Nat.zero_le _
  · intro g A d hg e
    rw [fromNonIndexed_triples e]
    exact BTreeGraph.reach_packed hP₀ hg
  · intro d A x d' b hs hc hp e
    have := insert_length hs.1 e
    omega
  · intro d A k q x d' hs hc hp r
    exact (hP _ _ hp).elim

theorem IndexedBTreeGraph.peak_length {P : (Triple R → Prop) → Op (Triple R) → Prop}
    {d : IndexedBTreeGraph R} {A : Triple R → Prop} {m : Nat} (h : Spec.GraphPeak rep P d A m) :
    d.triples.entries.length ≤ m := by
  induction h with
  | start h => exact reach_packed (fun _ _ h => h.1) (fun _ _ h => h.1) h
  | @insert d A m x d' b h hP e ih =>
    have := insert_length (reach_stands h.reach).1 e
    simp only [len]
    omega
  | @remove d A m x d' b h hP e ih =>
    rcases remove_core (reach_stands h.reach).1 x with ⟨k, q, d1, e1, r⟩ | ⟨e1, -⟩
    · rw [e] at e1
      cases e1
      rw [r.triples, Slab.length_erase]
      exact ih
    · rw [e] at e1
      cases e1
      exact ih

theorem IndexedBTreeGraph.peak_dense {P : (Triple R → Prop) → Op (Triple R) → Prop}
    {d : IndexedBTreeGraph R} {A : Triple R → Prop} {m : Nat} (h : Spec.GraphPeak rep P d A m)
    (hm : d.len = m) : d.Dense := by
  have := peak_length h
  intro n k q hn hk
  refine Slab.get_of_full (by rw [← hm] at this; exact this) ?_
  have := Slab.lt_of_get hk
  omega

end RdfTypes
