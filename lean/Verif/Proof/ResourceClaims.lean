import Verif.Proof.Runs

/-! # The claims of `Spec/Resources.lean` -/

set_option linter.unusedSectionVars false
set_option linter.unusedSimpArgs false

namespace RdfTypes

open Container

variable {R : Type} [Ord R] [Std.TransOrd R] [Std.LawfulEqOrd R] {rep : Bool}

/-- Everything about `resources` and `contains_resource` in one state. -/
structure Listing {R S : Type} [Ord R] (has : S → R → Prop) (A : S → Prop) (covers : Prop)
    (resources : Res (List R)) (contains : R → Res Bool) (rs : List R) : Prop where
  ok : resources = .ok rs
  asc : rs.Pairwise (fun a b => compare a b = .lt)
  sound : ∀ r ∈ rs, ∃ y, A y ∧ has y r
  contains : ∀ r, ∃ b, contains r = .ok b ∧ (b = true ↔ r ∈ rs)
  full : covers → ∀ y r, A y → has y r → r ∈ rs

theorem BTreeDataset.listing {d : BTreeDataset R} {A : Quad R → Prop}
    (hs : Stands WF BTreeDataset.abs d A) :
    ∃ rs, Listing Spec.quadHas A d.Covers d.resourceList d.containsResource rs := by
  obtain ⟨rs, h1, h2, h3, h4, h5, -⟩ := Inv.listed quadShape_laws hs.1
  refine ⟨rs, h1, h2, ?_, ?_, ?_⟩
  · intro r hr
    obtain ⟨y, hy, ho⟩ := h3 r hr
    exact ⟨y, (hs.2 y).1 hy, (quad_occurs_iff y r).1 ho⟩
  · intro r
    obtain ⟨o, e, ho⟩ := h4 r
    exact ⟨o.isSome, by simp [containsResource, indexOfResource, e, bind, Except.bind, pure,
      Except.pure], ho⟩
  · intro hc y r hy hr
    exact h5 hc y r ((hs.2 y).2 hy) ((quad_occurs_iff y r).2 hr)

theorem BTreeGraph.listing {d : BTreeGraph R} {A : Triple R → Prop}
    (hs : Stands WF BTreeGraph.abs d A) :
    ∃ rs, Listing Spec.tripleHas A d.Covers d.resourceList d.containsResource rs := by
  obtain ⟨rs, h1, h2, h3, h4, h5, -⟩ := Inv.listed tripleShape_laws hs.1
  refine ⟨rs, h1, h2, ?_, ?_, ?_⟩
  · intro r hr
    obtain ⟨y, hy, ho⟩ := h3 r hr
    exact ⟨y, (hs.2 y).1 hy, (triple_occurs_iff y r).1 ho⟩
  · intro r
    obtain ⟨o, e, ho⟩ := h4 r
    exact ⟨o.isSome, by simp [containsResource, indexOfResource, e, bind, Except.bind, pure,
      Except.pure], ho⟩
  · intro hc y r hy hr
    exact h5 hc y r ((hs.2 y).2 hy) ((triple_occurs_iff y r).2 hr)

theorem IndexedBTreeDataset.listing {d : IndexedBTreeDataset R} {A : Quad R → Prop}
    (hs : Stands WF IndexedBTreeDataset.abs d A) :
    ∃ rs, Listing Spec.quadHas A d.Covers d.resourceList d.containsResource rs ∧
      (d.Clean → d.resourceCount = rs.length) := by
  obtain ⟨rs, h1, h2, h3, h4, h5, h6⟩ := Inv.listed quadShape_laws hs.1.inv
  refine ⟨rs, ⟨h1, h2, ?_, ?_, ?_⟩, h6⟩
  · intro r hr
    obtain ⟨y, hy, ho⟩ := h3 r hr
    exact ⟨y, (hs.2 y).1 hy, (quad_occurs_iff y r).1 ho⟩
  · intro r
    obtain ⟨o, e, ho⟩ := h4 r
    exact ⟨o.isSome, by simp [containsResource, indexOfResource, e, bind, Except.bind, pure,
      Except.pure], ho⟩
  · intro hc y r hy hr
    exact h5 hc y r ((hs.2 y).2 hy) ((quad_occurs_iff y r).2 hr)

theorem IndexedBTreeGraph.listing {d : IndexedBTreeGraph R} {A : Triple R → Prop}
    (hs : Stands WF IndexedBTreeGraph.abs d A) :
    ∃ rs, Listing Spec.tripleHas A d.Covers d.resourceList d.containsResource rs ∧
      (d.Clean → d.resourceCount = rs.length) := by
  obtain ⟨rs, h1, h2, h3, h4, h5, h6⟩ := Inv.listed tripleShape_laws hs.1.inv
  refine ⟨rs, ⟨h1, h2, ?_, ?_, ?_⟩, h6⟩
  · intro r hr
    obtain ⟨y, hy, ho⟩ := h3 r hr
    exact ⟨y, (hs.2 y).1 hy, (triple_occurs_iff y r).1 ho⟩
  · intro r
    obtain ⟨o, e, ho⟩ := h4 r
    exact ⟨o.isSome, by simp [containsResource, indexOfResource, e, bind, Except.bind, pure,
      Except.pure], ho⟩
  · intro hc y r hy hr
    exact h5 hc y r ((hs.2 y).2 hy) ((triple_occurs_iff y r).2 hr)

namespace Listing

variable {S : Type} {has : S → R → Prop} {A : S → Prop} {covers : Prop} {resources : Res (List R)}
  {contains : R → Res Bool} {rs : List R}

theorem claim (h : Listing has A covers resources contains rs) :
    ∃ rs, resources = .ok rs ∧ rs.Pairwise (fun a b => compare a b = .lt) ∧
      (∀ r ∈ rs, ∃ y, A y ∧ has y r) ∧ ∀ r, ∃ b, contains r = .ok b ∧ (b = true ↔ r ∈ rs) :=
  ⟨rs, h.ok, h.asc, h.sound, h.contains⟩

theorem all (h : Listing has A covers resources contains rs) (hc : covers) {y : S} {r : R}
    (hy : A y) (hr : has y r) : (∃ rs, resources = .ok rs ∧ r ∈ rs) ∧ contains r = .ok true := by
  have hm := h.full hc y r hy hr
  obtain ⟨b, hb, hbi⟩ := h.contains r
  rw [hb, hbi.2 hm]
  exact ⟨⟨rs, h.ok, hm⟩, rfl⟩

/-- Two listings of the same resources answer alike. -/
theorem contains_eq {has' : S → R → Prop} {A' : S → Prop} {covers' : Prop}
    {contains' : R → Res Bool}
    (h : Listing has A covers resources contains rs)
    {rs' : List R} (h' : Listing has' A' covers' resources contains' rs') (r : R) :
    contains r = contains' r := by
  have e := h.ok
  rw [h'.ok] at e
  cases e
  obtain ⟨b, hb, hbi⟩ := h.contains r
  obtain ⟨b', hb', hbi'⟩ := h'.contains r
  rw [hb, hb']
  cases b <;> cases b' <;> simp_all

end Listing

/-! ## Positions -/

/-- Everything about the list of terms at a position in one state. -/
theorem IndexedBTreeDataset.pos_listing {d : IndexedBTreeDataset R} {A : Quad R → Prop}
    (hs : Stands WF IndexedBTreeDataset.abs d A) {p : Pos}
    (hp : PosSet (quadShape R) d.quads p (d.posSet p)) :
    ∃ rs, (indexOps R).readResources d.resources (d.posSet p) = .ok rs ∧
      (d.posSet p).length = rs.length ∧
      (∀ r ∈ rs, ∃ y, A y ∧ (quadShape R).compV y p = some r) ∧
      (PosFull (quadShape R) d.quads p (d.posSet p) →
        ∀ y r, A y → (quadShape R).compV y p = some r → r ∈ rs) ∧ (d.Clean → rs.Nodup) := by
  obtain ⟨rs, h1, h2, h3, h4, h5⟩ := hs.1.inv.pos_listed quadShape_laws hp
  refine ⟨rs, h1, h2, ?_, ?_, h5⟩
  · intro r hr
    obtain ⟨y, hy, ho⟩ := h3 r hr
    exact ⟨y, (hs.2 y).1 hy, ho⟩
  · intro hf y r hy hr
    exact h4 hf y r ((hs.2 y).2 hy) hr

theorem IndexedBTreeGraph.pos_listing {d : IndexedBTreeGraph R} {A : Triple R → Prop}
    (hs : Stands WF IndexedBTreeGraph.abs d A) {p : Pos}
    (hp : PosSet (tripleShape R) d.triples p (d.posSet p)) :
    ∃ rs, (indexOps R).readResources d.resources (d.posSet p) = .ok rs ∧
      (d.posSet p).length = rs.length ∧
      (∀ r ∈ rs, ∃ y, A y ∧ (tripleShape R).compV y p = some r) ∧
      (PosFull (tripleShape R) d.triples p (d.posSet p) →
        ∀ y r, A y → (tripleShape R).compV y p = some r → r ∈ rs) ∧ (d.Clean → rs.Nodup) := by
  obtain ⟨rs, h1, h2, h3, h4, h5⟩ := hs.1.inv.pos_listed tripleShape_laws hp
  refine ⟨rs, h1, h2, ?_, ?_, h5⟩
  · intro r hr
    obtain ⟨y, hy, ho⟩ := h3 r hr
    exact ⟨y, (hs.2 y).1 hy, ho⟩
  · intro hf y r hy hr
    exact h4 hf y r ((hs.2 y).2 hy) hr

/-! ## `remove_graph` -/

theorem IndexedBTreeDataset.removeGraph_exact {d : IndexedBTreeDataset R} {A : Quad R → Prop}
    (hs : Stands WF IndexedBTreeDataset.abs d A) (g : Option R)
    (hc : g = none ∨ d.Clean)
    {d' : IndexedBTreeDataset R} {out : Option (BTreeGraph R)} (gr : GraphRemoved d g d' out) :
    (∀ gr, out = some gr → ∀ t, ∃ b, gr.contains t = .ok b ∧ (b = true ↔ A (t.intoQuad g))) ∧
    (∀ y, ∃ b, d'.contains y = .ok b ∧ (b = true ↔ A y ∧ y.g ≠ g)) ∧
    ((∃ y, A y ∧ y.g = g) → out.isSome = true) := by
  refine ⟨?_, ?_, ?_⟩
  · intro w hw t
    obtain ⟨b, hb, hbi⟩ := BTreeGraph.contains_spec (gr.outWF w hw) t
    refine ⟨b, hb, hbi.trans ⟨fun ht => (hs.2 _).1 (gr.sound w t hw ht), fun ht => ?_⟩⟩
    obtain ⟨w', hw', ht'⟩ := gr.complete hc _ ((hs.2 _).2 ht) rfl
    rw [hw] at hw'
    cases hw'
    exact ht'
  · intro y
    obtain ⟨b, hb, hbi⟩ := contains_spec gr.wf y
    refine ⟨b, hb, hbi.trans ?_⟩
    rw [gr.removed, hs.2]
    refine and_congr_right fun hy => not_congr ⟨And.left, fun hg => ⟨hg, ?_⟩⟩
    exact gr.complete hc y ((hs.2 y).2 hy) hg
  · rintro ⟨y, hy, hg⟩
    obtain ⟨w, hw, -⟩ := gr.complete hc y ((hs.2 y).2 hy) hg
    simp [hw]

end RdfTypes
