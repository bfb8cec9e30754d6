import Verif.Proof.Related

/-!
# The four containers on related terms
-/

set_option linter.unusedSectionVars false

namespace RdfTypes.Proof.Related

variable {R Q : Type} {V W : R → Q → Prop}

/-! ## Records -/

/-- Related values, same number of occurrences. -/
def CountedRel (V : R → Q → Prop) (x : CountedResource R) (y : CountedResource Q) : Prop :=
  V x.value y.value ∧ y.occurrences = x.occurrences

theorem countOps_rel (V : R → Q → Prop) : OpsRel (countOps R) (countOps Q) V (CountedRel V) where
  value _ _ h := h.1
  create _ _ _ _ h := ⟨h, rfl⟩
  add _ _ _ _ h := ⟨h.1, by simp [h.2]⟩
  del p k x y h := by
    obtain ⟨v, n⟩ := x
    obtain ⟨v', n'⟩ := y
    obtain ⟨h1, h2⟩ := h
    dsimp only at h1 h2
    subst h2
    cases n' with
    | zero => rfl
    | succ n => exact ⟨h1, rfl⟩
  isEmpty x y h := by simp [countOps, h.2]

/-- Related values, same statements. -/
def IndexedRel (V : R → Q → Prop) (x : IndexedResource R) (y : IndexedResource Q) : Prop :=
  V x.value y.value ∧ y.asSubject = x.asSubject ∧ y.asPredicate = x.asPredicate ∧
    y.asObject = x.asObject ∧ y.asGraph = x.asGraph

theorem IndexedRel.at_ {x : IndexedResource R} {y : IndexedResource Q} (h : IndexedRel V x y)
    (p : Pos) : y.at_ p = x.at_ p := by
  cases p <;> simp [IndexedResource.at_, h.2.1, h.2.2.1, h.2.2.2.1, h.2.2.2.2]

theorem IndexedRel.update {x : IndexedResource R} {y : IndexedResource Q} (h : IndexedRel V x y)
    (f : NatSet → NatSet) (p : Pos) : IndexedRel V (x.update f p) (y.update f p) := by
  obtain ⟨h1, h2, h3, h4, h5⟩ := h
  cases p <;> simp [IndexedResource.update, IndexedRel, *]

theorem indexOps_rel (V : R → Q → Prop) : OpsRel (indexOps R) (indexOps Q) V (IndexedRel V) where
  value _ _ h := h.1
  create r r' p k h := IndexedRel.update (x := ⟨r, [], [], [], []⟩) (y := ⟨r', [], [], [], []⟩)
    ⟨h, rfl, rfl, rfl, rfl⟩ (NatSet.insert k) p
  add p k _ _ h := h.update (NatSet.insert k) p
  del p k _ _ h := h.update (NatSet.remove k) p
  isEmpty x y h := by simp [indexOps, h.2.1, h.2.2.1, h.2.2.2.1, h.2.2.2.2]

variable [Ord R] [Ord Q]

/-- What two containers and relations of their statements have to satisfy. -/
structure ContainerRel {S S' D D' : Type} (c : Container S D) (c' : Container S' D')
    (VS WS : S → S' → Prop) (T : D → D' → Prop) : Prop where
  empty : T c.empty c'.empty
  insert : ∀ d d' x x', T d d' → VS x x' →
    ResRel (fun a b => T a.1 b.1 ∧ a.2 = b.2) (c.insert d x) (c'.insert d' x')
  remove : ∀ d d' x x', T d d' → WS x x' →
    ResRel (fun a b => T a.1 b.1 ∧ a.2 = b.2) (c.remove d x) (c'.remove d' x')
  contains : ∀ d d' x x', T d d' → WS x x' → c'.contains d' x' = c.contains d x
  iter : ∀ d d', T d d' → ResRel (Each VS) (c.iter d) (c'.iter d')
  intoIter : ∀ d d', T d d' → ResRel (Each VS) (c.intoIter d) (c'.intoIter d')
  len : ∀ d d', T d d' → c'.len d' = c.len d
  isEmpty : ∀ d d', T d d' → c'.isEmpty d' = c.isEmpty d

theorem ContainerRel.extend {S S' D D' : Type} {c : Container S D} {c' : Container S' D'}
    {VS WS : S → S' → Prop} {T : D → D' → Prop} (h : ContainerRel c c' VS WS T) {d : D} {d' : D'}
    (hd : T d d') {l : List S} {l' : List S'} (hl : Each VS l l') :
    ResRel T (c.extend d l) (c'.extend d' l') := by
  induction hl generalizing d d' with
  | nil => exact hd
  | cons hx _ ih => exact (h.insert _ _ _ _ hd hx).bind fun a b hab => ih hab.1

/-! ## `BTreeDataset` -/

/-- Related records, same slots and indexes. -/
structure DatasetRel (V : R → Q → Prop) (d : BTreeDataset R) (d' : BTreeDataset Q) : Prop where
  resources : SlabRel (CountedRel V) d.resources d'.resources
  quads : d'.quads = d.quads
  resourcesIndexes : d'.resourcesIndexes = d.resourcesIndexes
  quadsIndexes : d'.quadsIndexes = d.quadsIndexes

theorem dataset_contains (hc : Compat V W) {d : BTreeDataset R} {d' : BTreeDataset Q}
    (h : DatasetRel V d d') {q : Quad R} {q' : Quad Q} (hq : QuadRel W q q') :
    d'.contains q' = d.contains q := by
  simp only [BTreeDataset.contains, BTreeDataset.indexOfQuad]
  rw [h.quads, h.quadsIndexes, quadCmp_eq (countOps_rel V) h.resources hc _ hq]

theorem dataset_insert (hc : Compat V W) (rep : Bool) {d : BTreeDataset R} {d' : BTreeDataset Q}
    (h : DatasetRel V d d') {q : Quad R} {q' : Quad Q} (hq : QuadRel V q q') :
    ResRel (fun a b => DatasetRel V a.1 b.1 ∧ a.2 = b.2) (d.insert rep q) (d'.insert rep q') := by
  unfold BTreeDataset.insert
  rw [dataset_contains hc h (hc.quad_stored hq)]
  refine (ResRel.of_eq rfl).bind fun b b' e => ?_
  subst e
  split
  · exact ResRel.pure ⟨h, rfl⟩
  · dsimp only
    rw [h.quads, h.resourcesIndexes, h.quadsIndexes]
    refine (acquireQuad_rel (countOps_rel V) h.resources hc rep _ _ hq).bind fun a b hab => ?_
    obtain ⟨res, idx, q₁⟩ := a
    obtain ⟨res', idx', q₁'⟩ := b
    obtain ⟨hr, e⟩ := hab
    cases e
    dsimp only at hr ⊢
    rw [quadIndexCmp_eq (countOps_rel V) hr hc]
    refine (ResRel.of_eq rfl).bind fun a b e => ?_
    subst e
    exact ResRel.pure ⟨⟨hr, rfl, rfl, rfl⟩, rfl⟩

theorem dataset_remove (hc : Compat V W) {d : BTreeDataset R} {d' : BTreeDataset Q}
    (h : DatasetRel V d d') {q : Quad R} {q' : Quad Q} (hq : QuadRel W q q') :
    ResRel (fun a b => DatasetRel V a.1 b.1 ∧ a.2 = b.2) (d.remove q) (d'.remove q') := by
  have ho := countOps_rel V
  unfold BTreeDataset.remove
  dsimp only
  rw [h.quads, h.quadsIndexes, h.resourcesIndexes, quadCmp_eq ho h.resources hc _ hq]
  refine (ResRel.of_eq rfl).bind fun a b e => ?_
  subst e
  obtain ⟨idx, o⟩ := a
  cases o with
  | none => exact ResRel.pure ⟨⟨h.resources, rfl, rfl, rfl⟩, rfl⟩
  | some i =>
    dsimp only
    refine (ResRel.of_eq rfl).bind fun a b e => ?_
    subst e
    refine (release_rel ho h.resources _ .subj i _
      (fun _ _ hr => resourceCmp_eq ho hr hc hq.1)).bind fun a b hab => ?_
    obtain ⟨res₁, idx₁, b₁⟩ := a
    obtain ⟨res₁', idx₁', b₁'⟩ := b
    obtain ⟨hr₁, e₁⟩ := hab
    cases e₁
    refine (release_rel ho hr₁ _ .pred i _
      (fun _ _ hr => resourceCmp_eq ho hr hc hq.2.1)).bind fun a b hab => ?_
    obtain ⟨res₂, idx₂, b₂⟩ := a
    obtain ⟨res₂', idx₂', b₂'⟩ := b
    obtain ⟨hr₂, e₂⟩ := hab
    cases e₂
    refine (release_rel ho hr₂ _ .obj i _
      (fun _ _ hr => resourceCmp_eq ho hr hc hq.2.2.1)).bind fun a b hab => ?_
    obtain ⟨res₃, idx₃, b₃⟩ := a
    obtain ⟨res₃', idx₃', b₃'⟩ := b
    obtain ⟨hr₃, e₃⟩ := hab
    cases e₃
    dsimp only
    split
    · refine (release_rel ho hr₃ _ .graph i _
        (fun _ _ hr => resourceIndexCmp_eq ho hr hc _)).bind fun a b hab => ?_
      obtain ⟨res₄, idx₄, b₄⟩ := a
      obtain ⟨res₄', idx₄', b₄'⟩ := b
      obtain ⟨hr₄, e₄⟩ := hab
      cases e₄
      exact ResRel.pure ⟨⟨hr₄, rfl, rfl, rfl⟩, rfl⟩
    · exact ResRel.pure ⟨⟨hr₃, rfl, rfl, rfl⟩, rfl⟩

theorem dataset_rel (hc : Compat V W) (rep : Bool) :
    ContainerRel (BTreeDataset.container rep R) (BTreeDataset.container rep Q) (QuadRel V)
      (QuadRel W) (DatasetRel V) where
  empty := ⟨slab_empty _, rfl, rfl, rfl⟩
  insert _ _ _ _ h hx := dataset_insert hc rep h hx
  remove _ _ _ _ h hx := dataset_remove hc h hx
  contains _ _ _ _ h hx := dataset_contains hc h hx
  iter d d' h := by
    simp only [BTreeDataset.container, BTreeDataset.iter]
    rw [h.quads, h.quadsIndexes]
    exact mapM_rel (readQuad_rel (countOps_rel V) h.resources _) _
  intoIter d d' h := by
    simp only [BTreeDataset.container, BTreeDataset.intoIter]
    rw [h.quads, h.quadsIndexes]
    exact drainQuads_rel (countOps_rel V) h.resources _ _
  len d d' h := by simp only [BTreeDataset.container, BTreeDataset.len, h.quads]
  isEmpty d d' h := by simp only [BTreeDataset.container, BTreeDataset.isEmpty, h.quads]

theorem dataset_resources {d : BTreeDataset R} {d' : BTreeDataset Q} (h : DatasetRel V d d') :
    ResRel (Each V) d.resourceList d'.resourceList := by
  simp only [BTreeDataset.resourceList]
  rw [h.resourcesIndexes]
  exact readResources_rel (countOps_rel V) h.resources _

theorem dataset_containsResource (hc : Compat V W) {d : BTreeDataset R} {d' : BTreeDataset Q}
    (h : DatasetRel V d d') {r : R} {r' : Q} (hr : W r r') :
    d'.containsResource r' = d.containsResource r := by
  simp only [BTreeDataset.containsResource, BTreeDataset.indexOfResource]
  rw [h.resourcesIndexes, indexOfResource_eq (countOps_rel V) h.resources hc _ hr]

/-! ## `BTreeGraph` -/

/-- Related records, same slots and indexes. -/
structure GraphRel (V : R → Q → Prop) (d : BTreeGraph R) (d' : BTreeGraph Q) : Prop where
  resources : SlabRel (CountedRel V) d.resources d'.resources
  triples : d'.triples = d.triples
  resourcesIndexes : d'.resourcesIndexes = d.resourcesIndexes
  triplesIndexes : d'.triplesIndexes = d.triplesIndexes

theorem graph_contains (hc : Compat V W) {d : BTreeGraph R} {d' : BTreeGraph Q}
    (h : GraphRel V d d') {t : Triple R} {t' : Triple Q} (ht : TripleRel W t t') :
    d'.contains t' = d.contains t := by
  simp only [BTreeGraph.contains, BTreeGraph.indexOfTriple]
  rw [h.triples, h.triplesIndexes, tripleCmp_eq (countOps_rel V) h.resources hc _ ht]

theorem graph_insert (hc : Compat V W) (rep : Bool) {d : BTreeGraph R} {d' : BTreeGraph Q}
    (h : GraphRel V d d') {t : Triple R} {t' : Triple Q} (ht : TripleRel V t t') :
    ResRel (fun a b => GraphRel V a.1 b.1 ∧ a.2 = b.2) (d.insert rep t) (d'.insert rep t') := by
  unfold BTreeGraph.insert
  rw [graph_contains hc h (hc.triple_stored ht)]
  refine (ResRel.of_eq rfl).bind fun b b' e => ?_
  subst e
  split
  · exact ResRel.pure ⟨h, rfl⟩
  · dsimp only
    rw [h.triples, h.resourcesIndexes, h.triplesIndexes]
    refine (acquireTriple_rel (countOps_rel V) h.resources hc rep _ _ ht).bind fun a b hab => ?_
    obtain ⟨res, idx, q₁⟩ := a
    obtain ⟨res', idx', q₁'⟩ := b
    obtain ⟨hr, e⟩ := hab
    cases e
    dsimp only at hr ⊢
    rw [tripleIndexCmp_eq (countOps_rel V) hr hc]
    refine (ResRel.of_eq rfl).bind fun a b e => ?_
    subst e
    exact ResRel.pure ⟨⟨hr, rfl, rfl, rfl⟩, rfl⟩

theorem graph_remove (hc : Compat V W) {d : BTreeGraph R} {d' : BTreeGraph Q}
    (h : GraphRel V d d') {t : Triple R} {t' : Triple Q} (ht : TripleRel W t t') :
    ResRel (fun a b => GraphRel V a.1 b.1 ∧ a.2 = b.2) (d.remove t) (d'.remove t') := by
  have ho := countOps_rel V
  unfold BTreeGraph.remove
  dsimp only
  rw [h.triples, h.triplesIndexes, h.resourcesIndexes, tripleCmp_eq ho h.resources hc _ ht]
  refine (ResRel.of_eq rfl).bind fun a b e => ?_
  subst e
  obtain ⟨idx, o⟩ := a
  cases o with
  | none => exact ResRel.pure ⟨⟨h.resources, rfl, rfl, rfl⟩, rfl⟩
  | some i =>
    dsimp only
    refine (ResRel.of_eq rfl).bind fun a b e => ?_
    subst e
    refine (release_rel ho h.resources _ .subj i _
      (fun _ _ hr => resourceCmp_eq ho hr hc ht.1)).bind fun a b hab => ?_
    obtain ⟨res₁, idx₁, b₁⟩ := a
    obtain ⟨res₁', idx₁', b₁'⟩ := b
    obtain ⟨hr₁, e₁⟩ := hab
    cases e₁
    refine (release_rel ho hr₁ _ .pred i _
      (fun _ _ hr => resourceCmp_eq ho hr hc ht.2.1)).bind fun a b hab => ?_
    obtain ⟨res₂, idx₂, b₂⟩ := a
    obtain ⟨res₂', idx₂', b₂'⟩ := b
    obtain ⟨hr₂, e₂⟩ := hab
    cases e₂
    refine (release_rel ho hr₂ _ .obj i _
      (fun _ _ hr => resourceCmp_eq ho hr hc ht.2.2)).bind fun a b hab => ?_
    obtain ⟨res₃, idx₃, b₃⟩ := a
    obtain ⟨res₃', idx₃', b₃'⟩ := b
    obtain ⟨hr₃, e₃⟩ := hab
    cases e₃
    exact ResRel.pure ⟨⟨hr₃, rfl, rfl, rfl⟩, rfl⟩

theorem graph_iter {d : BTreeGraph R} {d' : BTreeGraph Q} (h : GraphRel V d d') :
    ResRel (Each (TripleRel V)) d.iter d'.iter := by
  simp only [BTreeGraph.iter]
  rw [h.triples, h.triplesIndexes]
  exact mapM_rel (readTriple_rel (countOps_rel V) h.resources _) _

theorem graph_rel (hc : Compat V W) (rep : Bool) :
    ContainerRel (BTreeGraph.container rep R) (BTreeGraph.container rep Q) (TripleRel V)
      (TripleRel W) (GraphRel V) where
  empty := ⟨slab_empty _, rfl, rfl, rfl⟩
  insert _ _ _ _ h hx := graph_insert hc rep h hx
  remove _ _ _ _ h hx := graph_remove hc h hx
  contains _ _ _ _ h hx := graph_contains hc h hx
  iter _ _ h := graph_iter h
  intoIter d d' h := by
    simp only [BTreeGraph.container, BTreeGraph.intoIter]
    rw [h.triples, h.triplesIndexes]
    exact drainTriples_rel (countOps_rel V) h.resources _ _
  len d d' h := by simp only [BTreeGraph.container, BTreeGraph.len, h.triples]
  isEmpty d d' h := by simp only [BTreeGraph.container, BTreeGraph.isEmpty, h.triples]

theorem graph_resources {d : BTreeGraph R} {d' : BTreeGraph Q} (h : GraphRel V d d') :
    ResRel (Each V) d.resourceList d'.resourceList := by
  simp only [BTreeGraph.resourceList]
  rw [h.resourcesIndexes]
  exact readResources_rel (countOps_rel V) h.resources _

theorem graph_containsResource (hc : Compat V W) {d : BTreeGraph R} {d' : BTreeGraph Q}
    (h : GraphRel V d d') {r : R} {r' : Q} (hr : W r r') :
    d'.containsResource r' = d.containsResource r := by
  simp only [BTreeGraph.containsResource, BTreeGraph.indexOfResource]
  rw [h.resourcesIndexes, indexOfResource_eq (countOps_rel V) h.resources hc _ hr]

/-! ## `IndexedBTreeDataset` -/

/-- Related records, same slots, indexes and sets. -/
structure IndexedDatasetRel (V : R → Q → Prop) (d : IndexedBTreeDataset R)
    (d' : IndexedBTreeDataset Q) : Prop where
  resources : SlabRel (IndexedRel V) d.resources d'.resources
  quads : d'.quads = d.quads
  resourcesIndexes : d'.resourcesIndexes = d.resourcesIndexes
  quadsIndexes : d'.quadsIndexes = d.quadsIndexes
  subjects : d'.subjects = d.subjects
  predicates : d'.predicates = d.predicates
  objects : d'.objects = d.objects
  defaultGraph : d'.defaultGraph = d.defaultGraph
  namedGraphs : d'.namedGraphs = d.namedGraphs

theorem indexed_contains (hc : Compat V W) {d : IndexedBTreeDataset R} {d' : IndexedBTreeDataset Q}
    (h : IndexedDatasetRel V d d') {q : Quad R} {q' : Quad Q} (hq : QuadRel W q q') :
    d'.contains q' = d.contains q := by
  simp only [IndexedBTreeDataset.contains, IndexedBTreeDataset.indexOfQuad]
  rw [h.quads, h.quadsIndexes, quadCmp_eq (indexOps_rel V) h.resources hc _ hq]

theorem indexed_insert (hc : Compat V W) (rep : Bool) {d : IndexedBTreeDataset R}
    {d' : IndexedBTreeDataset Q} (h : IndexedDatasetRel V d d') {q : Quad R} {q' : Quad Q}
    (hq : QuadRel V q q') :
    ResRel (fun a b => IndexedDatasetRel V a.1 b.1 ∧ a.2 = b.2) (d.insert rep q)
      (d'.insert rep q') := by
  unfold IndexedBTreeDataset.insert
  rw [indexed_contains hc h (hc.quad_stored hq)]
  refine (ResRel.of_eq rfl).bind fun b b' e => ?_
  subst e
  split
  · exact ResRel.pure ⟨h, rfl⟩
  · dsimp only
    rw [h.quads, h.resourcesIndexes, h.quadsIndexes, h.subjects, h.predicates, h.objects,
      h.defaultGraph, h.namedGraphs]
    refine (acquireQuad_rel (indexOps_rel V) h.resources hc rep _ _ hq).bind fun a b hab => ?_
    obtain ⟨res, idx, q₁⟩ := a
    obtain ⟨res', idx', q₁'⟩ := b
    obtain ⟨hr, e⟩ := hab
    cases e
    dsimp only at hr ⊢
    rw [quadIndexCmp_eq (indexOps_rel V) hr hc]
    refine (ResRel.of_eq rfl).bind fun a b e => ?_
    subst e
    exact ResRel.pure ⟨⟨hr, rfl, rfl, rfl, rfl, rfl, rfl, rfl, rfl⟩, rfl⟩

theorem indexed_removeByIndex (hc : Compat V W) {d : IndexedBTreeDataset R}
    {d' : IndexedBTreeDataset Q} (h : IndexedDatasetRel V d d') (i : Nat) (removeIndex : Bool) :
    ResRel (IndexedDatasetRel V) (d.removeByIndex i removeIndex)
      (d'.removeByIndex i removeIndex) := by
  have ho := indexOps_rel V
  unfold IndexedBTreeDataset.removeByIndex
  dsimp only
  rw [h.quads, h.quadsIndexes, h.resourcesIndexes, h.subjects, h.predicates, h.objects,
    h.defaultGraph, h.namedGraphs, quadIndexCmp_eq ho h.resources hc]
  cases removeIndex
  case' true =>
    rw [if_pos rfl, if_pos rfl]
    refine (ResRel.of_eq rfl).bind fun a b e => ?_
    subst e
  case' false => rw [if_neg Bool.false_ne_true, if_neg Bool.false_ne_true]
  all_goals
    refine (ResRel.of_eq rfl).bind fun a b e => ?_
    subst e
    refine (ResRel.of_eq rfl).bind fun a b e => ?_
    subst e
    refine (release_rel ho h.resources _ .subj i _
      (fun _ _ hr => resourceIndexCmp_eq ho hr hc _)).bind fun a b hab => ?_
    obtain ⟨res₁, idx₁, b₁⟩ := a
    obtain ⟨res₁', idx₁', b₁'⟩ := b
    obtain ⟨hr₁, e₁⟩ := hab
    cases e₁
    refine (release_rel ho hr₁ _ .pred i _
      (fun _ _ hr => resourceIndexCmp_eq ho hr hc _)).bind fun a b hab => ?_
    obtain ⟨res₂, idx₂, b₂⟩ := a
    obtain ⟨res₂', idx₂', b₂'⟩ := b
    obtain ⟨hr₂, e₂⟩ := hab
    cases e₂
    refine (release_rel ho hr₂ _ .obj i _
      (fun _ _ hr => resourceIndexCmp_eq ho hr hc _)).bind fun a b hab => ?_
    obtain ⟨res₃, idx₃, b₃⟩ := a
    obtain ⟨res₃', idx₃', b₃'⟩ := b
    obtain ⟨hr₃, e₃⟩ := hab
    cases e₃
    dsimp only
    split
    · refine (release_rel ho hr₃ _ .graph i _
        (fun _ _ hr => resourceIndexCmp_eq ho hr hc _)).bind fun a b hab => ?_
      obtain ⟨res₄, idx₄, b₄⟩ := a
      obtain ⟨res₄', idx₄', b₄'⟩ := b
      obtain ⟨hr₄, e₄⟩ := hab
      cases e₄
      exact ResRel.pure ⟨hr₄, rfl, rfl, rfl, rfl, rfl, rfl, rfl, rfl⟩
    · exact ResRel.pure ⟨hr₃, rfl, rfl, rfl, rfl, rfl, rfl, rfl, rfl⟩

theorem indexed_remove (hc : Compat V W) {d : IndexedBTreeDataset R}
    {d' : IndexedBTreeDataset Q} (h : IndexedDatasetRel V d d') {q : Quad R} {q' : Quad Q}
    (hq : QuadRel W q q') :
    ResRel (fun a b => IndexedDatasetRel V a.1 b.1 ∧ a.2 = b.2) (d.remove q) (d'.remove q') := by
  unfold IndexedBTreeDataset.remove
  rw [h.quads, h.quadsIndexes, quadCmp_eq (indexOps_rel V) h.resources hc _ hq]
  refine (ResRel.of_eq rfl).bind fun a b e => ?_
  subst e
  obtain ⟨idx, o⟩ := a
  have h' : IndexedDatasetRel V { d with quadsIndexes := idx }
      { d' with quads := d.quads, quadsIndexes := idx } :=
    ⟨h.resources, rfl, h.resourcesIndexes, rfl, h.subjects, h.predicates, h.objects,
      h.defaultGraph, h.namedGraphs⟩
  cases o with
  | none => exact ResRel.pure ⟨h', rfl⟩
  | some i =>
    exact (indexed_removeByIndex hc h' i false).bind fun a b hab => ResRel.pure ⟨hab, rfl⟩

theorem indexed_rel (hc : Compat V W) (rep : Bool) :
    ContainerRel (IndexedBTreeDataset.container rep R) (IndexedBTreeDataset.container rep Q)
      (QuadRel V) (QuadRel W) (IndexedDatasetRel V) where
  empty := ⟨slab_empty _, rfl, rfl, rfl, rfl, rfl, rfl, rfl, rfl⟩
  insert _ _ _ _ h hx := indexed_insert hc rep h hx
  remove _ _ _ _ h hx := indexed_remove hc h hx
  contains _ _ _ _ h hx := indexed_contains hc h hx
  iter d d' h := by
    simp only [IndexedBTreeDataset.container, IndexedBTreeDataset.iter]
    rw [h.quads, h.quadsIndexes]
    exact mapM_rel (readQuad_rel (indexOps_rel V) h.resources _) _
  intoIter d d' h := by
    simp only [IndexedBTreeDataset.container, IndexedBTreeDataset.intoIter]
    rw [h.quads, h.quadsIndexes]
    exact drainQuads_rel (indexOps_rel V) h.resources _ _
  len d d' h := by simp only [IndexedBTreeDataset.container, IndexedBTreeDataset.len, h.quads]
  isEmpty d d' h := by
    simp only [IndexedBTreeDataset.container, IndexedBTreeDataset.isEmpty, h.quads]

section indexed

variable {d : IndexedBTreeDataset R} {d' : IndexedBTreeDataset Q} (h : IndexedDatasetRel V d d')

include h

theorem indexed_list (idx : Index) : ResRel (Each V) ((indexOps R).readResources d.resources idx)
    ((indexOps Q).readResources d'.resources idx) :=
  readResources_rel (indexOps_rel V) h.resources idx

theorem indexed_resources : ResRel (Each V) d.resourceList d'.resourceList := by
  simp only [IndexedBTreeDataset.resourceList, h.resourcesIndexes]
  exact indexed_list h _

theorem indexed_subjects : ResRel (Each V) d.subjectList d'.subjectList := by
  simp only [IndexedBTreeDataset.subjectList, h.subjects]
  exact indexed_list h _

theorem indexed_predicates : ResRel (Each V) d.predicateList d'.predicateList := by
  simp only [IndexedBTreeDataset.predicateList, h.predicates]
  exact indexed_list h _

theorem indexed_objects : ResRel (Each V) d.objectList d'.objectList := by
  simp only [IndexedBTreeDataset.objectList, h.objects]
  exact indexed_list h _

theorem indexed_namedGraphs : ResRel (Each V) d.namedGraphList d'.namedGraphList := by
  simp only [IndexedBTreeDataset.namedGraphList, h.namedGraphs]
  exact indexed_list h _

theorem indexed_indexOfResource (hc : Compat V W) {r : R} {r' : Q} (hr : W r r') :
    d'.indexOfResource r' = d.indexOfResource r := by
  simp only [IndexedBTreeDataset.indexOfResource]
  rw [h.resourcesIndexes, indexOfResource_eq (indexOps_rel V) h.resources hc _ hr]

theorem indexed_containsResource (hc : Compat V W) {r : R} {r' : Q} (hr : W r r') :
    d'.containsResource r' = d.containsResource r := by
  simp only [IndexedBTreeDataset.containsResource]
  rw [indexed_indexOfResource h hc hr]

theorem indexed_getResource (hc : Compat V W) {r : R} {r' : Q} (hr : W r r') :
    ResRel (OptRel (IndexedRel V)) (d.getResource r) (d'.getResource r') := by
  simp only [IndexedBTreeDataset.getResource]
  rw [indexed_indexOfResource h hc hr]
  refine (ResRel.of_eq rfl).bind fun a b e => ?_
  subst e
  cases a with
  | none => exact ResRel.pure trivial
  | some i => exact ResRel.pure (h.resources.get i)

end indexed

theorem removeGraphLoop_rel (hc : Compat V W) (rep : Bool) (l : List Nat)
    {d : IndexedBTreeDataset R} {d' : IndexedBTreeDataset Q} (h : IndexedDatasetRel V d d')
    {g : BTreeGraph R} {g' : BTreeGraph Q} (hg : GraphRel V g g') :
    ResRel (fun a b => IndexedDatasetRel V a.1 b.1 ∧ GraphRel V a.2 b.2)
      (d.removeGraphLoop rep g l) (d'.removeGraphLoop rep g' l) := by
  induction l generalizing d d' g g' with
  | nil => exact ⟨h, hg⟩
  | cons i l ih =>
    simp only [IndexedBTreeDataset.removeGraphLoop]
    rw [h.quads]
    refine (readQuad_rel (indexOps_rel V) h.resources _ i).bind fun q q' hq => ?_
    refine (indexed_removeByIndex hc h i true).bind fun d₁ d₁' h₁ => ?_
    refine (graph_insert hc rep hg (t := q.intoTriple.1) (t' := q'.intoTriple.1)
      ⟨hq.1, hq.2.1, hq.2.2.1⟩).bind fun a b hab => ?_
    exact ih h₁ hab.1

theorem removeGraph_rel (hc : Compat V W) (rep : Bool) {d : IndexedBTreeDataset R}
    {d' : IndexedBTreeDataset Q} (h : IndexedDatasetRel V d d') {g : Option R} {g' : Option Q}
    (hg : OptRel W g g') :
    ResRel (fun a b => IndexedDatasetRel V a.1 b.1 ∧ OptRel (GraphRel V) a.2 b.2)
      (d.removeGraph rep g) (d'.removeGraph rep g') := by
  unfold IndexedBTreeDataset.removeGraph
  have key : ∀ l : Option (List Nat),
      ResRel (fun a b => IndexedDatasetRel V a.1 b.1 ∧ OptRel (GraphRel V) a.2 b.2)
        (match l with
          | none => pure (d, none)
          | some l => do
            let (d', graph) ← IndexedBTreeDataset.removeGraphLoop rep d BTreeGraph.new l
            pure (d', some graph))
        (match l with
          | none => pure (d', none)
          | some l => do
            let (d', graph) ← IndexedBTreeDataset.removeGraphLoop rep d' BTreeGraph.new l
            pure (d', some graph)) := by
    intro l
    cases l with
    | none => exact ResRel.pure ⟨h, trivial⟩
    | some l =>
      exact (removeGraphLoop_rel hc rep l h (g := BTreeGraph.new) (g' := BTreeGraph.new)
        ⟨slab_empty _, rfl, rfl, rfl⟩).bind fun a b hab => ResRel.pure ⟨hab.1, hab.2⟩
  cases g <;> cases g' <;> simp only [OptRel] at hg
  · dsimp only
    rw [h.defaultGraph]
    exact key (some d.defaultGraph)
  · dsimp only
    rw [indexed_indexOfResource h hc hg]
    refine (ResRel.of_eq rfl).bind fun a b e => ?_
    subst e
    cases a with
    | none => exact key none
    | some i =>
      dsimp only
      rw [h.namedGraphs]
      split
      · refine (h.resources.index i).bind fun x y hxy => ?_
        rw [hxy.2.2.2.2]
        exact key (some x.asGraph)
      · exact key none

/-- The states of the loop of `from_non_indexed`. -/
structure ConversionRel (V : R → Q → Prop) (c : IndexedBTreeDataset.Conversion R)
    (c' : IndexedBTreeDataset.Conversion Q) : Prop where
  resources : SlabRel (IndexedRel V) c.resources c'.resources
  subjects : c'.subjects = c.subjects
  predicates : c'.predicates = c.predicates
  objects : c'.objects = c.objects
  defaultGraph : c'.defaultGraph = c.defaultGraph
  namedGraphs : c'.namedGraphs = c.namedGraphs

theorem foldlM_rel {α β γ : Type} {T : α → β → Prop} {f : α → γ → Res α} {g : β → γ → Res β}
    (hf : ∀ a b i, T a b → ResRel T (f a i) (g b i)) (l : List γ) {a : α} {b : β} (h : T a b) :
    ResRel T (l.foldlM f a) (l.foldlM g b) := by
  induction l generalizing a b with
  | nil => exact h
  | cons i l ih =>
    rw [List.foldlM_cons, List.foldlM_cons]
    exact (hf a b i h).bind fun a' b' h' => ih h'

theorem convertStep_rel (quads : Slab (Quad Nat)) (i : Nat) {c : IndexedBTreeDataset.Conversion R}
    {c' : IndexedBTreeDataset.Conversion Q} (h : ConversionRel V c c') :
    ResRel (ConversionRel V) (IndexedBTreeDataset.convertStep quads c i)
      (IndexedBTreeDataset.convertStep quads c' i) := by
  have ho := indexOps_rel V
  unfold IndexedBTreeDataset.convertStep
  dsimp only
  rw [h.subjects, h.predicates, h.objects, h.defaultGraph, h.namedGraphs]
  refine (ResRel.of_eq rfl).bind fun q q' e => ?_
  subst e
  refine (h.resources.modify _ (ho.add .subj i)).bind fun r₁ r₁' h₁ => ?_
  refine (h₁.modify _ (ho.add .pred i)).bind fun r₂ r₂' h₂ => ?_
  refine (h₂.modify _ (ho.add .obj i)).bind fun r₃ r₃' h₃ => ?_
  split
  · exact (h₃.modify _ (ho.add .graph i)).bind fun r₄ r₄' h₄ =>
      ResRel.pure ⟨h₄, rfl, rfl, rfl, rfl, rfl⟩
  · exact ResRel.pure ⟨h₃, rfl, rfl, rfl, rfl, rfl⟩

theorem fromNonIndexed_rel {d : BTreeDataset R} {d' : BTreeDataset Q} (h : DatasetRel V d d') :
    ResRel (IndexedDatasetRel V) (IndexedBTreeDataset.fromNonIndexed d)
      (IndexedBTreeDataset.fromNonIndexed d') := by
  unfold IndexedBTreeDataset.fromNonIndexed
  dsimp only
  rw [h.quads, h.quadsIndexes, h.resourcesIndexes]
  refine (foldlM_rel (fun a b i hab => convertStep_rel d.quads i hab) _ ?_).bind fun c c' hc =>
    ResRel.pure ⟨hc.resources, rfl, rfl, rfl, hc.subjects, hc.predicates, hc.objects,
      hc.defaultGraph, hc.namedGraphs⟩
  exact ⟨h.resources.mapCollect (fun a b hab => ⟨hab.1, rfl, rfl, rfl, rfl⟩),
    rfl, rfl, rfl, rfl, rfl⟩

/-! ## `IndexedBTreeGraph` -/

/-- Related records, same slots, indexes and sets. -/
structure IndexedGraphRel (V : R → Q → Prop) (d : IndexedBTreeGraph R)
    (d' : IndexedBTreeGraph Q) : Prop where
  resources : SlabRel (IndexedRel V) d.resources d'.resources
  triples : d'.triples = d.triples
  resourcesIndexes : d'.resourcesIndexes = d.resourcesIndexes
  triplesIndexes : d'.triplesIndexes = d.triplesIndexes
  subjects : d'.subjects = d.subjects
  predicates : d'.predicates = d.predicates
  objects : d'.objects = d.objects

theorem indexedGraph_contains (hc : Compat V W) {d : IndexedBTreeGraph R} {d' : IndexedBTreeGraph Q}
    (h : IndexedGraphRel V d d') {t : Triple R} {t' : Triple Q} (ht : TripleRel W t t') :
    d'.contains t' = d.contains t := by
  simp only [IndexedBTreeGraph.contains, IndexedBTreeGraph.indexOfTriple]
  rw [h.triples, h.triplesIndexes, tripleCmp_eq (indexOps_rel V) h.resources hc _ ht]

theorem indexedGraph_insert (hc : Compat V W) (rep : Bool) {d : IndexedBTreeGraph R}
    {d' : IndexedBTreeGraph Q} (h : IndexedGraphRel V d d') {t : Triple R} {t' : Triple Q}
    (ht : TripleRel V t t') :
    ResRel (fun a b => IndexedGraphRel V a.1 b.1 ∧ a.2 = b.2) (d.insert rep t)
      (d'.insert rep t') := by
  unfold IndexedBTreeGraph.insert
  rw [indexedGraph_contains hc h (hc.triple_stored ht)]
  refine (ResRel.of_eq rfl).bind fun b b' e => ?_
  subst e
  split
  · exact ResRel.pure ⟨h, rfl⟩
  · dsimp only
    rw [h.triples, h.resourcesIndexes, h.triplesIndexes, h.subjects, h.predicates, h.objects]
    refine (acquireTriple_rel (indexOps_rel V) h.resources hc rep _ _ ht).bind fun a b hab => ?_
    obtain ⟨res, idx, q₁⟩ := a
    obtain ⟨res', idx', q₁'⟩ := b
    obtain ⟨hr, e⟩ := hab
    cases e
    dsimp only at hr ⊢
    rw [tripleIndexCmp_eq (indexOps_rel V) hr hc]
    refine (ResRel.of_eq rfl).bind fun a b e => ?_
    subst e
    exact ResRel.pure ⟨⟨hr, rfl, rfl, rfl, rfl, rfl, rfl⟩, rfl⟩

theorem indexedGraph_remove (hc : Compat V W) {d : IndexedBTreeGraph R}
    {d' : IndexedBTreeGraph Q} (h : IndexedGraphRel V d d') {t : Triple R} {t' : Triple Q}
    (ht : TripleRel W t t') :
    ResRel (fun a b => IndexedGraphRel V a.1 b.1 ∧ a.2 = b.2) (d.remove t) (d'.remove t') := by
  have ho := indexOps_rel V
  unfold IndexedBTreeGraph.remove
  dsimp only
  rw [h.triples, h.triplesIndexes, h.resourcesIndexes, h.subjects, h.predicates, h.objects,
    tripleCmp_eq ho h.resources hc _ ht]
  refine (ResRel.of_eq rfl).bind fun a b e => ?_
  subst e
  obtain ⟨idx, o⟩ := a
  cases o with
  | none =>
    exact ResRel.pure ⟨⟨h.resources, rfl, rfl, rfl, rfl, rfl, rfl⟩, rfl⟩
  | some i =>
    dsimp only
    refine (ResRel.of_eq rfl).bind fun a b e => ?_
    subst e
    refine (release_rel ho h.resources _ .subj i _
      (fun _ _ hr => resourceCmp_eq ho hr hc ht.1)).bind fun a b hab => ?_
    obtain ⟨res₁, idx₁, b₁⟩ := a
    obtain ⟨res₁', idx₁', b₁'⟩ := b
    obtain ⟨hr₁, e₁⟩ := hab
    cases e₁
    refine (release_rel ho hr₁ _ .pred i _
      (fun _ _ hr => resourceCmp_eq ho hr hc ht.2.1)).bind fun a b hab => ?_
    obtain ⟨res₂, idx₂, b₂⟩ := a
    obtain ⟨res₂', idx₂', b₂'⟩ := b
    obtain ⟨hr₂, e₂⟩ := hab
    cases e₂
    refine (release_rel ho hr₂ _ .obj i _
      (fun _ _ hr => resourceCmp_eq ho hr hc ht.2.2)).bind fun a b hab => ?_
    obtain ⟨res₃, idx₃, b₃⟩ := a
    obtain ⟨res₃', idx₃', b₃'⟩ := b
    obtain ⟨hr₃, e₃⟩ := hab
    cases e₃
    exact ResRel.pure ⟨⟨hr₃, rfl, rfl, rfl, rfl, rfl, rfl⟩, rfl⟩

theorem indexedGraph_rel (hc : Compat V W) (rep : Bool) :
    ContainerRel (IndexedBTreeGraph.container rep R) (IndexedBTreeGraph.container rep Q)
      (TripleRel V) (TripleRel W) (IndexedGraphRel V) where
  empty := ⟨slab_empty _, rfl, rfl, rfl, rfl, rfl, rfl⟩
  insert _ _ _ _ h hx := indexedGraph_insert hc rep h hx
  remove _ _ _ _ h hx := indexedGraph_remove hc h hx
  contains _ _ _ _ h hx := indexedGraph_contains hc h hx
  iter d d' h := by
    simp only [IndexedBTreeGraph.container, IndexedBTreeGraph.iter]
    rw [h.triples, h.triplesIndexes]
    exact mapM_rel (readTriple_rel (indexOps_rel V) h.resources _) _
  intoIter d d' h := by
    simp only [IndexedBTreeGraph.container, IndexedBTreeGraph.intoIter]
    rw [h.triples, h.triplesIndexes]
    exact drainTriples_rel (indexOps_rel V) h.resources _ _
  len d d' h := by simp only [IndexedBTreeGraph.container, IndexedBTreeGraph.len, h.triples]
  isEmpty d d' h := by
    simp only [IndexedBTreeGraph.container, IndexedBTreeGraph.isEmpty, h.triples]

section indexedGraph

variable {d : IndexedBTreeGraph R} {d' : IndexedBTreeGraph Q} (h : IndexedGraphRel V d d')

include h

theorem indexedGraph_list (idx : Index) :
    ResRel (Each V) ((indexOps R).readResources d.resources idx)
      ((indexOps Q).readResources d'.resources idx) :=
  readResources_rel (indexOps_rel V) h.resources idx

theorem indexedGraph_resources : ResRel (Each V) d.resourceList d'.resourceList := by
  simp only [IndexedBTreeGraph.resourceList, h.resourcesIndexes]
  exact indexedGraph_list h _

theorem indexedGraph_subjects : ResRel (Each V) d.subjectList d'.subjectList := by
  simp only [IndexedBTreeGraph.subjectList, h.subjects]
  exact indexedGraph_list h _

theorem indexedGraph_predicates : ResRel (Each V) d.predicateList d'.predicateList := by
  simp only [IndexedBTreeGraph.predicateList, h.predicates]
  exact indexedGraph_list h _

theorem indexedGraph_objects : ResRel (Each V) d.objectList d'.objectList := by
  simp only [IndexedBTreeGraph.objectList, h.objects]
  exact indexedGraph_list h _

theorem indexedGraph_indexOfResource (hc : Compat V W) {r : R} {r' : Q} (hr : W r r') :
    d'.indexOfResource r' = d.indexOfResource r := by
  simp only [IndexedBTreeGraph.indexOfResource]
  rw [h.resourcesIndexes, indexOfResource_eq (indexOps_rel V) h.resources hc _ hr]

theorem indexedGraph_containsResource (hc : Compat V W) {r : R} {r' : Q} (hr : W r r') :
    d'.containsResource r' = d.containsResource r := by
  simp only [IndexedBTreeGraph.containsResource]
  rw [indexedGraph_indexOfResource h hc hr]

theorem indexedGraph_getResource (hc : Compat V W) {r : R} {r' : Q} (hr : W r r') :
    ResRel (OptRel (IndexedRel V)) (d.getResource r) (d'.getResource r') := by
  simp only [IndexedBTreeGraph.getResource]
  rw [indexedGraph_indexOfResource h hc hr]
  refine (ResRel.of_eq rfl).bind fun a b e => ?_
  subst e
  cases a with
  | none => exact ResRel.pure trivial
  | some i => exact ResRel.pure (h.resources.get i)

end indexedGraph

/-- The states of the loop of `from_non_indexed`. -/
structure GraphConversionRel (V : R → Q → Prop) (c : IndexedBTreeGraph.Conversion R)
    (c' : IndexedBTreeGraph.Conversion Q) : Prop where
  resources : SlabRel (IndexedRel V) c.resources c'.resources
  subjects : c'.subjects = c.subjects
  predicates : c'.predicates = c.predicates
  objects : c'.objects = c.objects

theorem graphConvertStep_rel (triples : Slab (Triple Nat)) (i : Nat)
    {c : IndexedBTreeGraph.Conversion R} {c' : IndexedBTreeGraph.Conversion Q}
    (h : GraphConversionRel V c c') :
    ResRel (GraphConversionRel V) (IndexedBTreeGraph.convertStep triples c i)
      (IndexedBTreeGraph.convertStep triples c' i) := by
  have ho := indexOps_rel V
  unfold IndexedBTreeGraph.convertStep
  dsimp only
  rw [h.subjects, h.predicates, h.objects]
  refine (ResRel.of_eq rfl).bind fun q q' e => ?_
  subst e
  refine (h.resources.modify _ (ho.add .subj i)).bind fun r₁ r₁' h₁ => ?_
  refine (h₁.modify _ (ho.add .pred i)).bind fun r₂ r₂' h₂ => ?_
  exact (h₂.modify _ (ho.add .obj i)).bind fun r₃ r₃' h₃ => ResRel.pure ⟨h₃, rfl, rfl, rfl⟩

theorem graphFromNonIndexed_rel {d : BTreeGraph R} {d' : BTreeGraph Q} (h : GraphRel V d d') :
    ResRel (IndexedGraphRel V) (IndexedBTreeGraph.fromNonIndexed d)
      (IndexedBTreeGraph.fromNonIndexed d') := by
  unfold IndexedBTreeGraph.fromNonIndexed
  dsimp only
  rw [h.triples, h.triplesIndexes, h.resourcesIndexes]
  refine (foldlM_rel (fun a b i hab => graphConvertStep_rel d.triples i hab) _ ?_).bind
    fun c c' hc => ResRel.pure ⟨hc.resources, rfl, rfl, rfl, hc.subjects, hc.predicates,
      hc.objects⟩
  exact ⟨h.resources.mapCollect (fun a b hab => ⟨hab.1, rfl, rfl, rfl, rfl⟩), rfl, rfl, rfl⟩

/-! ## Pattern matching -/

/-- Related parts of a pattern. -/
def SubjectRel {α β : Type} (W : α → β → Prop) : PatternSubject α → PatternSubject β → Prop
  | .any, .any => True
  | .given a, .given b => W a b
  | _, _ => False

/-- Related parts of a pattern. -/
def PredicateRel {α β : Type} (W : α → β → Prop) : PatternPredicate α → PatternPredicate β → Prop
  | .any, .any => True
  | .sameAsSubject, .sameAsSubject => True
  | .given a, .given b => W a b
  | _, _ => False

/-- Related parts of a pattern. -/
def ObjectRel {α β : Type} (W : α → β → Prop) : PatternObject α → PatternObject β → Prop
  | .any, .any => True
  | .sameAsSubject, .sameAsSubject => True
  | .sameAsPredicate, .sameAsPredicate => True
  | .given a, .given b => W a b
  | _, _ => False

/-- Related parts of a pattern. -/
def GraphPartRel {α β : Type} (W : α → β → Prop) : PatternGraph α → PatternGraph β → Prop
  | .any, .any => True
  | .sameAsSubject, .sameAsSubject => True
  | .sameAsPredicate, .sameAsPredicate => True
  | .sameAsObject, .sameAsObject => True
  | .given a, .given b => OptRel W a b
  | _, _ => False

/-- Patterns with related parts. -/
def PatRel {α β : Type} (W : α → β → Prop) (x : CanonicalQuadPattern α)
    (y : CanonicalQuadPattern β) : Prop :=
  SubjectRel W x.subject y.subject ∧ PredicateRel W x.predicate y.predicate ∧
    ObjectRel W x.object y.object ∧ GraphPartRel W x.graph y.graph

/-- Triple patterns with related parts. -/
def TriplePatRel {α β : Type} (W : α → β → Prop) (x : CanonicalTriplePattern α)
    (y : CanonicalTriplePattern β) : Prop :=
  SubjectRel W x.subject y.subject ∧ PredicateRel W x.predicate y.predicate ∧
    ObjectRel W x.object y.object

section get

variable {get : R → Res (Option (IndexedResource R))} {get' : Q → Res (Option (IndexedResource Q))}
  (hget : ∀ r r', W r r' → ResRel (OptRel (IndexedRel V)) (get r) (get' r'))

include hget

theorem fixedOf_rel {C : Type} (none : C) (fixed : List Nat → C) (p : Pos) {r : R} {r' : Q}
    (hr : W r r') : fixedOf get' none fixed p r' = fixedOf get none fixed p r := by
  refine (ResRel.eq ?_).symm
  refine (hget r r' hr).bind fun a b hab => ?_
  cases a <;> cases b <;> simp only [OptRel] at hab
  · exact ResRel.pure rfl
  · exact ResRel.pure (by rw [hab.at_])

theorem subjectNew_eq {x : PatternSubject R} {y : PatternSubject Q} (h : SubjectRel W x y) :
    SubjectConstraints.new get' y = SubjectConstraints.new get x := by
  cases x <;> cases y <;> simp only [SubjectRel] at h <;>
    first | rfl | exact fixedOf_rel hget _ _ _ h

theorem predicateNew_eq {x : PatternPredicate R} {y : PatternPredicate Q}
    (h : PredicateRel W x y) : PredicateConstraints.new get' y = PredicateConstraints.new get x := by
  cases x <;> cases y <;> simp only [PredicateRel] at h <;>
    first | rfl | exact fixedOf_rel hget _ _ _ h

theorem objectNew_eq {x : PatternObject R} {y : PatternObject Q} (h : ObjectRel W x y) :
    ObjectConstraints.new get' y = ObjectConstraints.new get x := by
  cases x <;> cases y <;> simp only [ObjectRel] at h <;>
    first | rfl | exact fixedOf_rel hget _ _ _ h

theorem graphNew_eq (g : NatSet) {x : PatternGraph R} {y : PatternGraph Q}
    (h : GraphPartRel W x y) : GraphConstraints.new get' g y = GraphConstraints.new get g x := by
  cases x with
  | given a =>
    cases y with
    | given b =>
      cases a <;> cases b <;> simp only [GraphPartRel, OptRel] at h
      · rfl
      · exact fixedOf_rel hget _ _ _ h
    | _ => simp only [GraphPartRel] at h
  | _ =>
    cases y <;> simp only [GraphPartRel] at h
    rfl

theorem multiIndexes_eq (p : Pos) {l : List R} {l' : List Q} (h : Each W l l') :
    multiIndexes get' p l' = multiIndexes get p l := by
  induction h with
  | nil => rfl
  | cons h _ ih =>
    unfold multiIndexes
    rw [ih]
    refine (ResRel.eq ?_).symm
    refine (hget _ _ h).bind fun a b hab => ?_
    refine (ResRel.of_eq rfl).bind fun l l' e => ResRel.pure ?_
    subst e
    cases a <;> cases b <;> simp only [OptRel] at hab
    · rfl
    · dsimp only
      rw [hab.at_]

theorem fixedOfMulti_eq {C : Type} (none : C) (fixed : List Nat → C) (p : Pos) {l : List R}
    {l' : List Q} (h : Each W l l') :
    fixedOfMulti get' none fixed p l' = fixedOfMulti get none fixed p l := by
  unfold fixedOfMulti
  rw [multiIndexes_eq hget p h]

theorem subjectNewMulti_eq {x : PatternSubject (List R)} {y : PatternSubject (List Q)}
    (h : SubjectRel (Each W) x y) :
    SubjectConstraints.newMulti get' y = SubjectConstraints.newMulti get x := by
  cases x <;> cases y <;> simp only [SubjectRel] at h <;>
    first | rfl | exact fixedOfMulti_eq hget _ _ _ h

theorem predicateNewMulti_eq {x : PatternPredicate (List R)} {y : PatternPredicate (List Q)}
    (h : PredicateRel (Each W) x y) :
    PredicateConstraints.newMulti get' y = PredicateConstraints.newMulti get x := by
  cases x <;> cases y <;> simp only [PredicateRel] at h <;>
    first | rfl | exact fixedOfMulti_eq hget _ _ _ h

theorem objectNewMulti_eq {x : PatternObject (List R)} {y : PatternObject (List Q)}
    (h : ObjectRel (Each W) x y) :
    ObjectConstraints.newMulti get' y = ObjectConstraints.newMulti get x := by
  cases x <;> cases y <;> simp only [ObjectRel] at h <;>
    first | rfl | exact fixedOfMulti_eq hget _ _ _ h

theorem graphNewMulti_eq (g : NatSet) {x : PatternGraph (List R)} {y : PatternGraph (List Q)}
    (h : GraphPartRel (Each W) x y) :
    GraphConstraints.newMulti get' g y = GraphConstraints.newMulti get g x := by
  cases x with
  | given a =>
    cases y with
    | given b =>
      cases a <;> cases b <;> simp only [GraphPartRel, OptRel] at h
      · rfl
      · exact fixedOfMulti_eq hget _ _ _ h
    | _ => simp only [GraphPartRel] at h
  | _ =>
    cases y <;> simp only [GraphPartRel] at h
    rfl

end get

theorem collectAll_rel {M X Y : Type} {T : X → Y → Prop} {next : M → Res (Option X × M)}
    {next' : M → Res (Option Y × M)}
    (h : ∀ m, ResRel (fun a b => OptRel T a.1 b.1 ∧ a.2 = b.2) (next m) (next' m)) (fuel : Nat)
    (m : M) : ResRel (Each T) (collectAll next fuel m) (collectAll next' fuel m) := by
  induction fuel generalizing m with
  | zero => rfl
  | succ fuel ih =>
    unfold collectAll
    refine (h m).bind fun a b hab => ?_
    obtain ⟨x, m₁⟩ := a
    obtain ⟨y, m₁'⟩ := b
    obtain ⟨hxy, e⟩ := hab
    dsimp only at hxy e
    subst e
    cases x <;> cases y <;> simp only [OptRel] at hxy
    · exact ResRel.pure .nil
    · exact (ih m₁).bind fun l l' hl => ResRel.pure (.cons hxy hl)

section dataset

variable {d : IndexedBTreeDataset R} {d' : IndexedBTreeDataset Q}

theorem matcher_eq (hc : Compat V W) (h : IndexedDatasetRel V d d') {x : CanonicalQuadPattern R}
    {y : CanonicalQuadPattern Q} (hp : PatRel W x y) : d'.matcher y = d.matcher x := by
  have hget := fun r r' (hr : W r r') => indexed_getResource h hc hr
  unfold IndexedBTreeDataset.matcher
  rw [subjectNew_eq hget hp.1, predicateNew_eq hget hp.2.1, objectNew_eq hget hp.2.2.1,
    h.defaultGraph, graphNew_eq hget _ hp.2.2.2]

theorem multiMatcher_eq (hc : Compat V W) (h : IndexedDatasetRel V d d')
    {x : CanonicalQuadPattern (List R)} {y : CanonicalQuadPattern (List Q)}
    (hp : PatRel (Each W) x y) : d'.multiMatcher y = d.multiMatcher x := by
  have hget := fun r r' (hr : W r r') => indexed_getResource h hc hr
  unfold IndexedBTreeDataset.multiMatcher
  simp only [Proof.intoParts_eq]
  rw [subjectNewMulti_eq hget hp.1, predicateNewMulti_eq hget hp.2.1,
    objectNewMulti_eq hget hp.2.2.1, h.defaultGraph, graphNewMulti_eq hget _ hp.2.2.2]

theorem matchNext_rel (h : IndexedDatasetRel V d d') (cap : Nat) (m : Matcher QuadFilter) :
    ResRel (fun a b => OptRel (QuadRel V) a.1 b.1 ∧ a.2 = b.2) (d.matchNext cap m)
      (d'.matchNext cap m) := by
  unfold IndexedBTreeDataset.matchNext
  rw [h.quads]
  refine (ResRel.of_eq rfl).bind fun a b e => ?_
  subst e
  obtain ⟨o, m'⟩ := a
  cases o with
  | none => exact ResRel.pure ⟨trivial, rfl⟩
  | some p =>
    exact (quadWithResources_rel (indexOps_rel V) h.resources p.2).bind fun x y hxy =>
      ResRel.pure ⟨hxy, rfl⟩

theorem patternMatching_rel (hc : Compat V W) (h : IndexedDatasetRel V d d') (cap : Nat)
    {x : CanonicalQuadPattern R} {y : CanonicalQuadPattern Q} (hp : PatRel W x y) :
    ResRel (Each (QuadRel V)) (d.patternMatching cap x) (d'.patternMatching cap y) := by
  unfold IndexedBTreeDataset.patternMatching
  rw [matcher_eq hc h hp]
  refine (ResRel.of_eq rfl).bind fun a b e => ?_
  subst e
  exact collectAll_rel (matchNext_rel h cap) _ _

theorem multiPatternMatching_rel (hc : Compat V W) (h : IndexedDatasetRel V d d') (cap : Nat)
    {x : CanonicalQuadPattern (List R)} {y : CanonicalQuadPattern (List Q)}
    (hp : PatRel (Each W) x y) :
    ResRel (Each (QuadRel V)) (d.multiPatternMatching cap x) (d'.multiPatternMatching cap y) := by
  unfold IndexedBTreeDataset.multiPatternMatching
  rw [multiMatcher_eq hc h hp]
  refine (ResRel.of_eq rfl).bind fun a b e => ?_
  subst e
  exact collectAll_rel (matchNext_rel h cap) _ _

theorem extractNext_rel (hc : Compat V W) (h : IndexedDatasetRel V d d') (cap : Nat)
    (m : Matcher QuadFilter) :
    ResRel (fun a b => OptRel (QuadRel V) a.1 b.1 ∧ a.2.1 = b.2.1 ∧
      IndexedDatasetRel V a.2.2 b.2.2) (d.extractNext cap m) (d'.extractNext cap m) := by
  unfold IndexedBTreeDataset.extractNext
  rw [h.quads]
  refine (ResRel.of_eq rfl).bind fun a b e => ?_
  subst e
  obtain ⟨o, m'⟩ := a
  cases o with
  | none => exact ResRel.pure ⟨trivial, rfl, h⟩
  | some p =>
    exact (quadWithResources_rel (indexOps_rel V) h.resources p.2).bind fun x y hxy =>
      (indexed_removeByIndex hc h p.1 true).bind fun a b hab => ResRel.pure ⟨hxy, rfl, hab⟩

theorem extractLoop_rel (hc : Compat V W) (h : IndexedDatasetRel V d d') (cap n : Nat)
    (m : Matcher QuadFilter) :
    ResRel (fun a b => IndexedDatasetRel V a.1 b.1 ∧ Each (QuadRel V) a.2.1 b.2.1 ∧
      a.2.2 = b.2.2) (IndexedBTreeDataset.extractLoop cap n d m)
      (IndexedBTreeDataset.extractLoop cap n d' m) := by
  induction n generalizing d d' m with
  | zero => exact ResRel.pure ⟨h, .nil, rfl⟩
  | succ n ih =>
    unfold IndexedBTreeDataset.extractLoop
    refine (extractNext_rel hc h cap m).bind fun a b hab => ?_
    obtain ⟨x, m₁, d₁⟩ := a
    obtain ⟨y, m₁', d₁'⟩ := b
    obtain ⟨hxy, e, hd⟩ := hab
    dsimp only at hxy e hd
    subst e
    cases x <;> cases y <;> simp only [OptRel] at hxy
    · exact ResRel.pure ⟨hd, .nil, rfl⟩
    · exact (ih hd m₁).bind fun a b hab => ResRel.pure ⟨hab.1, .cons hxy hab.2.1, hab.2.2⟩

theorem extract_rel (hc : Compat V W) (h : IndexedDatasetRel V d d') (cap n : Nat)
    {x : CanonicalQuadPattern R} {y : CanonicalQuadPattern Q} (hp : PatRel W x y) :
    ResRel (fun a b => IndexedDatasetRel V a.1 b.1 ∧ Each (QuadRel V) a.2.1 b.2.1 ∧
      a.2.2 = b.2.2) (d.extractPatternMatching cap x n) (d'.extractPatternMatching cap y n) := by
  unfold IndexedBTreeDataset.extractPatternMatching
  rw [matcher_eq hc h hp]
  refine (ResRel.of_eq rfl).bind fun a b e => ?_
  subst e
  exact extractLoop_rel hc h cap n a

end dataset

section graph

variable {d : IndexedBTreeGraph R} {d' : IndexedBTreeGraph Q}

theorem tripleMatchNext_rel (h : IndexedGraphRel V d d') (cap : Nat) (m : Matcher TripleFilter) :
    ResRel (fun a b => OptRel (TripleRel V) a.1 b.1 ∧ a.2 = b.2) (d.matchNext cap m)
      (d'.matchNext cap m) := by
  unfold IndexedBTreeGraph.matchNext
  rw [h.triples]
  refine (ResRel.of_eq rfl).bind fun a b e => ?_
  subst e
  obtain ⟨o, m'⟩ := a
  cases o with
  | none => exact ResRel.pure ⟨trivial, rfl⟩
  | some p =>
    exact (tripleWithResources_rel (indexOps_rel V) h.resources p.2).bind fun x y hxy =>
      ResRel.pure ⟨hxy, rfl⟩

theorem triplePatternMatching_rel (hc : Compat V W) (h : IndexedGraphRel V d d') (cap : Nat)
    {x : CanonicalTriplePattern R} {y : CanonicalTriplePattern Q} (hp : TriplePatRel W x y) :
    ResRel (Each (TripleRel V)) (d.patternMatching cap x) (d'.patternMatching cap y) := by
  have hget := fun r r' (hr : W r r') => indexedGraph_getResource h hc hr
  unfold IndexedBTreeGraph.patternMatching IndexedBTreeGraph.matcher
  rw [subjectNew_eq hget hp.1, predicateNew_eq hget hp.2.1, objectNew_eq hget hp.2.2]
  refine (ResRel.of_eq rfl).bind fun a b e => ?_
  subst e
  exact collectAll_rel (tripleMatchNext_rel h cap) _ _

end graph

end RdfTypes.Proof.Related
