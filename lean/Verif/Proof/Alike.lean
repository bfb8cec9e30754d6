import Verif.Proof.RelatedContainers
import Verif.Proof.IndexedBTreeDataset
import Verif.Proof.IndexedBTreeGraph
import Verif.Proof.BTreeGraph
import Verif.Proof.BTreeDataset
import Verif.Spec.Alike

/-!
# Sessions on related terms
-/

set_option linter.unusedSectionVars false

namespace RdfTypes.Proof.Related

open Spec

variable {R Q S S' D D' A A' X X' : Type} {V W : R → Q → Prop} {VS WS : S → S' → Prop}

/-! ## Calls and answers -/

/-- Related answers. -/
def AnswerRel (VS : S → S' → Prop) (V : R → Q → Prop) : Reply S R → Reply S' Q → Prop
  | .done, .done => True
  | .flag b, .flag b' => b = b'
  | .number n, .number n' => n = n'
  | .terms l, .terms l' => Each V l l'
  | .statements l, .statements l' => Each VS l l'
  | .taken l e, .taken l' e' => Each VS l l' ∧ e = e'
  | .graph g, .graph g' => OptRel (Each (TripleRel V)) g g'
  | _, _ => False

/-- Related calls. -/
def AskRel (VS WS : S → S' → Prop) (W : R → Q → Prop) : Call S R → Call S' Q → Prop
  | .insert x, .insert x' => VS x x'
  | .remove x, .remove x' => WS x x'
  | .extend l, .extend l' => Each VS l l'
  | .contains x, .contains x' => WS x x'
  | .iter, .iter => True
  | .intoIter, .intoIter => True
  | .len, .len => True
  | .isEmpty, .isEmpty => True
  | .resources, .resources => True
  | .containsResource r, .containsResource r' => W r r'
  | _, _ => False

/-- Related calls to an indexed dataset. -/
def IndexedAskRel (V W : R → Q → Prop) : IndexedCall R → IndexedCall Q → Prop
  | .common a, .common a' => AskRel (QuadRel V) (QuadRel W) W a a'
  | .list p, .list p' => p = p'
  | .count p, .count p' => p = p'
  | .resourceCount, .resourceCount => True
  | .removeGraph g, .removeGraph g' => OptRel W g g'
  | .matching cap pat, .matching cap' pat' => cap = cap' ∧ PatRel W pat pat'
  | .multiMatching cap pat, .multiMatching cap' pat' => cap = cap' ∧ PatRel (Each W) pat pat'
  | .extract cap pat n, .extract cap' pat' n' => cap = cap' ∧ PatRel W pat pat' ∧ n = n'
  | _, _ => False

/-- Related calls to an indexed graph. -/
def IndexedGraphAskRel (V W : R → Q → Prop) : IndexedGraphCall R → IndexedGraphCall Q → Prop
  | .common a, .common a' => AskRel (TripleRel V) (TripleRel W) W a a'
  | .subjects, .subjects => True
  | .predicates, .predicates => True
  | .objects, .objects => True
  | .resourceCount, .resourceCount => True
  | .subjectCount, .subjectCount => True
  | .predicateCount, .predicateCount => True
  | .objectCount, .objectCount => True
  | .matching cap pat, .matching cap' pat' => cap = cap' ∧ TriplePatRel W pat pat'
  | _, _ => False

/-- Related outcomes of a call. -/
def StepRel (T : D → D' → Prop) (Y : X → X' → Prop) (a : D × X) (b : D' × X') : Prop :=
  T a.1 b.1 ∧ Y a.2 b.2

theorem answer_rel {c : Container S D} {c' : Container S' D'} {T : D → D' → Prop}
    {resources : D → Res (List R)} {resources' : D' → Res (List Q)}
    {containsResource : D → R → Res Bool} {containsResource' : D' → Q → Res Bool}
    (h : ContainerRel c c' VS WS T)
    (hres : ∀ d d', T d d' → ResRel (Each V) (resources d) (resources' d'))
    (hcon : ∀ d d' r r', T d d' → W r r' → containsResource' d' r' = containsResource d r)
    {d : D} {d' : D'} (hd : T d d') {a : Call S R} {a' : Call S' Q} (ha : AskRel VS WS W a a') :
    ResRel (StepRel T (AnswerRel VS V)) (answer c resources containsResource d a)
      (answer c' resources' containsResource' d' a') := by
  cases a <;> cases a' <;> simp only [AskRel] at ha
  case insert.insert =>
    exact (h.insert _ _ _ _ hd ha).bind fun x y hxy => ResRel.pure ⟨hxy.1, hxy.2⟩
  case remove.remove =>
    exact (h.remove _ _ _ _ hd ha).bind fun x y hxy => ResRel.pure ⟨hxy.1, hxy.2⟩
  case extend.extend =>
    exact (h.extend hd ha).bind fun x y hxy => ResRel.pure ⟨hxy, trivial⟩
  case contains.contains =>
    simp only [answer]
    rw [h.contains _ _ _ _ hd ha]
    exact (ResRel.of_eq rfl).bind fun x y hxy => ResRel.pure ⟨hd, hxy⟩
  case iter.iter => exact (h.iter _ _ hd).bind fun x y hxy => ResRel.pure ⟨hd, hxy⟩
  case intoIter.intoIter => exact (h.intoIter _ _ hd).bind fun x y hxy => ResRel.pure ⟨hd, hxy⟩
  case len.len => exact ResRel.pure ⟨hd, (h.len _ _ hd).symm⟩
  case isEmpty.isEmpty => exact ResRel.pure ⟨hd, (h.isEmpty _ _ hd).symm⟩
  case resources.resources => exact (hres _ _ hd).bind fun x y hxy => ResRel.pure ⟨hd, hxy⟩
  case containsResource.containsResource =>
    simp only [answer]
    rw [hcon _ _ _ _ hd ha]
    exact (ResRel.of_eq rfl).bind fun x y hxy => ResRel.pure ⟨hd, hxy⟩

/-! ## Sessions -/

/-- The calls of two containers are related. -/
def CallsRel (T : D → D' → Prop) (B : A → A' → Prop) (Y : X → X' → Prop)
    (ask : D → A → Res (D × X)) (ask' : D' → A' → Res (D' × X')) : Prop :=
  ∀ d d' a a', T d d' → B a a' → ResRel (StepRel T Y) (ask d a) (ask' d' a')

variable {T : D → D' → Prop} {B : A → A' → Prop} {Y : X → X' → Prop}
  {ask : D → A → Res (D × X)} {ask' : D' → A' → Res (D' × X')}

theorem session_rel (h : CallsRel T B Y ask ask') {d : D} {d' : D'} (hd : T d d') {l : List A}
    {l' : List A'} (hl : Each B l l') :
    Each (ResRel Y) (session ask d l) (session ask' d' l') := by
  induction hl generalizing d d' with
  | nil => exact .nil
  | @cons a a' l l' ha _ ih =>
    have := h d d' a a' hd ha
    unfold session
    cases hx : ask d a <;> cases hy : ask' d' a' <;> rw [hx, hy] at this
    · exact .cons this .nil
    · exact this.elim
    · exact this.elim
    · exact .cons this.2 (ih this.1)

theorem sessionEnd_rel (h : CallsRel T B Y ask ask') {d : D} {d' : D'} (hd : T d d') {l : List A}
    {l' : List A'} (hl : Each B l l') :
    ResRel T (sessionEnd ask d l) (sessionEnd ask' d' l') := by
  induction hl generalizing d d' with
  | nil => exact hd
  | @cons a a' l l' ha _ ih => exact (h d d' a a' hd ha).bind fun x y hxy => ih hxy.1

theorem sessionThrough_rel {E E' F F' : Type} {T' : E → E' → Prop} {B' : F → F' → Prop}
    {ask₁ : E → F → Res (E × X)} {ask₁' : E' → F' → Res (E' × X')} {convert : D → Res E}
    {convert' : D' → Res E'} (h : CallsRel T B Y ask ask') (h' : CallsRel T' B' Y ask₁ ask₁')
    (hc : ∀ d d', T d d' → ResRel T' (convert d) (convert' d')) {d : D} {d' : D'} (hd : T d d')
    {l : List A} {l' : List A'} (hl : Each B l l') {k : List F} {k' : List F'} (hk : Each B' k k') :
    Each (ResRel Y) (sessionThrough ask convert ask₁ d l k)
      (sessionThrough ask' convert' ask₁' d' l' k') := by
  unfold sessionThrough
  refine (session_rel h hd hl).append ?_
  have := sessionEnd_rel h hd hl
  cases hx : sessionEnd ask d l <;> cases hy : sessionEnd ask' d' l' <;> rw [hx, hy] at this
  · exact .nil
  · exact this.elim
  · exact this.elim
  · dsimp only
    have := hc _ _ this
    revert this
    generalize convert _ = u
    generalize convert' _ = u'
    intro this
    cases u <;> cases u'
    · exact .cons this .nil
    · exact this.elim
    · exact this.elim
    · exact session_rel h' this hk

/-! ## The four containers -/

variable [Ord R] [Ord Q]

theorem datasetCalls (hc : Compat V W) (rep : Bool) :
    CallsRel (DatasetRel V) (AskRel (QuadRel V) (QuadRel W) W) (AnswerRel (QuadRel V) V)
      (answerDataset (R := R) rep) (answerDataset (R := Q) rep) :=
  fun _ _ _ _ hd ha => answer_rel (W := W) (dataset_rel hc rep) (fun _ _ h => dataset_resources h)
    (fun _ _ _ _ h hr => dataset_containsResource hc h hr) hd ha

theorem graphCalls (hc : Compat V W) (rep : Bool) :
    CallsRel (GraphRel V) (AskRel (TripleRel V) (TripleRel W) W) (AnswerRel (TripleRel V) V)
      (answerGraph (R := R) rep) (answerGraph (R := Q) rep) :=
  fun _ _ _ _ hd ha => answer_rel (W := W) (graph_rel hc rep) (fun _ _ h => graph_resources h)
    (fun _ _ _ _ h hr => graph_containsResource hc h hr) hd ha

theorem indexedCalls (hc : Compat V W) (rep : Bool) :
    CallsRel (IndexedDatasetRel V) (IndexedAskRel V W) (AnswerRel (QuadRel V) V)
      (answerIndexed (R := R) rep) (answerIndexed (R := Q) rep) := by
  intro d d' a a' hd ha
  cases a <;> cases a' <;> simp only [IndexedAskRel] at ha
  case common.common =>
    exact answer_rel (W := W) (indexed_rel hc rep) (fun _ _ h => indexed_resources h)
      (fun _ _ _ _ h hr => indexed_containsResource h hc hr) hd ha
  case list.list p _ =>
    subst ha
    cases p
    · exact (indexed_subjects hd).bind fun x y hxy => ResRel.pure ⟨hd, hxy⟩
    · exact (indexed_predicates hd).bind fun x y hxy => ResRel.pure ⟨hd, hxy⟩
    · exact (indexed_objects hd).bind fun x y hxy => ResRel.pure ⟨hd, hxy⟩
    · exact (indexed_namedGraphs hd).bind fun x y hxy => ResRel.pure ⟨hd, hxy⟩
  case count.count p _ =>
    subst ha
    refine ResRel.pure ⟨hd, ?_⟩
    cases p <;> simp only [AnswerRel, IndexedBTreeDataset.subjectCount,
      IndexedBTreeDataset.predicateCount, IndexedBTreeDataset.objectCount,
      IndexedBTreeDataset.namedGraphCount, hd.subjects, hd.predicates, hd.objects, hd.namedGraphs]
  case resourceCount.resourceCount =>
    refine ResRel.pure ⟨hd, ?_⟩
    simp only [AnswerRel, IndexedBTreeDataset.resourceCount, hd.resources.len]
  case removeGraph.removeGraph =>
    refine (removeGraph_rel hc rep hd ha).bind fun x y hxy => ?_
    obtain ⟨d₁, g⟩ := x
    obtain ⟨d₁', g'⟩ := y
    obtain ⟨h₁, hg⟩ := hxy
    cases g <;> cases g' <;> simp only [OptRel] at hg
    · exact ResRel.pure ⟨h₁, trivial⟩
    · exact (graph_iter hg).bind fun x y hxy => ResRel.pure ⟨h₁, hxy⟩
  case matching.matching =>
    obtain ⟨rfl, hp⟩ := ha
    exact (patternMatching_rel hc hd _ hp).bind fun x y hxy => ResRel.pure ⟨hd, hxy⟩
  case multiMatching.multiMatching =>
    obtain ⟨rfl, hp⟩ := ha
    exact (multiPatternMatching_rel hc hd _ hp).bind fun x y hxy => ResRel.pure ⟨hd, hxy⟩
  case extract.extract =>
    obtain ⟨rfl, hp, rfl⟩ := ha
    exact (extract_rel hc hd _ _ hp).bind fun x y hxy => ResRel.pure ⟨hxy.1, hxy.2⟩

theorem indexedGraphCalls (hc : Compat V W) (rep : Bool) :
    CallsRel (IndexedGraphRel V) (IndexedGraphAskRel V W) (AnswerRel (TripleRel V) V)
      (answerIndexedGraph (R := R) rep) (answerIndexedGraph (R := Q) rep) := by
  intro d d' a a' hd ha
  cases a <;> cases a' <;> simp only [IndexedGraphAskRel] at ha
  case common.common =>
    exact answer_rel (W := W) (indexedGraph_rel hc rep) (fun _ _ h => indexedGraph_resources h)
      (fun _ _ _ _ h hr => indexedGraph_containsResource h hc hr) hd ha
  case subjects.subjects =>
    exact (indexedGraph_subjects hd).bind fun x y hxy => ResRel.pure ⟨hd, hxy⟩
  case predicates.predicates =>
    exact (indexedGraph_predicates hd).bind fun x y hxy => ResRel.pure ⟨hd, hxy⟩
  case objects.objects =>
    exact (indexedGraph_objects hd).bind fun x y hxy => ResRel.pure ⟨hd, hxy⟩
  case resourceCount.resourceCount =>
    refine ResRel.pure ⟨hd, ?_⟩
    simp only [AnswerRel, IndexedBTreeGraph.resourceCount, hd.resources.len]
  case subjectCount.subjectCount =>
    refine ResRel.pure ⟨hd, ?_⟩
    simp only [AnswerRel, IndexedBTreeGraph.subjectCount, hd.subjects]
  case predicateCount.predicateCount =>
    refine ResRel.pure ⟨hd, ?_⟩
    simp only [AnswerRel, IndexedBTreeGraph.predicateCount, hd.predicates]
  case objectCount.objectCount =>
    refine ResRel.pure ⟨hd, ?_⟩
    simp only [AnswerRel, IndexedBTreeGraph.objectCount, hd.objects]
  case matching.matching =>
    obtain ⟨rfl, hp⟩ := ha
    exact (triplePatternMatching_rel hc hd _ hp).bind fun x y hxy => ResRel.pure ⟨hd, hxy⟩

/-! ## Renaming -/

variable {π : R → Q}

/-- The second is the first renamed. -/
def Named (π : R → Q) (a : R) (b : Q) : Prop := b = π a

theorem compat_named (h : KeepsOrder π) : Compat (Named π) (Named π) where
  query a a' b b' ha hb := by rw [ha, hb]; exact h a b
  stored _ _ h := h

theorem quadRel_map (q : Quad R) : QuadRel (Named π) q (q.map π) := by
  obtain ⟨s, p, o, g⟩ := q
  cases g <;> exact ⟨rfl, rfl, rfl, by simp [Quad.map, OptRel, Named]⟩

theorem tripleRel_map (t : Triple R) : TripleRel (Named π) t (t.map π) := ⟨rfl, rfl, rfl⟩

theorem eq_of_quadRel {q : Quad R} {q' : Quad Q} (h : QuadRel (Named π) q q') :
    q' = q.map π := by
  obtain ⟨s, p, o, g⟩ := q
  obtain ⟨s', p', o', g'⟩ := q'
  obtain ⟨h1, h2, h3, h4⟩ := h
  cases g <;> cases g' <;> simp_all [Quad.map, OptRel, Named]

theorem eq_of_tripleRel {t : Triple R} {t' : Triple Q} (h : TripleRel (Named π) t t') :
    t' = t.map π := by
  obtain ⟨s, p, o⟩ := t
  obtain ⟨s', p', o'⟩ := t'
  obtain ⟨h1, h2, h3⟩ := h
  simp_all [Triple.map, Named]

theorem eq_of_each {α β : Type} {V : α → β → Prop} {f : α → β} (h : ∀ a b, V a b → b = f a)
    {l : List α} {l' : List β} (hl : Each V l l') : l' = l.map f := by
  induction hl with
  | nil => rfl
  | cons hab _ ih => rw [List.map_cons, h _ _ hab, ih]

theorem eq_of_answerRel {σ : S → S'} (hσ : ∀ x y, VS x y → y = σ x) {a : Reply S R}
    {b : Reply S' Q} (h : AnswerRel VS (Named π) a b) : b = a.map σ π := by
  cases a <;> cases b <;> simp only [AnswerRel] at h
  · rfl
  · exact congrArg Reply.flag h.symm
  · exact congrArg Reply.number h.symm
  · exact congrArg Reply.terms (eq_of_each (fun _ _ h => h) h)
  · exact congrArg Reply.statements (eq_of_each hσ h)
  · rw [h.2, eq_of_each hσ h.1]; rfl
  · rename_i g g'
    cases g <;> cases g' <;> simp only [OptRel] at h
    · rfl
    · rename_i l l'
      have : l' = l.map (fun t => t.map π) := eq_of_each (fun _ _ h => eq_of_tripleRel h) h
      rw [this]
      rfl

theorem eq_renamed {σ : S → S'} (hσ : ∀ x y, VS x y → y = σ x) {l : List (Res (Reply S R))}
    {l' : List (Res (Reply S' Q))} (h : Each (ResRel (AnswerRel VS (Named π))) l l') :
    l' = renamed σ π l := by
  refine eq_of_each ?_ h
  intro a b hab
  cases a <;> cases b
  · exact congrArg Except.error (Eq.symm hab)
  · exact hab.elim
  · exact hab.elim
  · exact congrArg Except.ok (eq_of_answerRel hσ hab)

theorem askRel_map {σ : S → S'} (hv : ∀ x, VS x (σ x)) (hw : ∀ x, WS x (σ x)) (a : Call S R) :
    AskRel VS WS (Named π) a (a.map σ π) := by
  cases a <;> simp only [Call.map, AskRel, Named, hv, hw]
  exact each_map σ hv _

theorem patRel_map {α β : Type} {W : α → β → Prop} {f : α → β} (h : ∀ a, W a (f a))
    (pat : CanonicalQuadPattern α) : PatRel W pat (pat.map f) := by
  have hg : ∀ g : Option α, OptRel W g (g.map f) := by
    intro g
    cases g
    · trivial
    · exact h _
  cases_quad pat <;>
    refine ⟨?_, ?_, ?_, ?_⟩ <;> first | exact trivial | exact h _ | exact hg _

theorem triplePatRel_map (pat : CanonicalTriplePattern R) :
    TriplePatRel (Named π) pat (renamedPattern π pat) := by
  cases_triple pat <;> refine ⟨?_, ?_, ?_⟩ <;> first | exact trivial | exact rfl

theorem indexedAskRel_map (a : IndexedCall R) :
    IndexedAskRel (Named π) (Named π) a (a.map π) := by
  cases a <;> simp only [IndexedCall.map, IndexedAskRel, true_and, and_true]
  · exact askRel_map quadRel_map quadRel_map _
  · rename_i g
    cases g <;> simp [OptRel, Named]
  · exact patRel_map (W := Named π) (fun _ => rfl) _
  · exact patRel_map (W := Each (Named π)) (each_map π (fun _ => rfl)) _
  · exact patRel_map (W := Named π) (fun _ => rfl) _

theorem indexedGraphAskRel_map (a : IndexedGraphCall R) :
    IndexedGraphAskRel (Named π) (Named π) a (a.map π) := by
  cases a <;> simp only [IndexedGraphCall.map, IndexedGraphAskRel, true_and]
  · exact askRel_map tripleRel_map tripleRel_map _
  · exact triplePatRel_map _

theorem each_asks {B : A → A' → Prop} {f : A → A'} (h : ∀ a, B a (f a)) (l : List A) :
    Each B l (l.map f) := each_map f h l

theorem dataset_renaming (h : KeepsOrder π) (rep : Bool) (l : List (Call (Quad R) R)) :
    session (answerDataset rep) BTreeDataset.new (l.map (Call.map (fun q => q.map π) π)) =
      renamed (fun q => q.map π) π (session (answerDataset rep) BTreeDataset.new l) :=
  eq_renamed (fun _ _ h => eq_of_quadRel h)
    (session_rel (datasetCalls (compat_named h) rep) (dataset_rel (compat_named h) rep).empty
      (each_map _ (askRel_map quadRel_map quadRel_map) l))

theorem graph_renaming (h : KeepsOrder π) (rep : Bool) (l : List (Call (Triple R) R)) :
    session (answerGraph rep) BTreeGraph.new (l.map (Call.map (fun t => t.map π) π)) =
      renamed (fun t => t.map π) π (session (answerGraph rep) BTreeGraph.new l) :=
  eq_renamed (fun _ _ h => eq_of_tripleRel h)
    (session_rel (graphCalls (compat_named h) rep) (graph_rel (compat_named h) rep).empty
      (each_map _ (askRel_map tripleRel_map tripleRel_map) l))

theorem indexed_renaming (h : KeepsOrder π) (rep : Bool) (l : List (IndexedCall R)) :
    session (answerIndexed rep) IndexedBTreeDataset.new (l.map (IndexedCall.map π)) =
      renamed (fun q => q.map π) π (session (answerIndexed rep) IndexedBTreeDataset.new l) :=
  eq_renamed (fun _ _ h => eq_of_quadRel h)
    (session_rel (indexedCalls (compat_named h) rep) (indexed_rel (compat_named h) rep).empty
      (each_map _ indexedAskRel_map l))

theorem indexedGraph_renaming (h : KeepsOrder π) (rep : Bool) (l : List (IndexedGraphCall R)) :
    session (answerIndexedGraph rep) IndexedBTreeGraph.new (l.map (IndexedGraphCall.map π)) =
      renamed (fun t => t.map π) π (session (answerIndexedGraph rep) IndexedBTreeGraph.new l) :=
  eq_renamed (fun _ _ h => eq_of_tripleRel h)
    (session_rel (indexedGraphCalls (compat_named h) rep)
      (indexedGraph_rel (compat_named h) rep).empty (each_map _ indexedGraphAskRel_map l))

theorem conversion_renaming (h : KeepsOrder π) (rep : Bool) (l : List (Call (Quad R) R))
    (k : List (IndexedCall R)) :
    sessionThrough (answerDataset rep) IndexedBTreeDataset.fromNonIndexed (answerIndexed rep)
        BTreeDataset.new (l.map (Call.map (fun q => q.map π) π)) (k.map (IndexedCall.map π)) =
      renamed (fun q => q.map π) π (sessionThrough (answerDataset rep)
        IndexedBTreeDataset.fromNonIndexed (answerIndexed rep) BTreeDataset.new l k) :=
  eq_renamed (fun _ _ h => eq_of_quadRel h)
    (sessionThrough_rel (datasetCalls (compat_named h) rep) (indexedCalls (compat_named h) rep)
      (fun _ _ h => fromNonIndexed_rel h) (dataset_rel (compat_named h) rep).empty
      (each_map _ (askRel_map quadRel_map quadRel_map) l) (each_map _ indexedAskRel_map k))

theorem graphConversion_renaming (h : KeepsOrder π) (rep : Bool) (l : List (Call (Triple R) R))
    (k : List (IndexedGraphCall R)) :
    sessionThrough (answerGraph rep) IndexedBTreeGraph.fromNonIndexed (answerIndexedGraph rep)
        BTreeGraph.new (l.map (Call.map (fun t => t.map π) π)) (k.map (IndexedGraphCall.map π)) =
      renamed (fun t => t.map π) π (sessionThrough (answerGraph rep)
        IndexedBTreeGraph.fromNonIndexed (answerIndexedGraph rep) BTreeGraph.new l k) :=
  eq_renamed (fun _ _ h => eq_of_tripleRel h)
    (sessionThrough_rel (graphCalls (compat_named h) rep) (indexedGraphCalls (compat_named h) rep)
      (fun _ _ h => graphFromNonIndexed_rel h) (graph_rel (compat_named h) rep).empty
      (each_map _ (askRel_map tripleRel_map tripleRel_map) l)
      (each_map _ indexedGraphAskRel_map k))

/-! ## Classes of like terms -/

section classes

variable (R) [Std.TransOrd R]

/-- Being alike is an equivalence. -/
def likeness : Setoid R where
  r := Like
  iseqv :=
    { refl := fun a => Std.ReflCmp.compare_self
      symm := fun {a b} h => by
        have := Std.OrientedCmp.eq_swap (cmp := (compare : R → R → Ordering)) (a := b) (b := a)
        rw [Like] at h ⊢
        rw [this, h]
        rfl
      trans := fun {a b c} h h' => Std.TransCmp.eq_trans h h' }

/-- The classes of like terms. -/
def Class : Type := Quotient (likeness R)

instance : Ord (Class R) where
  compare := Quotient.lift₂ (s₁ := likeness R) (s₂ := likeness R) compare fun a b a' b' h h' => by
    rw [Std.TransCmp.congr_left (cmp := (compare : R → R → Ordering)) h,
      Std.TransCmp.congr_right (cmp := (compare : R → R → Ordering)) h']

/-- The class of a term. -/
def classOf (r : R) : Class R := Quotient.mk (likeness R) r

theorem classOf_keeps : KeepsOrder (classOf R) := fun _ _ => rfl

theorem classOf_surjective : ∀ c : Class R, ∃ r, classOf R r = c := fun c => Quotient.exists_rep c

theorem classOf_eq (a b : R) : classOf R a = classOf R b ↔ compare a b = .eq :=
  ⟨fun h => Quotient.exact (s := likeness R) h, fun h => Quotient.sound (s := likeness R) h⟩

instance : Std.TransOrd (Class R) where
  eq_swap := by
    intro a b
    obtain ⟨a, rfl⟩ := classOf_surjective R a
    obtain ⟨b, rfl⟩ := classOf_surjective R b
    exact Std.OrientedCmp.eq_swap (cmp := (compare : R → R → Ordering))
  isLE_trans := by
    intro a b c
    obtain ⟨a, rfl⟩ := classOf_surjective R a
    obtain ⟨b, rfl⟩ := classOf_surjective R b
    obtain ⟨c, rfl⟩ := classOf_surjective R c
    exact Std.TransCmp.isLE_trans (cmp := (compare : R → R → Ordering))

instance : Std.LawfulEqOrd (Class R) where
  eq_of_compare := by
    intro a b h
    obtain ⟨a, rfl⟩ := classOf_surjective R a
    obtain ⟨b, rfl⟩ := classOf_surjective R b
    exact (classOf_eq R a b).2 h
  compare_self := by
    intro a
    obtain ⟨a, rfl⟩ := classOf_surjective R a
    exact Std.ReflCmp.compare_self (cmp := (compare : R → R → Ordering))

end classes

/-! ## Sets up to spelling -/

/-- The call with its statements renamed. -/
def opMap (σ : S → S') : Op S → Op S'
  | .insert x => .insert (σ x)
  | .remove x => .remove (σ x)
  | .extend l => .extend (l.map σ)

theorem run_rel {c : Container S D} {c' : Container S' D'} (σ : S → S')
    (h : ContainerRel c c' (Named σ) (Named σ) T) (l : List (Op S)) {d : D} {d' : D'}
    (hd : T d d') : ResRel T (c.run d l) (c'.run d' (l.map (opMap σ))) := by
  induction l generalizing d d' with
  | nil => exact hd
  | cons op l ih =>
    refine ResRel.bind (V := T) ?_ fun _ _ hab => ih hab
    cases op with
    | insert x => exact (h.insert _ _ _ _ hd rfl).bind fun _ _ hab => hab.1
    | remove x => exact (h.remove _ _ _ _ hd rfl).bind fun _ _ hab => hab.1
    | extend xs => exact h.extend hd (each_map (V := Named σ) σ (fun _ => rfl) xs)

theorem afterUpTo_iff {like : S → S → Prop} {σ : S → S'} (hσ : ∀ x y, σ x = σ y ↔ like x y)
    (l : List (Op S)) {A : S → Prop} {B : S' → Prop} (h : ∀ x, A x ↔ B (σ x)) (x : S) :
    afterUpTo like A l x ↔ after B (l.map (opMap σ)) (σ x) := by
  induction l generalizing A B with
  | nil => exact h x
  | cons op l ih =>
    refine ih ?_
    intro y
    cases op with
    | insert x => simp only [applyUpTo, apply, opMap, h, ← hσ, eq_comm]
    | remove x => simp only [applyUpTo, apply, opMap, h, ← hσ, ne_eq, eq_comm]
    | extend xs => simp only [applyUpTo, apply, opMap, h, ← hσ, List.mem_map]

theorem ResRel.ok_right {α β : Type} {V : α → β → Prop} {x : Res α} {y : Res β} (h : ResRel V x y)
    {b : β} (hy : y = .ok b) : ∃ a, x = .ok a ∧ V a b := by
  subst hy
  cases x with
  | error => exact h.elim
  | ok a => exact ⟨a, rfl, h⟩

theorem isSetUpTo [Ord S] [Ord S'] [Std.TransOrd S'] [Std.LawfulEqOrd S'] {c : Container S D} {c' : Container S' D'} {σ : S → S'}
    {like : S → S → Prop} (hσ : ∀ x y, σ x = σ y ↔ like x y)
    (ho : ∀ x y, compare (σ x) (σ y) = compare x y)
    (h : ContainerRel c c' (Named σ) (Named σ) T) {Inv : D' → Prop} {abs : D' → S' → Prop}
    (L : c'.Laws Inv abs) (hi : ∀ d d', T d d' → Inv d' → c.intoIter d = c.iter d) :
    IsSetUpTo c like := by
  intro l
  obtain ⟨d', hd', hst⟩ := L.run_stands (A := nothing) L.stands_empty (l.map (opMap σ))
  obtain ⟨d, hd, hT⟩ := (run_rel σ h l h.empty).ok_right hd'
  have hA : ∀ x, afterUpTo like nothing l x ↔ after nothing (l.map (opMap σ)) (σ x) :=
    afterUpTo_iff hσ l fun _ => Iff.rfl
  refine ⟨d, hd, ?_, ?_, ?_, ?_⟩
  · intro x
    obtain ⟨b, hb, hb'⟩ := L.membership hst (σ x)
    exact ⟨b, by rw [← h.contains d d' x (σ x) hT rfl, hb], by rw [hb', hA]⟩
  · obtain ⟨ys, hy, hl, hn⟩ := L.iteration hst
    obtain ⟨xs, hx, hxy⟩ := (h.iter d d' hT).ok_right hy
    have e : ys = xs.map σ := eq_of_each (fun _ _ h => h) hxy
    subst e
    refine ⟨xs, hx, by rw [hi d d' hT hst.1, hx], ⟨?_, ?_, ?_⟩, ?_, ?_⟩
    · have := List.pairwise_map.1 hl.ascending
      exact this.imp fun h => by rwa [ho] at h
    · exact fun x hx => (hA x).2 ((hl.exact _).1 (List.mem_map_of_mem hx))
    · intro x hx
      obtain ⟨y, hy, e⟩ := List.mem_map.1 ((hl.exact _).2 ((hA x).1 hx))
      exact ⟨y, hy, (hσ y x).1 e⟩
    · rw [← h.len d d' hT, hn, List.length_map]
    · rw [← h.isEmpty d d' hT, L.isEmpty, hn]
      simp
  · intro x
    obtain ⟨⟨d₁, b, h₁, hb, -⟩, -⟩ := L.returns hst (σ x)
    obtain ⟨a, ha, hab⟩ := (h.insert d d' x (σ x) hT rfl).ok_right h₁
    exact ⟨a.1, a.2, ha, by rw [hab.2, hb, hA]⟩
  · intro x
    obtain ⟨-, d₁, b, h₁, hb, -⟩ := L.returns hst (σ x)
    obtain ⟨a, ha, hab⟩ := (h.remove d d' x (σ x) hT rfl).ok_right h₁
    exact ⟨a.1, a.2, ha, by rw [hab.2, hb, hA]⟩

section drain

variable {ρ : Type} {ops : ResOps R ρ} {res : Slab ρ}

theorem drainQuads_eq' {quads : Slab (Quad Nat)} {l : Index} (hn : l.Nodup)
    (hd : ∀ i ∈ l, ∃ q, quads.get i = some q) :
    ops.drainQuads res quads l = l.mapM (ops.readQuad res quads) := by
  induction l generalizing quads with
  | nil => rfl
  | cons i l ih =>
    obtain ⟨hi, hn'⟩ := List.nodup_cons.1 hn
    obtain ⟨q, hq⟩ := hd i (by simp)
    have hget : ∀ j ∈ l, (quads.erase i).get j = quads.get j := by
      intro j hj
      have : j ≠ i := fun e => hi (e ▸ hj)
      simp [Slab.get_erase, this]
    have hsame : ∀ j ∈ l, ops.readQuad res (quads.erase i) j = ops.readQuad res quads j := by
      intro j hj
      simp [ResOps.readQuad, Slab.index, hget j hj]
    have hrec := ih (quads := quads.erase i) hn' (fun j hj => by
      rw [hget j hj]
      exact hd j (by simp [hj]))
    have hr : ops.readQuad res quads i = ops.quadWithResources res q := by
      simp [ResOps.readQuad, Slab.index, hq, bind, Except.bind]
    simp only [ResOps.drainQuads, Slab.remove_ok hq, List.mapM_cons, hr, hrec, bind, Except.bind]
    rw [mapM_congr hsame]

theorem drainTriples_eq' {triples : Slab (Triple Nat)} {l : Index} (hn : l.Nodup)
    (hd : ∀ i ∈ l, ∃ q, triples.get i = some q) :
    ops.drainTriples res triples l = l.mapM (ops.readTriple res triples) := by
  induction l generalizing triples with
  | nil => rfl
  | cons i l ih =>
    obtain ⟨hi, hn'⟩ := List.nodup_cons.1 hn
    obtain ⟨q, hq⟩ := hd i (by simp)
    have hget : ∀ j ∈ l, (triples.erase i).get j = triples.get j := by
      intro j hj
      have : j ≠ i := fun e => hi (e ▸ hj)
      simp [Slab.get_erase, this]
    have hsame : ∀ j ∈ l, ops.readTriple res (triples.erase i) j = ops.readTriple res triples j := by
      intro j hj
      simp [ResOps.readTriple, Slab.index, hget j hj]
    have hrec := ih (triples := triples.erase i) hn' (fun j hj => by
      rw [hget j hj]
      exact hd j (by simp [hj]))
    have hr : ops.readTriple res triples i = ops.tripleWithResources res q := by
      simp [ResOps.readTriple, Slab.index, hq, bind, Except.bind]
    simp only [ResOps.drainTriples, Slab.remove_ok hq, List.mapM_cons, hr, hrec, bind, Except.bind]
    rw [mapM_congr hsame]

theorem get_of_sval {K X : Type} {sh : Shape K X R} {stmts : Slab K} {i : Nat}
    (h : ∃ x, sh.sval ops res stmts i = some x) : ∃ q, stmts.get i = some q := by
  obtain ⟨x, hx⟩ := h
  unfold Shape.sval at hx
  cases hq : stmts.get i with
  | none => simp [hq] at hx
  | some q => exact ⟨q, rfl⟩

end drain

theorem quadRel_named (π : R → Q) : (QuadRel (Named π) : Quad R → Quad Q → Prop) =
    Named (fun q => q.map π) := by
  funext x y
  refine propext ⟨eq_of_quadRel, ?_⟩
  intro e
  cases e
  exact quadRel_map x

theorem tripleRel_named (π : R → Q) : (TripleRel (Named π) : Triple R → Triple Q → Prop) =
    Named (fun t => t.map π) := by
  funext x y
  refine propext ⟨eq_of_tripleRel, ?_⟩
  intro e
  cases e
  exact tripleRel_map x

section sets

variable [Std.TransOrd R]

theorem quad_class (x y : Quad R) :
    x.map (classOf R) = y.map (classOf R) ↔ AlikeQuad x y := by
  obtain ⟨s, p, o, g⟩ := x
  obtain ⟨s', p', o', g'⟩ := y
  simp only [Quad.map, AlikeQuad, Like, Quad.mk.injEq, classOf_eq]
  cases g <;> cases g' <;> simp [classOf_eq]

theorem triple_class (x y : Triple R) :
    x.map (classOf R) = y.map (classOf R) ↔ AlikeTriple x y := by
  obtain ⟨s, p, o⟩ := x
  obtain ⟨s', p', o'⟩ := y
  simp only [Triple.map, AlikeTriple, Like, Triple.mk.injEq, classOf_eq]

theorem quad_keeps (h : KeepsOrder π) (x y : Quad R) :
    compare (x.map π) (y.map π) = compare x y :=
  (compat_named h).quad (quadRel_map x) (quadRel_map y)

theorem triple_keeps (h : KeepsOrder π) (x y : Triple R) :
    compare (x.map π) (y.map π) = compare x y :=
  (compat_named h).triple (tripleRel_map x) (tripleRel_map y)

theorem dataset_set (rep : Bool) : IsSetUpTo (BTreeDataset.container rep R) AlikeQuad := by
  have h := dataset_rel (compat_named (classOf_keeps R)) rep
  rw [quadRel_named (classOf R)] at h
  refine isSetUpTo quad_class (quad_keeps (classOf_keeps R)) h (BTreeDataset.laws rep) ?_
  intro d d' hT hd
  refine drainQuads_eq' ?_ fun i hi => ?_
  · rw [← hT.quadsIndexes]
    exact hd.sorted.nodup
  · rw [← hT.quads]
    exact get_of_sval (hd.sorted.defined i (hT.quadsIndexes ▸ hi))

theorem indexed_set (rep : Bool) : IsSetUpTo (IndexedBTreeDataset.container rep R) AlikeQuad := by
  have h := indexed_rel (compat_named (classOf_keeps R)) rep
  rw [quadRel_named (classOf R)] at h
  refine isSetUpTo quad_class (quad_keeps (classOf_keeps R)) h (IndexedBTreeDataset.laws rep) ?_
  intro d d' hT hd
  refine drainQuads_eq' ?_ fun i hi => ?_
  · rw [← hT.quadsIndexes]
    exact hd.inv.sorted.nodup
  · rw [← hT.quads]
    exact get_of_sval (hd.inv.sorted.defined i (hT.quadsIndexes ▸ hi))

theorem graph_set (rep : Bool) : IsSetUpTo (BTreeGraph.container rep R) AlikeTriple := by
  have h := graph_rel (compat_named (classOf_keeps R)) rep
  rw [tripleRel_named (classOf R)] at h
  refine isSetUpTo triple_class (triple_keeps (classOf_keeps R)) h (BTreeGraph.laws rep) ?_
  intro d d' hT hd
  refine drainTriples_eq' ?_ fun i hi => ?_
  · rw [← hT.triplesIndexes]
    exact hd.sorted.nodup
  · rw [← hT.triples]
    exact get_of_sval (hd.sorted.defined i (hT.triplesIndexes ▸ hi))

theorem indexedGraph_set (rep : Bool) :
    IsSetUpTo (IndexedBTreeGraph.container rep R) AlikeTriple := by
  have h := indexedGraph_rel (compat_named (classOf_keeps R)) rep
  rw [tripleRel_named (classOf R)] at h
  refine isSetUpTo triple_class (triple_keeps (classOf_keeps R)) h (IndexedBTreeGraph.laws rep) ?_
  intro d d' hT hd
  refine drainTriples_eq' ?_ fun i hi => ?_
  · rw [← hT.triplesIndexes]
    exact hd.inv.sorted.nodup
  · rw [← hT.triples]
    exact get_of_sval (hd.inv.sorted.defined i (hT.triplesIndexes ▸ hi))

end sets

/-! ## Spelling -/

/-- A stored term: the same on both sides, and one of those given. -/
def Given (P : R → Prop) (a b : R) : Prop := a = b ∧ P a

theorem compat_given (P : R → Prop) : Compat (Given P) (Eq : R → R → Prop) where
  query a a' b b' ha hb := by rw [ha.1, hb]
  stored _ _ h := h.1

theorem given_quad {P : R → Prop} {q : Quad R} (h : ∀ r ∈ quadTerms q, P r) :
    QuadRel (Given P) q q := by
  obtain ⟨s, p, o, g⟩ := q
  refine ⟨⟨rfl, h _ (by simp [quadTerms])⟩, ⟨rfl, h _ (by simp [quadTerms])⟩,
    ⟨rfl, h _ (by simp [quadTerms])⟩, ?_⟩
  cases g
  · trivial
  · exact ⟨rfl, h _ (by simp [quadTerms])⟩

theorem given_triple {P : R → Prop} {t : Triple R} (h : ∀ r ∈ tripleTerms t, P r) :
    TripleRel (Given P) t t :=
  ⟨⟨rfl, h _ (by simp [tripleTerms])⟩, ⟨rfl, h _ (by simp [tripleTerms])⟩,
    ⟨rfl, h _ (by simp [tripleTerms])⟩⟩

theorem quad_given {P : R → Prop} {q q' : Quad R} (h : QuadRel (Given P) q q') :
    ∀ r ∈ quadTerms q, P r := by
  obtain ⟨s, p, o, g⟩ := q
  obtain ⟨s', p', o', g'⟩ := q'
  obtain ⟨h1, h2, h3, h4⟩ := h
  have h1 := h1.2
  have h2 := h2.2
  have h3 := h3.2
  intro r hr
  cases g <;> cases g' <;> simp only [OptRel] at h4
  · simp only [quadTerms, Option.toList_none, List.append_nil, List.mem_cons, List.not_mem_nil,
      or_false] at hr
    rcases hr with rfl | rfl | rfl <;> assumption
  · have h4 := h4.2
    simp only [quadTerms, Option.toList_some, List.cons_append, List.nil_append, List.mem_cons,
      List.not_mem_nil, or_false] at hr
    rcases hr with rfl | rfl | rfl | rfl <;> assumption

theorem triple_given {P : R → Prop} {t t' : Triple R} (h : TripleRel (Given P) t t') :
    ∀ r ∈ tripleTerms t, P r := by
  obtain ⟨s, p, o⟩ := t
  have h1 := h.1.2
  have h2 := h.2.1.2
  have h3 := h.2.2.2
  intro r hr
  simp only [tripleTerms, List.mem_cons, List.not_mem_nil, or_false] at hr
  rcases hr with rfl | rfl | rfl <;> assumption

theorem each_given {α : Type} {V : α → α → Prop} {terms : α → List R} {P : R → Prop}
    (h : ∀ x y, V x y → ∀ r ∈ terms x, P r) {l l' : List α} (hl : Each V l l') :
    ∀ r ∈ l.flatMap terms, P r := by
  intro r hr
  obtain ⟨x, hx, hr⟩ := List.mem_flatMap.1 hr
  obtain ⟨y, -, hxy⟩ := hl.left x hx
  exact h x y hxy r hr

theorem answer_given {VS : S → S → Prop} {terms : S → List R} {P : R → Prop}
    (h : ∀ x y, VS x y → ∀ r ∈ terms x, P r) {a b : Reply S R}
    (hab : AnswerRel VS (Given P) a b) : ∀ r ∈ a.allTerms terms, P r := by
  cases a <;> cases b <;> simp only [AnswerRel] at hab
  case terms.terms =>
    intro r hr
    obtain ⟨y, -, hxy⟩ := hab.left r hr
    exact hxy.2
  case statements.statements => exact each_given h hab
  case taken.taken => exact each_given h hab.1
  case graph.graph g g' =>
    cases g <;> cases g' <;> simp only [OptRel] at hab
    · simp [Reply.allTerms]
    · exact each_given (fun _ _ h => triple_given h) hab
  all_goals simp [Reply.allTerms]

theorem repeats_of {VS : S → S → Prop} {terms : S → List R} {given : List R}
    (h : ∀ x y, VS x y → ∀ r ∈ terms x, r ∈ given) {t t' : List (Res (Reply S R))}
    (ht : Each (ResRel (AnswerRel VS (Given (· ∈ given)))) t t') : Repeats terms t given := by
  intro a ha
  obtain ⟨b, -, hab⟩ := ht.left _ ha
  cases b with
  | error => exact hab.elim
  | ok b => exact answer_given h hab

theorem askRel_given {VS WS : S → S → Prop} {terms : S → List R} {P : R → Prop}
    (hv : ∀ x, (∀ r ∈ terms x, P r) → VS x x) (hw : ∀ x, WS x x) {a : Call S R}
    (ha : ∀ r ∈ a.inserted terms, P r) : AskRel VS WS Eq a a := by
  cases a <;> simp only [AskRel, hw]
  · exact hv _ ha
  · exact each_self fun x hx => hv x fun r hr => ha r (List.mem_flatMap.2 ⟨x, hx, hr⟩)

theorem optRel_self {α : Type} {V : α → α → Prop} (h : ∀ a, V a a) (o : Option α) :
    OptRel V o o := by
  cases o
  · trivial
  · exact h _

theorem quadRel_self (q : Quad R) : QuadRel (Eq : R → R → Prop) q q :=
  ⟨rfl, rfl, rfl, optRel_self (fun _ => rfl) _⟩

theorem tripleRel_self (t : Triple R) : TripleRel (Eq : R → R → Prop) t t := ⟨rfl, rfl, rfl⟩

theorem patRel_self {α : Type} {W : α → α → Prop} (h : ∀ a, W a a) (pat : CanonicalQuadPattern α) :
    PatRel W pat pat := by
  have := patRel_map (f := id) h pat
  rwa [Proof.map_id] at this

theorem triplePatRel_self (pat : CanonicalTriplePattern R) :
    TriplePatRel (Eq : R → R → Prop) pat pat := by
  cases_triple pat <;> refine ⟨?_, ?_, ?_⟩ <;> first | exact trivial | exact rfl

theorem indexedAskRel_given {P : R → Prop} {a : IndexedCall R} (ha : ∀ r ∈ a.inserted, P r) :
    IndexedAskRel (Given P) Eq a a := by
  cases a <;> simp only [IndexedAskRel, true_and, and_true]
  · exact askRel_given (fun _ => given_quad) quadRel_self ha
  · exact optRel_self (fun _ => rfl) _
  · exact patRel_self (fun _ => rfl) _
  · exact patRel_self (fun l => each_self fun _ _ => rfl) _
  · exact patRel_self (fun _ => rfl) _

theorem indexedGraphAskRel_given {P : R → Prop} {a : IndexedGraphCall R}
    (ha : ∀ r ∈ a.inserted, P r) : IndexedGraphAskRel (Given P) Eq a a := by
  cases a <;> simp only [IndexedGraphAskRel, true_and]
  · exact askRel_given (fun _ => given_triple) tripleRel_self ha
  · exact triplePatRel_self _

theorem each_inserted {B : A → A → Prop} {inserted : A → List R} {given : List R} {l : List A}
    (h : ∀ a, (∀ r ∈ inserted a, r ∈ given) → B a a) (hl : ∀ r ∈ l.flatMap inserted, r ∈ given) :
    Each B l l :=
  each_self fun a ha => h a fun r hr => hl r (List.mem_flatMap.2 ⟨a, ha, hr⟩)

theorem dataset_spelling (rep : Bool) (l : List (Call (Quad R) R)) :
    Repeats quadTerms (session (answerDataset rep) BTreeDataset.new l)
      (l.flatMap (Call.inserted quadTerms)) :=
  repeats_of (fun _ _ => quad_given)
    (session_rel (datasetCalls (compat_given _) rep) (dataset_rel (compat_given _) rep).empty
      (each_inserted (fun _ ha => askRel_given (fun _ => given_quad) quadRel_self ha)
        fun _ h => h))

theorem graph_spelling (rep : Bool) (l : List (Call (Triple R) R)) :
    Repeats tripleTerms (session (answerGraph rep) BTreeGraph.new l)
      (l.flatMap (Call.inserted tripleTerms)) :=
  repeats_of (fun _ _ => triple_given)
    (session_rel (graphCalls (compat_given _) rep) (graph_rel (compat_given _) rep).empty
      (each_inserted (fun _ ha => askRel_given (fun _ => given_triple) tripleRel_self ha)
        fun _ h => h))

theorem conversion_spelling (rep : Bool) (l : List (Call (Quad R) R)) (k : List (IndexedCall R)) :
    Repeats quadTerms
      (sessionThrough (answerDataset rep) IndexedBTreeDataset.fromNonIndexed (answerIndexed rep)
        BTreeDataset.new l k)
      (l.flatMap (Call.inserted quadTerms) ++ k.flatMap IndexedCall.inserted) :=
  repeats_of (fun _ _ => quad_given)
    (sessionThrough_rel (datasetCalls (compat_given _) rep) (indexedCalls (compat_given _) rep)
      (fun _ _ h => fromNonIndexed_rel h) (dataset_rel (compat_given _) rep).empty
      (each_inserted (fun _ ha => askRel_given (fun _ => given_quad) quadRel_self ha)
        fun _ h => List.mem_append_left _ h)
      (each_inserted (fun _ ha => indexedAskRel_given ha) fun _ h => List.mem_append_right _ h))

theorem graphConversion_spelling (rep : Bool) (l : List (Call (Triple R) R))
    (k : List (IndexedGraphCall R)) :
    Repeats tripleTerms
      (sessionThrough (answerGraph rep) IndexedBTreeGraph.fromNonIndexed (answerIndexedGraph rep)
        BTreeGraph.new l k)
      (l.flatMap (Call.inserted tripleTerms) ++ k.flatMap IndexedGraphCall.inserted) :=
  repeats_of (fun _ _ => triple_given)
    (sessionThrough_rel (graphCalls (compat_given _) rep) (indexedGraphCalls (compat_given _) rep)
      (fun _ _ h => graphFromNonIndexed_rel h) (graph_rel (compat_given _) rep).empty
      (each_inserted (fun _ ha => askRel_given (fun _ => given_triple) tripleRel_self ha)
        fun _ h => List.mem_append_left _ h)
      (each_inserted (fun _ ha => indexedGraphAskRel_given ha)
        fun _ h => List.mem_append_right _ h))

theorem indexed_spelling (rep : Bool) (k : List (IndexedCall R)) :
    Repeats quadTerms (session (answerIndexed rep) IndexedBTreeDataset.new k)
      (k.flatMap IndexedCall.inserted) :=
  repeats_of (fun _ _ => quad_given)
    (session_rel (indexedCalls (compat_given _) rep) (indexed_rel (compat_given _) rep).empty
      (each_inserted (fun _ ha => indexedAskRel_given ha) fun _ h => h))

theorem indexedGraph_spelling (rep : Bool) (k : List (IndexedGraphCall R)) :
    Repeats tripleTerms (session (answerIndexedGraph rep) IndexedBTreeGraph.new k)
      (k.flatMap IndexedGraphCall.inserted) :=
  repeats_of (fun _ _ => triple_given)
    (session_rel (indexedGraphCalls (compat_given _) rep)
      (indexedGraph_rel (compat_given _) rep).empty
      (each_inserted (fun _ ha => indexedGraphAskRel_given ha) fun _ h => h))

theorem session_take (ask : D → A → Res (D × X)) (d : D) (l : List A) (i : Nat) :
    session ask d (l.take i) = (session ask d l).take i := by
  induction l generalizing d i with
  | nil => simp [session]
  | cons a l ih =>
    cases i with
    | zero => simp [session]
    | succ i =>
      simp only [List.take_succ_cons, session]
      cases ask d a with
      | error e => simp
      | ok x => simp [ih]

theorem repeatsEarlier {terms : S → List R} {inserted : A → List R}
    {ask : D → A → Res (D × Reply S R)} {d : D}
    (h : ∀ l, Repeats terms (session ask d l) (l.flatMap inserted)) (l : List A) :
    RepeatsEarlier terms (session ask d l) (fun i => (l.take (i + 1)).flatMap inserted) := by
  intro i a ha
  refine h (l.take (i + 1)) a ?_
  rw [session_take]
  refine List.mem_of_getElem? (i := i) ?_
  rw [List.getElem?_take_of_lt (by omega), ha]

end RdfTypes.Proof.Related
