import Verif.Proof.Pattern
import Verif.Model.PatternMatching

/-!
# Runs on related terms

Two containers over different types of terms, when called with related terms, take the same way
and return related terms. `V` relates the terms that are stored and `W` the terms that are only
looked for; the comparison of a stored term with another term is the same on both sides.
-/

set_option linter.unusedSectionVars false

namespace RdfTypes.Proof.Related

variable {α β γ δ : Type}

/-! ## Results, options and lists -/

/-- Both panic in the same way, or both return and the values are related. -/
def ResRel (V : α → β → Prop) : Res α → Res β → Prop
  | .ok a, .ok b => V a b
  | .error e, .error e' => e = e'
  | _, _ => False

theorem ResRel.pure {V : α → β → Prop} {a : α} {b : β} (h : V a b) :
    ResRel V (pure a) (Pure.pure b) := h

theorem ResRel.bind {V : α → β → Prop} {W : γ → δ → Prop} {x : Res α} {y : Res β}
    {f : α → Res γ} {g : β → Res δ} (h : ResRel V x y) (hf : ∀ a b, V a b → ResRel W (f a) (g b)) :
    ResRel W (x >>= f) (y >>= g) := by
  cases x <;> cases y
  · exact h
  · exact h.elim
  · exact h.elim
  · exact hf _ _ h

theorem ResRel.mono {V W : α → β → Prop} {x : Res α} {y : Res β} (h : ResRel V x y)
    (hv : ∀ a b, V a b → W a b) : ResRel W x y := by
  cases x <;> cases y
  · exact h
  · exact h.elim
  · exact h.elim
  · exact hv _ _ h

theorem ResRel.of_eq {x y : Res α} (h : x = y) : ResRel Eq x y := by
  subst h
  cases x <;> rfl

theorem ResRel.eq {x y : Res α} (h : ResRel Eq x y) : x = y := by
  cases x <;> cases y
  · exact congrArg Except.error h
  · exact h.elim
  · exact h.elim
  · exact congrArg Except.ok h

/-- Both are absent, or both present and related. -/
def OptRel (V : α → β → Prop) : Option α → Option β → Prop
  | some a, some b => V a b
  | none, none => True
  | _, _ => False

/-- The lists are related item by item. -/
inductive Each (V : α → β → Prop) : List α → List β → Prop
  | nil : Each V [] []
  | cons {a : α} {b : β} {l : List α} {l' : List β} : V a b → Each V l l' → Each V (a :: l) (b :: l')

theorem Each.append {V : α → β → Prop} {l₁ l₂ : List α} {l₁' l₂' : List β} (h : Each V l₁ l₁')
    (h' : Each V l₂ l₂') : Each V (l₁ ++ l₂) (l₁' ++ l₂') := by
  induction h with
  | nil => exact h'
  | cons h _ ih => exact .cons h ih

theorem Each.map {V : α → β → Prop} {W : γ → δ → Prop} {f : α → γ} {g : β → δ} {l : List α}
    {l' : List β} (h : Each V l l') (hf : ∀ a b, V a b → W (f a) (g b)) :
    Each W (l.map f) (l'.map g) := by
  induction h with
  | nil => exact .nil
  | cons h _ ih => exact .cons (hf _ _ h) ih

theorem Each.mono {V W : α → β → Prop} {l : List α} {l' : List β} (h : Each V l l')
    (hv : ∀ a b, V a b → W a b) : Each W l l' := by
  induction h with
  | nil => exact .nil
  | cons h _ ih => exact .cons (hv _ _ h) ih

theorem Each.length {V : α → β → Prop} {l : List α} {l' : List β} (h : Each V l l') :
    l'.length = l.length := by
  induction h with
  | nil => rfl
  | cons _ _ ih => simp [ih]

theorem each_self {V : α → α → Prop} {l : List α} (h : ∀ a ∈ l, V a a) : Each V l l := by
  induction l with
  | nil => exact .nil
  | cons a l ih => exact .cons (h a (by simp)) (ih (fun b hb => h b (by simp [hb])))

theorem each_map {V : α → β → Prop} (f : α → β) (h : ∀ a, V a (f a)) (l : List α) :
    Each V l (l.map f) := by
  induction l with
  | nil => exact .nil
  | cons a l ih => exact .cons (h a) ih

/-- Items on the left keep what the relation says of them. -/
theorem Each.left {V : α → β → Prop} {l : List α} {l' : List β} (h : Each V l l') :
    ∀ a ∈ l, ∃ b ∈ l', V a b := by
  induction h with
  | nil => simp
  | cons h _ ih =>
    intro a ha
    rcases List.mem_cons.1 ha with rfl | ha
    · exact ⟨_, by simp, h⟩
    · obtain ⟨b, hb, hv⟩ := ih a ha
      exact ⟨b, by simp [hb], hv⟩

theorem mapM_rel {V : γ → δ → Prop} {f : α → Res γ} {g : α → Res δ} (h : ∀ i, ResRel V (f i) (g i))
    (l : List α) : ResRel (Each V) (l.mapM f) (l.mapM g) := by
  induction l with
  | nil => exact .nil
  | cons i l ih =>
    rw [List.mapM_cons, List.mapM_cons]
    exact (h i).bind fun a b hab => ih.bind fun l l' hl => ResRel.pure (.cons hab hl)

/-! ## Slabs -/

/-- The same slots are vacant, in the same order, and the others hold related items. -/
structure SlabRel (V : α → β → Prop) (s : Slab α) (s' : Slab β) : Prop where
  length : s'.entries.length = s.entries.length
  free : s'.free = s.free
  get : ∀ k, OptRel V (s.get k) (s'.get k)

theorem slab_empty (V : α → β → Prop) : SlabRel V Slab.empty Slab.empty :=
  ⟨rfl, rfl, fun k => by simp [Slab.empty, Slab.get, OptRel]⟩

variable {V : α → β → Prop} {s : Slab α} {s' : Slab β}

theorem SlabRel.index (h : SlabRel V s s') (k : Nat) : ResRel V (s.index k) (s'.index k) := by
  have := h.get k
  unfold Slab.index
  cases hk : s.get k <;> cases hk' : s'.get k <;> simp_all [OptRel, ResRel]

theorem SlabRel.vacantKey (h : SlabRel V s s') : s'.vacantKey = s.vacantKey := by
  simp [Slab.vacantKey, h.free, h.length]

theorem optRel_join_set {e : List (Option α)} {e' : List (Option β)} {o : Option α} {o' : Option β}
    (hl : e'.length = e.length) (h : ∀ k : Nat, OptRel V (e[k]?).join (e'[k]?).join) (ho : OptRel V o o')
    (i k : Nat) : OptRel V ((e.set i o)[k]?).join ((e'.set i o')[k]?).join := by
  rw [List.getElem?_set, List.getElem?_set]
  split
  · rw [hl]
    split
    · exact ho
    · trivial
  · exact h k

theorem SlabRel.insert (h : SlabRel V s s') {a : α} {b : β} (hab : V a b) :
    SlabRel V (s.insert a) (s'.insert b) := by
  unfold Slab.insert
  rw [h.free]
  split
  · refine ⟨by simp [h.length], rfl, fun k => ?_⟩
    unfold Slab.get
    have hk := h.get k
    unfold Slab.get at hk
    simp only [List.getElem?_append, h.length]
    split
    · exact hk
    · cases hm : k - s.entries.length <;> simp [OptRel, hab]
  · refine ⟨by simp [h.length], rfl, fun k => ?_⟩
    exact optRel_join_set h.length h.get (by exact hab) _ k

theorem SlabRel.remove (h : SlabRel V s s') (k : Nat) :
    ResRel (fun x y => SlabRel V x.1 y.1 ∧ V x.2 y.2) (s.remove k) (s'.remove k) := by
  have hk := h.get k
  unfold Slab.remove
  cases hs : s.get k <;> cases hs' : s'.get k <;> simp only [hs, hs', OptRel] at hk
  · exact rfl
  · refine ⟨⟨by simp [h.length], by simp [h.free], fun j => ?_⟩, hk⟩
    exact optRel_join_set h.length h.get (by trivial) _ j

theorem SlabRel.modify (h : SlabRel V s s') (k : Nat) {f : α → Res α} {g : β → Res β}
    (hf : ∀ a b, V a b → ResRel V (f a) (g b)) :
    ResRel (SlabRel V) (s.modify k f) (s'.modify k g) := by
  unfold Slab.modify
  refine (h.index k).bind fun a b hab => (hf a b hab).bind fun a' b' hab' => ?_
  refine ResRel.pure ⟨by simp [h.length], h.free, fun j => ?_⟩
  exact optRel_join_set h.length h.get (by exact hab') _ j

theorem SlabRel.len (h : SlabRel V s s') : s'.len = s.len := by
  unfold Slab.len
  have hg := h.get
  have hl := h.length
  unfold Slab.get at hg
  generalize s.entries = e at hg hl
  generalize s'.entries = e' at hg hl
  clear h
  induction e generalizing e' with
  | nil => 
    cases e' with
    | nil => rfl
    | cons => simp at hl
  | cons o e ih =>
    cases e' with
    | nil => simp at hl
    | cons o' e' =>
      have h0 := hg 0
      have ht := ih e' (fun k => by simpa using hg (k + 1)) (by simpa using hl)
      simp only [List.getElem?_cons_zero] at h0
      cases o <;> cases o' <;> simp_all [OptRel]

/-- A slab of numbers is related to itself only. -/
theorem slabRel_self {W : α → α → Prop} (h : ∀ a, W a a) (s : Slab α) : SlabRel W s s :=
  ⟨rfl, rfl, fun k => by cases s.get k <;> simp [OptRel, h]⟩

theorem each_entries (hl : s'.entries.length = s.entries.length)
    (h : ∀ k, OptRel V (s.get k) (s'.get k)) : Each (OptRel V) s.entries s'.entries := by
  unfold Slab.get at h
  generalize s.entries = e at h hl
  generalize s'.entries = e' at h hl
  induction e generalizing e' with
  | nil =>
    cases e' with
    | nil => exact .nil
    | cons => simp at hl
  | cons o e ih =>
    cases e' with
    | nil => simp at hl
    | cons o' e' =>
      refine .cons ?_ (ih e' (fun k => by simpa using h (k + 1)) (by simpa using hl))
      simpa using h 0

theorem each_reverse {l : List α} {l' : List β} (h : Each V l l') : Each V l.reverse l'.reverse := by
  induction h with
  | nil => exact .nil
  | cons h _ ih =>
    rw [List.reverse_cons, List.reverse_cons]
    exact ih.append (.cons h .nil)

theorem each_dropWhile {p : α → Bool} {q : β → Bool} (hpq : ∀ a b, V a b → q b = p a) {l : List α}
    {l' : List β} (h : Each V l l') : Each V (l.dropWhile p) (l'.dropWhile q) := by
  induction h with
  | nil => exact .nil
  | cons h ht ih =>
    simp only [List.dropWhile_cons, hpq _ _ h]
    split
    · exact ih
    · exact .cons h ht

theorem each_getElem? {W : α → β → Prop} {l : List (Option α)} {l' : List (Option β)}
    (h : Each (OptRel W) l l') (k : Nat) : OptRel W (l[k]?).join (l'[k]?).join := by
  induction h generalizing k with
  | nil => simp [OptRel]
  | cons h _ ih =>
    cases k with
    | zero => simpa using h
    | succ k => simpa using ih k

theorem isNone_of_optRel {o : Option α} {o' : Option β} (h : OptRel V o o') :
    o'.isNone = o.isNone := by
  cases o <;> cases o' <;> simp_all [OptRel]

theorem SlabRel.mapCollect (h : SlabRel V s s') {W : γ → δ → Prop} {f : α → γ} {g : β → δ}
    (hf : ∀ a b, V a b → W (f a) (g b)) : SlabRel W (s.mapCollect f) (s'.mapCollect g) := by
  have e0 := each_entries h.length h.get
  have e1 : Each (OptRel W) (s.entries.map (Option.map f)) (s'.entries.map (Option.map g)) :=
    e0.map fun o o' ho => by
      cases o <;> cases o' <;> simp_all [OptRel]
  have e2 : Each (OptRel W) (Slab.trim (s.entries.map (Option.map f)))
      (Slab.trim (s'.entries.map (Option.map g))) :=
    each_reverse (each_dropWhile (fun _ _ h => isNone_of_optRel h) (each_reverse e1))
  refine ⟨e2.length, ?_, fun k => each_getElem? e2 k⟩
  unfold Slab.mapCollect
  simp only [e2.length]
  congr 1
  refine List.filter_congr fun k _ => ?_
  exact isNone_of_optRel (each_getElem? e2 k)

/-! ## Statements -/

variable {R Q : Type}

/-- The quads are related at each position. -/
def QuadRel (V : R → Q → Prop) (x : Quad R) (y : Quad Q) : Prop :=
  V x.s y.s ∧ V x.p y.p ∧ V x.o y.o ∧ OptRel V x.g y.g

/-- The triples are related at each position. -/
def TripleRel (V : R → Q → Prop) (x : Triple R) (y : Triple Q) : Prop :=
  V x.s y.s ∧ V x.p y.p ∧ V x.o y.o

theorem optRel_mono {V W : α → β → Prop} (hv : ∀ a b, V a b → W a b) {o : Option α} {o' : Option β}
    (h : OptRel V o o') : OptRel W o o' := by
  cases o <;> cases o' <;> simp_all [OptRel]

variable [Ord R] [Ord Q]

/-- The comparison of a stored term with another term is the same on both sides. -/
structure Compat (V W : R → Q → Prop) : Prop where
  query : ∀ a a' b b', V a a' → W b b' → compare a' b' = compare a b
  stored : ∀ a a', V a a' → W a a'

variable {V W : R → Q → Prop}

theorem Compat.pair (h : Compat V W) {a b : R} {a' b' : Q} (ha : V a a') (hb : V b b') :
    compare a' b' = compare a b := h.query _ _ _ _ ha (h.stored _ _ hb)

theorem Compat.same (h : Compat V W) : Compat V V :=
  ⟨fun _ _ _ _ ha hb => h.pair ha hb, fun _ _ h => h⟩

theorem Compat.quad (h : Compat V W) {x y : Quad R} {x' y' : Quad Q} (hx : QuadRel V x x')
    (hy : QuadRel W y y') : compare x' y' = compare x y := by
  obtain ⟨h1, h2, h3, h4⟩ := hx
  obtain ⟨k1, k2, k3, k4⟩ := hy
  simp only [Quad.compare_def, h.query _ _ _ _ h1 k1, h.query _ _ _ _ h2 k2,
    h.query _ _ _ _ h3 k3]
  have : compare x'.g y'.g = compare x.g y.g := by
    cases hg : x.g <;> cases hg' : x'.g <;> cases hk : y.g <;> cases hk' : y'.g <;>
      simp only [hg, hg', hk, hk', OptRel] at h4 k4 <;> first | rfl | exact h.query _ _ _ _ h4 k4
  rw [this]

theorem Compat.triple (h : Compat V W) {x y : Triple R} {x' y' : Triple Q} (hx : TripleRel V x x')
    (hy : TripleRel W y y') : compare x' y' = compare x y := by
  obtain ⟨h1, h2, h3⟩ := hx
  obtain ⟨k1, k2, k3⟩ := hy
  simp only [Triple.compare_def, h.query _ _ _ _ h1 k1, h.query _ _ _ _ h2 k2,
    h.query _ _ _ _ h3 k3]

theorem Compat.quad_stored (h : Compat V W) {x : Quad R} {x' : Quad Q} (hx : QuadRel V x x') :
    QuadRel W x x' :=
  ⟨h.stored _ _ hx.1, h.stored _ _ hx.2.1, h.stored _ _ hx.2.2.1, optRel_mono h.stored hx.2.2.2⟩

theorem Compat.triple_stored (h : Compat V W) {x : Triple R} {x' : Triple Q}
    (hx : TripleRel V x x') : TripleRel W x x' :=
  ⟨h.stored _ _ hx.1, h.stored _ _ hx.2.1, h.stored _ _ hx.2.2⟩

/-! ## Resource tables -/

variable {ρ ρ' : Type}

/-- Records whose operations respect the relation `T` of records. -/
structure OpsRel (ops : ResOps R ρ) (ops' : ResOps Q ρ') (V : R → Q → Prop) (T : ρ → ρ' → Prop) :
    Prop where
  value : ∀ x x', T x x' → V (ops.value x) (ops'.value x')
  create : ∀ r r' p k, V r r' → T (ops.create r p k) (ops'.create r' p k)
  add : ∀ p k x x', T x x' → ResRel T (ops.add p k x) (ops'.add p k x')
  del : ∀ p k x x', T x x' → ResRel T (ops.del p k x) (ops'.del p k x')
  isEmpty : ∀ x x', T x x' → ops'.isEmpty x' = ops.isEmpty x

section tables

variable {ops : ResOps R ρ} {ops' : ResOps Q ρ'} {T : ρ → ρ' → Prop} {res : Slab ρ} {res' : Slab ρ'}
  (hc : Compat V W) (ho : OpsRel ops ops' V T) (hr : SlabRel T res res')

include ho hr

theorem resourceCmp_eq (hc : Compat V W) {r : R} {r' : Q} (hq : W r r') :
    ops'.resourceCmp res' r' = ops.resourceCmp res r := by
  funext i
  refine (ResRel.eq ?_).symm
  exact (hr.index i).bind fun x x' hx =>
    ResRel.pure (hc.query _ _ _ _ (ho.value _ _ hx) hq).symm

theorem resourceIndexCmp_eq (hc : Compat V W) (j : Nat) :
    ops'.resourceIndexCmp res' j = ops.resourceIndexCmp res j := by
  funext i
  refine (ResRel.eq ?_).symm
  exact (hr.index i).bind fun x x' hx => (hr.index j).bind fun y y' hy =>
    ResRel.pure (hc.pair (ho.value _ _ hx) (ho.value _ _ hy)).symm

theorem indexOfResource_eq (hc : Compat V W) (idx : Index) {r : R} {r' : Q} (hq : W r r') :
    ops'.indexOfResource res' idx r' = ops.indexOfResource res idx r := by
  unfold ResOps.indexOfResource
  rw [resourceCmp_eq ho hr hc hq]

theorem acquire_rel (hc : Compat V W) (rep : Bool) (idx : Index) (pos : Pos) (k : Nat) {r : R}
    {r' : Q} (hv : V r r') (found : Option Nat) :
    ResRel (fun x y => SlabRel T x.1 y.1 ∧ x.2 = y.2) (ops.acquire rep res idx pos k r found)
      (ops'.acquire rep res' idx pos k r' found) := by
  cases found with
  | some i =>
    exact (hr.modify i (ho.add pos k)).bind fun a b hab => ResRel.pure ⟨hab, rfl⟩
  | none =>
    have hi := hr.insert (ho.create r r' pos k hv)
    simp only [ResOps.acquire]
    rw [hr.vacantKey, resourceIndexCmp_eq ho hi hc]
    refine (ResRel.of_eq rfl).bind fun a b hab => ResRel.pure ⟨hi, by subst hab; rfl⟩

theorem release_rel (idx : Index) (pos : Pos) (k i : Nat) {cmp : Slab ρ → Nat → Res Ordering}
    {cmp' : Slab ρ' → Nat → Res Ordering}
    (hcmp : ∀ res res', SlabRel T res res' → cmp' res' = cmp res) :
    ResRel (fun x y => SlabRel T x.1 y.1 ∧ x.2 = y.2) (ops.release res idx pos k i cmp)
      (ops'.release res' idx pos k i cmp') := by
  unfold ResOps.release
  refine (hr.modify i (ho.del pos k)).bind fun res₁ res₁' h₁ => ?_
  refine (h₁.index i).bind fun x x' hx => ?_
  rw [ho.isEmpty _ _ hx]
  split
  · rw [hcmp _ _ h₁]
    refine (ResRel.of_eq rfl).bind fun a b hab => ?_
    subst hab
    exact (h₁.remove i).bind fun a b hab => ResRel.pure ⟨hab.1, rfl⟩
  · exact ResRel.pure ⟨h₁, rfl⟩

theorem acquireQuad_rel (hc : Compat V W) (rep : Bool) (idx : Index) (k : Nat) {q : Quad R}
    {q' : Quad Q} (hq : QuadRel V q q') :
    ResRel (fun x y => SlabRel T x.1 y.1 ∧ x.2 = y.2) (ops.acquireQuad rep res idx k q)
      (ops'.acquireQuad rep res' idx k q') := by
  obtain ⟨h1, h2, h3, h4⟩ := hq
  obtain ⟨s, p, o, g⟩ := q
  obtain ⟨s', p', o', g'⟩ := q'
  have hW := hc.stored
  unfold ResOps.acquireQuad
  dsimp only at h1 h2 h3 h4 ⊢
  rw [indexOfResource_eq ho hr hc idx (hW _ _ h1), indexOfResource_eq ho hr hc idx (hW _ _ h2),
    indexOfResource_eq ho hr hc idx (hW _ _ h3)]
  refine (ResRel.of_eq rfl).bind fun sf sf' e => ?_
  subst e
  refine (ResRel.of_eq rfl).bind fun pf pf' e => ?_
  subst e
  refine (ResRel.of_eq rfl).bind fun of of' e => ?_
  subst e
  cases g <;> cases g' <;> simp only [OptRel] at h4
  · refine (ResRel.of_eq rfl).bind fun gf gf' e => ?_
    refine (acquire_rel ho hr hc rep idx .subj k h1 sf).bind fun a b hab => ?_
    obtain ⟨res₁, idx₁, i₁⟩ := a
    obtain ⟨res₁', idx₁', i₁'⟩ := b
    obtain ⟨hr₁, e₁⟩ := hab
    cases e₁
    refine (acquire_rel ho hr₁ hc rep idx₁ .pred k h2 pf).bind fun a b hab => ?_
    obtain ⟨res₂, idx₂, i₂⟩ := a
    obtain ⟨res₂', idx₂', i₂'⟩ := b
    obtain ⟨hr₂, e₂⟩ := hab
    cases e₂
    refine (acquire_rel ho hr₂ hc rep idx₂ .obj k h3 of).bind fun a b hab => ?_
    obtain ⟨res₃, idx₃, i₃⟩ := a
    obtain ⟨res₃', idx₃', i₃'⟩ := b
    obtain ⟨hr₃, e₃⟩ := hab
    cases e₃
    exact ResRel.pure ⟨hr₃, rfl⟩
  · dsimp only
    rw [indexOfResource_eq ho hr hc idx (hW _ _ h4)]
    refine (ResRel.of_eq rfl).bind fun gf gf' e => ?_
    subst e
    refine (acquire_rel ho hr hc rep idx .subj k h1 sf).bind fun a b hab => ?_
    obtain ⟨res₁, idx₁, i₁⟩ := a
    obtain ⟨res₁', idx₁', i₁'⟩ := b
    obtain ⟨hr₁, e₁⟩ := hab
    cases e₁
    refine (acquire_rel ho hr₁ hc rep idx₁ .pred k h2 pf).bind fun a b hab => ?_
    obtain ⟨res₂, idx₂, i₂⟩ := a
    obtain ⟨res₂', idx₂', i₂'⟩ := b
    obtain ⟨hr₂, e₂⟩ := hab
    cases e₂
    refine (acquire_rel ho hr₂ hc rep idx₂ .obj k h3 of).bind fun a b hab => ?_
    obtain ⟨res₃, idx₃, i₃⟩ := a
    obtain ⟨res₃', idx₃', i₃'⟩ := b
    obtain ⟨hr₃, e₃⟩ := hab
    cases e₃
    refine (acquire_rel ho hr₃ hc rep idx₃ .graph k h4 gf).bind fun a b hab => ?_
    obtain ⟨res₄, idx₄, i₄⟩ := a
    obtain ⟨res₄', idx₄', i₄'⟩ := b
    obtain ⟨hr₄, e₄⟩ := hab
    cases e₄
    exact ResRel.pure ⟨hr₄, rfl⟩

theorem acquireTriple_rel (hc : Compat V W) (rep : Bool) (idx : Index) (k : Nat) {t : Triple R}
    {t' : Triple Q} (ht : TripleRel V t t') :
    ResRel (fun x y => SlabRel T x.1 y.1 ∧ x.2 = y.2) (ops.acquireTriple rep res idx k t)
      (ops'.acquireTriple rep res' idx k t') := by
  obtain ⟨h1, h2, h3⟩ := ht
  have hW := hc.stored
  unfold ResOps.acquireTriple
  rw [indexOfResource_eq ho hr hc idx (hW _ _ h1), indexOfResource_eq ho hr hc idx (hW _ _ h2),
    indexOfResource_eq ho hr hc idx (hW _ _ h3)]
  refine (ResRel.of_eq rfl).bind fun sf sf' e => ?_
  subst e
  refine (ResRel.of_eq rfl).bind fun pf pf' e => ?_
  subst e
  refine (ResRel.of_eq rfl).bind fun of of' e => ?_
  subst e
  refine (acquire_rel ho hr hc rep idx .subj k h1 sf).bind fun a b hab => ?_
  obtain ⟨res₁, idx₁, i₁⟩ := a
  obtain ⟨res₁', idx₁', i₁'⟩ := b
  obtain ⟨hr₁, e₁⟩ := hab
  cases e₁
  refine (acquire_rel ho hr₁ hc rep idx₁ .pred k h2 pf).bind fun a b hab => ?_
  obtain ⟨res₂, idx₂, i₂⟩ := a
  obtain ⟨res₂', idx₂', i₂'⟩ := b
  obtain ⟨hr₂, e₂⟩ := hab
  cases e₂
  refine (acquire_rel ho hr₂ hc rep idx₂ .obj k h3 of).bind fun a b hab => ?_
  obtain ⟨res₃, idx₃, i₃⟩ := a
  obtain ⟨res₃', idx₃', i₃'⟩ := b
  obtain ⟨hr₃, e₃⟩ := hab
  cases e₃
  exact ResRel.pure ⟨hr₃, rfl⟩

theorem quadWithResources_rel (q : Quad Nat) :
    ResRel (QuadRel V) (ops.quadWithResources res q) (ops'.quadWithResources res' q) := by
  unfold ResOps.quadWithResources
  refine (hr.index _).bind fun a a' ha => (hr.index _).bind fun b b' hb =>
    (hr.index _).bind fun c c' hc => ?_
  cases q.g with
  | none => exact ResRel.pure ⟨ho.value _ _ ha, ho.value _ _ hb, ho.value _ _ hc, trivial⟩
  | some g =>
    exact (hr.index g).bind fun d d' hd => ResRel.pure
      ⟨ho.value _ _ ha, ho.value _ _ hb, ho.value _ _ hc, ho.value _ _ hd⟩

theorem readQuad_rel (quads : Slab (Quad Nat)) (i : Nat) :
    ResRel (QuadRel V) (ops.readQuad res quads i) (ops'.readQuad res' quads i) := by
  unfold ResOps.readQuad
  refine (ResRel.of_eq rfl).bind fun q q' e => ?_
  subst e
  exact quadWithResources_rel ho hr q

theorem quadCmp_eq (hc : Compat V W) (quads : Slab (Quad Nat)) {q : Quad R} {q' : Quad Q}
    (hq : QuadRel W q q') : ops'.quadCmp res' quads q' = ops.quadCmp res quads q := by
  funext i
  refine (ResRel.eq ?_).symm
  exact (readQuad_rel ho hr quads i).bind fun x x' hx => ResRel.pure (hc.quad hx hq).symm

theorem quadIndexCmp_eq (hc : Compat V W) (quads : Slab (Quad Nat)) (j : Nat) :
    ops'.quadIndexCmp res' quads j = ops.quadIndexCmp res quads j := by
  funext i
  refine (ResRel.eq ?_).symm
  exact (readQuad_rel ho hr quads i).bind fun x x' hx => (readQuad_rel ho hr quads j).bind
    fun y y' hy => ResRel.pure (hc.same.quad hx hy).symm

theorem tripleWithResources_rel (t : Triple Nat) :
    ResRel (TripleRel V) (ops.tripleWithResources res t) (ops'.tripleWithResources res' t) := by
  unfold ResOps.tripleWithResources
  exact (hr.index _).bind fun a a' ha => (hr.index _).bind fun b b' hb =>
    (hr.index _).bind fun c c' hc => ResRel.pure
      ⟨ho.value _ _ ha, ho.value _ _ hb, ho.value _ _ hc⟩

theorem readTriple_rel (triples : Slab (Triple Nat)) (i : Nat) :
    ResRel (TripleRel V) (ops.readTriple res triples i) (ops'.readTriple res' triples i) := by
  unfold ResOps.readTriple
  refine (ResRel.of_eq rfl).bind fun q q' e => ?_
  subst e
  exact tripleWithResources_rel ho hr q

theorem tripleCmp_eq (hc : Compat V W) (triples : Slab (Triple Nat)) {t : Triple R} {t' : Triple Q}
    (ht : TripleRel W t t') : ops'.tripleCmp res' triples t' = ops.tripleCmp res triples t := by
  funext i
  refine (ResRel.eq ?_).symm
  exact (readTriple_rel ho hr triples i).bind fun x x' hx => ResRel.pure (hc.triple hx ht).symm

theorem tripleIndexCmp_eq (hc : Compat V W) (triples : Slab (Triple Nat)) (j : Nat) :
    ops'.tripleIndexCmp res' triples j = ops.tripleIndexCmp res triples j := by
  funext i
  refine (ResRel.eq ?_).symm
  exact (readTriple_rel ho hr triples i).bind fun x x' hx => (readTriple_rel ho hr triples j).bind
    fun y y' hy => ResRel.pure (hc.same.triple hx hy).symm

theorem readResources_rel (idx : Index) :
    ResRel (Each V) (ops.readResources res idx) (ops'.readResources res' idx) :=
  mapM_rel (fun i => (hr.index i).bind fun _ _ hx => ResRel.pure (ho.value _ _ hx)) idx

theorem drainQuads_rel (quads : Slab (Quad Nat)) (idx : Index) :
    ResRel (Each (QuadRel V)) (ops.drainQuads res quads idx) (ops'.drainQuads res' quads idx) := by
  induction idx generalizing quads with
  | nil => exact Each.nil
  | cons i l ih =>
    refine (ResRel.of_eq rfl).bind fun a b e => ?_
    subst e
    exact (quadWithResources_rel ho hr a.2).bind fun x y hxy => (ih a.1).bind fun l l' hl =>
      ResRel.pure (.cons hxy hl)

theorem drainTriples_rel (triples : Slab (Triple Nat)) (idx : Index) :
    ResRel (Each (TripleRel V)) (ops.drainTriples res triples idx)
      (ops'.drainTriples res' triples idx) := by
  induction idx generalizing triples with
  | nil => exact Each.nil
  | cons i l ih =>
    refine (ResRel.of_eq rfl).bind fun a b e => ?_
    subst e
    exact (tripleWithResources_rel ho hr a.2).bind fun x y hxy => (ih a.1).bind fun l l' hl =>
      ResRel.pure (.cons hxy hl)

end tables

end RdfTypes.Proof.Related
