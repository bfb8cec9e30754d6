import Verif.Proof.Frames
import Verif.Spec.Nameless

/-!
# The comparisons of the search, for resources
-/

set_option linter.unusedSectionVars false

namespace RdfTypes.Nameless

open Spec Isomorphism Frames

variable {R I L : Type} [DecidableEq R] [DecidableEq I] [DecidableEq L]
  {i : ReverseInterpretation R I L}

theorem isAnonymous_iff (r : R) : i.isAnonymous r = true ↔ nameless i r = true := by
  unfold ReverseInterpretation.isAnonymous ReverseInterpretation.termsOf nameless
  cases i.irisOf r <;> cases i.literalsOf r <;> simp

theorem occurs_iff {ds : List (Quad R)} {r : R} : Occurs i ds r ↔ NamelessIn i ds r := by
  unfold Occurs NamelessIn
  rw [isAnonymous_iff]

theorem not_shares_of_nameless {r r' : R} (h : nameless i r = true) : ¬ SharesTerm i r r' := by
  unfold nameless at h
  rw [Bool.and_eq_true, List.isEmpty_iff, List.isEmpty_iff] at h
  rintro (⟨x, hx, -⟩ | ⟨x, hx, -⟩)
  · simp [h.1] at hx
  · simp [h.2] at hx

theorem shares_symm {r r' : R} (h : SharesTerm i r r') : SharesTerm i r' r := by
  rcases h with ⟨x, h1, h2⟩ | ⟨x, h1, h2⟩
  · exact Or.inl ⟨x, h2, h1⟩
  · exact Or.inr ⟨x, h2, h1⟩

theorem shares_self {r : R} (h : nameless i r ≠ true) : SharesTerm i r r := by
  unfold nameless at h
  rw [Ne, Bool.and_eq_true, List.isEmpty_iff, List.isEmpty_iff] at h
  by_cases h1 : i.irisOf r = []
  · obtain ⟨x, hx⟩ := List.exists_mem_of_ne_nil _ fun e => h ⟨h1, e⟩
    exact Or.inr ⟨x, hx, hx⟩
  · obtain ⟨x, hx⟩ := List.exists_mem_of_ne_nil _ h1
    exact Or.inl ⟨x, hx, hx⟩

/-- The resources that share a term with one. -/
def class_ (i : ReverseInterpretation R I L) (r : R) : Option (R → Prop) :=
  if nameless i r then none else some (SharesTerm i r)

theorem class_eq (h : NamesAgree i) (r r' : R) : class_ i r = class_ i r' ↔ Alike i r r' := by
  unfold class_ Alike
  by_cases h1 : nameless i r = true <;> by_cases h2 : nameless i r' = true
  · simp [h1, h2]
  · simp [h1, h2, not_shares_of_nameless h1]
  · have : ¬ SharesTerm i r r' := fun h => not_shares_of_nameless h2 (shares_symm h)
    simp [h1, h2, this]
  · simp only [h1, h2, Bool.false_eq_true, if_false, Option.some.injEq, false_and, or_false]
    constructor
    · intro e
      rw [e]
      exact shares_self h2
    · intro e
      funext x
      exact propext ⟨fun hx => h _ _ _ (shares_symm e) hx, fun hx => h _ _ _ e hx⟩

theorem kinds (h : NamesAgree i) : Kinds i (class_ i) where
  anonymous r := by
    rw [isAnonymous_iff]
    unfold class_
    split <;> simp [*]
  same r r' := by
    have e : ((i.irisOf r).any (fun x => (i.irisOf r').any (fun y => x = y)) ||
        (i.literalsOf r).any (fun x => (i.literalsOf r').any (fun y => x = y))) = true ↔
        SharesTerm i r r' := by
      simp [SharesTerm]
    rw [e, class_eq h]
    unfold Alike class_
    constructor
    · intro hs
      refine ⟨Or.inl hs, ?_⟩
      rw [if_neg fun hn => not_shares_of_nameless hn hs]
      simp
    · rintro ⟨hs | hs, hn⟩
      · exact hs
      · simp [hs.1] at hn

/-! ## Frames -/

/-- What is left of a resource when everything but the nameless ones is erased. -/
def bare (i : ReverseInterpretation R I L) (r : R) : Option R := if nameless i r then some r else none

theorem bare_eq_some {r r' : R} : bare i r = some r' ↔ r = r' ∧ nameless i r' = true := by
  unfold bare
  by_cases h : nameless i r = true
  · rw [if_pos h, Option.some.injEq]
    constructor
    · rintro rfl
      exact ⟨rfl, h⟩
    · exact fun h => h.1
  · rw [if_neg h]
    constructor
    · intro h
      cases h
    · rintro ⟨rfl, h'⟩
      exact absurd h' h

theorem mem_bare {q : Quad R} {r : R} :
    some r ∈ positions (q.map (bare i)) ↔ r ∈ positions q ∧ nameless i r = true := by
  rw [Frames.positions_map, List.mem_map]
  constructor
  · rintro ⟨x, hx, e⟩
    obtain ⟨rfl, h⟩ := bare_eq_some.1 e
    exact ⟨hx, h⟩
  · exact fun h => ⟨_, h.1, bare_eq_some.2 ⟨rfl, h.2⟩⟩

theorem mem_frames {ds : List (Quad R)} {φ : Quad (Option R)} :
    φ ∈ namelessFrames i ds ↔ (∃ q ∈ ds, q.map (bare i) = φ) ∧ ∃ d, some d ∈ positions φ := by
  unfold namelessFrames
  rw [List.mem_filter, List.mem_map, List.any_eq_true]
  refine and_congr Iff.rfl ⟨?_, ?_⟩
  · rintro ⟨x, hx, h⟩
    obtain ⟨d, rfl⟩ := Option.isSome_iff_exists.1 h
    exact ⟨d, hx⟩
  · rintro ⟨d, hd⟩
    exact ⟨_, hd, rfl⟩

theorem namelessIn_frames {ds : List (Quad R)} {r : R} :
    NamelessIn i ds r ↔ ∃ φ ∈ namelessFrames i ds, some r ∈ positions φ := by
  constructor
  · rintro ⟨h, q, hq, hr⟩
    have := mem_bare.2 ⟨hr, h⟩
    exact ⟨_, mem_frames.2 ⟨⟨q, hq, rfl⟩, r, this⟩, this⟩
  · rintro ⟨φ, hφ, hr⟩
    obtain ⟨⟨q, hq, rfl⟩, -⟩ := mem_frames.1 hφ
    obtain ⟨h1, h2⟩ := mem_bare.1 hr
    exact ⟨h2, q, hq, h1⟩

theorem flatMap_frames {A : Type} (k : Quad (Option R) → List A)
    (hk : ∀ φ, (∀ d, some d ∉ positions φ) → k φ = []) :
    ∀ ds : List (Quad R), (namelessFrames i ds).flatMap k = ds.flatMap fun q => k (q.map (bare i))
  | [] => rfl
  | q :: ds => by
    have ih := flatMap_frames k hk ds
    unfold namelessFrames at ih ⊢
    rw [List.map_cons, List.filter_cons, List.flatMap_cons, ← ih]
    split
    · rfl
    · rename_i h
      have : k (q.map (bare i)) = [] := by
        refine hk _ fun d hd => ?_
        exact h (List.any_eq_true.2 ⟨_, hd, rfl⟩)
      rw [this, List.nil_append]

theorem quadsAround_eq {ds : List (Quad R)} {r : R} (hr : nameless i r = true) :
    sigOf i ds r = quadsAround ds r := by
  unfold sigOf quadsAround
  congr 1
  funext q
  have : (blanksOf i q).filter (· = r) = (positions q).filter (· = r) := by
    unfold blanksOf
    rw [List.filter_filter]
    refine List.filter_congr fun x _ => ?_
    by_cases e : x = r
    · rw [e, (isAnonymous_iff r).2 hr]
      simp
    · simp [e]
  rw [this]

/-- The image of a nameless resource is nameless. -/
theorem range_of_places {f : R → R} {ds ds' : List (Quad R)}
    (h : ((namelessFrames i ds).map (·.map (Option.map f))).Perm (namelessFrames i ds')) (c : R) :
    NamelessIn i ds' c ↔ ∃ r, NamelessIn i ds r ∧ f r = c := by
  rw [namelessIn_frames]
  constructor
  · rintro ⟨φ, hφ, hc⟩
    obtain ⟨φ₀, h0, rfl⟩ := List.mem_map.1 (h.mem_iff.2 hφ)
    rw [Frames.positions_map] at hc
    obtain ⟨x, hx, hc⟩ := List.mem_map.1 hc
    obtain ⟨r, rfl, rfl⟩ := Option.map_eq_some_iff.1 hc
    exact ⟨r, namelessIn_frames.2 ⟨φ₀, h0, hx⟩, rfl⟩
  · rintro ⟨r, hr, rfl⟩
    obtain ⟨φ, hφ, hr⟩ := namelessIn_frames.1 hr
    refine ⟨_, h.mem_iff.1 (List.mem_map_of_mem hφ), ?_⟩
    rw [Frames.positions_map]
    exact List.mem_map.2 ⟨_, hr, rfl⟩

/-! ## The comparisons of the search -/

theorem shapes_iff (h : NamesAgree i) (l l' : List (Quad R)) :
    Paired (EachPosition (Alike i)) l l' ↔ (l.map (·.map (class_ i))).Perm (l'.map (·.map (class_ i))) :=
  paired_quads (fun x y => (class_eq h x y).symm) l l'

section order

variable [Ord R] [Std.TransOrd R] [Std.LawfulEqOrd R] {K : Type} {kind : R → Option K}

/-- What is compared under a partial bijection. -/
theorem keys_iff {f : R → R} {ds ds' : List (Quad R)} {m : Bijection R} (hm : Good kind m)
    (hinj : ∀ r r', NamelessIn i ds r → NamelessIn i ds r' → f r = f r' → r = r')
    (hrange : ∀ r, NamelessIn i ds r → nameless i (f r) = true)
    {S : List R} (hS : ∀ d ∈ S, NamelessIn i ds d)
    (hget : ∀ z w, m.forward.get z = some w ↔ z ∈ S ∧ w = f z)
    {r : R} (hr : NamelessIn i ds r) :
    ((sigOf i ds r).map (·.map (leftKey m))).Perm ((sigOf i ds' (f r)).map (·.map (rightKey m))) ↔
      (((namelessFrames i ds).map (·.map (Option.map f))).flatMap (keep (f r) (S.map f))).Perm
        ((namelessFrames i ds').flatMap (keep (f r) (S.map f))) := by
  rw [quadsAround_eq hr.1, quadsAround_eq (hrange r hr)]
  have el : (quadsAround ds r).map (·.map (leftKey m)) =
      ((namelessFrames i ds).map (·.map (Option.map f))).flatMap (keep (f r) (S.map f)) := by
    rw [List.flatMap_map, flatMap_frames]
    · unfold quadsAround
      rw [List.map_flatMap]
      refine Frames.flatMap_congr fun q hq => ?_
      have hin : ∀ d ∈ positions q, nameless i d = true → NamelessIn i ds d :=
        fun d hd h => ⟨h, q, hq, hd⟩
      rw [List.map_map]
      unfold keep
      rw [quad_map_map, quad_map_map]
      have e1 : (positions (q.map (Option.map f ∘ bare i))).count (some (f r)) =
          (positions q).count r := by
        rw [Frames.positions_map]
        refine count_map_of _ _ _ _ fun d hd => ?_
        rw [Function.comp, Option.map_eq_some_iff]
        constructor
        · rintro ⟨d', h1, h2⟩
          obtain ⟨rfl, h3⟩ := bare_eq_some.1 h1
          exact hinj d r (hin d hd h3) hr h2
        · rintro rfl
          exact ⟨d, bare_eq_some.2 ⟨rfl, hr.1⟩, rfl⟩
      rw [e1]
      have e2 : q.map (Option.filter (fun x => decide (x ∈ S.map f)) ∘ Option.map f ∘ bare i) =
          q.map (leftKey m) := by
        refine quad_map_congr fun d hd => ?_
        unfold leftKey
        simp only [Function.comp]
        by_cases hdS : d ∈ S
        · have hb : bare i d = some d := bare_eq_some.2 ⟨rfl, (hS d hdS).1⟩
          have : f d ∈ S.map f := List.mem_map_of_mem hdS
          rw [(hget d (f d)).2 ⟨hdS, rfl⟩, hb]
          simp only [Option.map_some, Option.filter, this, decide_true]
          rfl
        · have hn : m.forward.get d = none := by
            refine Option.eq_none_iff_forall_ne_some.2 fun w hw => hdS ((hget d w).1 hw).1
          rw [hn]
          cases hb : bare i d with
          | none => rfl
          | some d' =>
            obtain ⟨rfl, h3⟩ := bare_eq_some.1 hb
            have : f d ∉ S.map f := by
              intro h
              obtain ⟨d', h1, h2⟩ := List.mem_map.1 h
              exact hdS (hinj d' d (hS _ h1) (hin d hd h3) h2 ▸ h1)
            simp only [Option.map_some, Option.filter, this, decide_false]
            rfl
      rw [e2]
      exact map_filter_replicate _ _ _
    · intro φ hφ
      unfold keep
      rw [List.count_eq_zero.2]
      · rfl
      · rw [Frames.positions_map]
        intro h
        obtain ⟨x, hx, h⟩ := List.mem_map.1 h
        obtain ⟨d, rfl, -⟩ := Option.map_eq_some_iff.1 h
        exact hφ d hx
  have er : (quadsAround ds' (f r)).map (·.map (rightKey m)) =
      (namelessFrames i ds').flatMap (keep (f r) (S.map f)) := by
    rw [flatMap_frames]
    · unfold quadsAround
      rw [List.map_flatMap]
      refine Frames.flatMap_congr fun q hq => ?_
      rw [List.map_map]
      unfold keep
      rw [quad_map_map]
      have e1 : (positions (q.map (bare i))).count (some (f r)) = (positions q).count (f r) := by
        rw [Frames.positions_map]
        refine count_map_of _ _ _ _ fun d _ => ?_
        rw [bare_eq_some]
        exact ⟨fun h => h.1, fun h => ⟨h, hrange r hr⟩⟩
      rw [e1]
      have e2 : q.map (Option.filter (fun x => decide (x ∈ S.map f)) ∘ bare i) =
          q.map (rightKey m) := by
        refine quad_map_congr fun d hd => ?_
        unfold rightKey
        simp only [Function.comp]
        by_cases hdS : d ∈ S.map f
        · obtain ⟨d', h1, rfl⟩ := List.mem_map.1 hdS
          have hb : bare i (f d') = some (f d') := bare_eq_some.2 ⟨rfl, hrange _ (hS _ h1)⟩
          rw [(hm.inverse _ _).1 ((hget d' (f d')).2 ⟨h1, rfl⟩), hb]
          simp only [Option.map_some, Option.filter, hdS, decide_true]
          rfl
        · have hn : m.backward.get d = none := by
            refine Option.eq_none_iff_forall_ne_some.2 fun w hw => ?_
            obtain ⟨h1, rfl⟩ := (hget w d).1 ((hm.inverse _ _).2 hw)
            exact hdS (List.mem_map_of_mem h1)
          rw [hn]
          cases hb : bare i d with
          | none => rfl
          | some d' =>
            obtain ⟨rfl, h3⟩ := bare_eq_some.1 hb
            simp only [Option.map_none, Option.filter, hdS, decide_false]
            rfl
      rw [e2]
      exact map_filter_replicate _ _ _
    · intro φ hφ
      unfold keep
      rw [List.count_eq_zero.2 (hφ _)]
      rfl
  rw [el, er]

/-- The nameless resources of a dataset, from the greatest on. -/
theorem exists_sorted (i : ReverseInterpretation R I L) (ds : List (Quad R)) :
    ∃ bs : List R, (∀ b, b ∈ bs ↔ NamelessIn i ds b) ∧
      bs.Pairwise fun b b' => compare b' b ≠ .gt := by
  let l : List R := (ds.flatMap positions).filter (nameless i)
  refine ⟨l.mergeSort fun b b' => (compare b' b).isLE, fun b => ?_, ?_⟩
  · rw [List.mem_mergeSort, List.mem_filter, List.mem_flatMap]
    exact And.comm
  · have := List.pairwise_mergeSort (le := fun b b' : R => (compare b' b).isLE)
      (fun a b c h1 h2 => Std.TransCmp.isLE_trans h2 h1)
      (fun a b => by
        rw [Std.OrientedCmp.eq_swap (cmp := compare) (a := a)]
        cases compare b a <;> rfl) l
    exact this.imp fun h => by
      rename_i a b
      cases e : compare b a <;> simp [e] at h ⊢

theorem suffix_iff {ds : List (Quad R)} {bs : List R} (h1 : ∀ b, b ∈ bs ↔ NamelessIn i ds b)
    (h2 : bs.Pairwise fun b b' => compare b' b ≠ .gt) {b : R} {rest : List R}
    (hs : (b :: rest) <:+ bs) (d : R) :
    (NamelessIn i ds d ∧ compare d b ≠ .gt) ↔ d ∈ b :: rest := by
  obtain ⟨pre, rfl⟩ := hs
  rw [← h1]
  rw [List.pairwise_append, List.pairwise_cons] at h2
  obtain ⟨-, ⟨h3, -⟩, h4⟩ := h2
  constructor
  · rintro ⟨hd, hc⟩
    rcases List.mem_append.1 hd with hp | hr
    · have := h4 d hp b (by simp)
      have e : compare d b = .eq := by
        rw [Std.OrientedCmp.eq_swap (cmp := compare)] at this
        revert hc this
        cases compare d b <;> simp
      rw [Std.LawfulEqOrd.eq_of_compare e]
      simp
    · exact hr
  · intro hd
    refine ⟨List.mem_append_right _ hd, ?_⟩
    rcases List.mem_cons.1 hd with rfl | hr
    · rw [Std.ReflOrd.compare_self]
      simp
    · exact h3 d hr

/-- What is returned passes the comparisons. -/
theorem consistent_of_found (hn : NamesAgree i) {ds ds' : List (Quad R)} {m : Bijection R}
    (h : findBijectionWith i ds ds' = .ok (some m)) :
    ∃ f, ConsistentWith i f ds ds' ∧
      ∀ x y, NamelessIn i ds x → ((x, y) ∈ m.forward ↔ f x = y) := by
  obtain ⟨o, e, ho⟩ := findBijectionWith_spec (kinds hn) ds ds'
  rw [h] at e
  cases e
  obtain ⟨h1, h2, h3, h4⟩ := ho m rfl
  obtain ⟨h5, h6⟩ := findBijectionWith_trace (kinds hn) h
  have hex : ∀ x, ∃ y, NamelessIn i ds x → m.forward.get x = some y := by
    intro x
    by_cases hx : NamelessIn i ds x
    · obtain ⟨y, hy⟩ := (h2 _).1 (occurs_iff.2 hx)
      exact ⟨y, fun _ => hy⟩
    · exact ⟨x, fun h' => absurd h' hx⟩
  obtain ⟨f, hf⟩ := Classical.axiomOfChoice hex
  have hget : ∀ z w, m.forward.get z = some w ↔ NamelessIn i ds z ∧ w = f z := by
    intro z w
    constructor
    · intro hz
      have hz' := occurs_iff.1 ((h2 z).2 ⟨w, hz⟩)
      rw [hf z hz'] at hz
      exact ⟨hz', (Option.some.inj hz).symm⟩
    · rintro ⟨hz, rfl⟩
      exact hf z hz
  have hrange' : ∀ c, NamelessIn i ds' c ↔ ∃ r, NamelessIn i ds r ∧ f r = c := by
    intro c
    rw [← occurs_iff, h3]
    constructor
    · rintro ⟨x, hx⟩
      obtain ⟨q1, q2⟩ := (hget _ _).1 ((h1.inverse _ _).2 hx)
      exact ⟨x, q1, q2.symm⟩
    · rintro ⟨b, hb, rfl⟩
      exact ⟨_, (h1.inverse _ _).1 (hf b hb)⟩
  have hrange : ∀ r, NamelessIn i ds r → nameless i (f r) = true :=
    fun r hr => ((hrange' _).2 ⟨r, hr, rfl⟩).1
  have hinj : ∀ r r', NamelessIn i ds r → NamelessIn i ds r' → f r = f r' → r = r' := by
    intro b b' hb hb' e
    have q1 := (h1.inverse _ _).1 (hf b hb)
    have q2 := (h1.inverse _ _).1 (hf b' hb')
    rw [e, q2] at q1
    exact (Option.some.inj q1).symm
  obtain ⟨bs, b1, b2⟩ := exists_sorted i ds
  refine ⟨f, ⟨h5, hinj, ?_, fun x hx => ?_⟩, fun x y hx => ?_⟩
  · refine perm_of_kept (bs.map f) _ _ ?_ ?_ ?_
    · intro φ hφ
      obtain ⟨φ₀, h0, rfl⟩ := List.mem_map.1 hφ
      rw [Frames.positions_map]
      constructor
      · obtain ⟨-, d, hd⟩ := mem_frames.1 h0
        exact ⟨f d, List.mem_map.2 ⟨_, hd, rfl⟩⟩
      · intro d hd
        obtain ⟨x, hx, e⟩ := List.mem_map.1 hd
        obtain ⟨b, rfl, rfl⟩ := Option.map_eq_some_iff.1 e
        exact List.mem_map_of_mem ((b1 b).2 (namelessIn_frames.2 ⟨φ₀, h0, hx⟩))
    · intro φ hφ
      refine ⟨(mem_frames.1 hφ).2, fun d hd => ?_⟩
      obtain ⟨b, hb, rfl⟩ := (hrange' d).1 (namelessIn_frames.2 ⟨φ, hφ, hd⟩)
      exact List.mem_map_of_mem ((b1 b).2 hb)
    · intro c rest hs
      obtain ⟨S, hS, e⟩ : ∃ S, S <:+ bs ∧ S.map f = c :: rest := by
        obtain ⟨pre, hp⟩ := hs
        obtain ⟨l₁, l₂, rfl, -, e2⟩ := List.map_eq_append_iff.1 hp.symm
        exact ⟨l₂, ⟨l₁, rfl⟩, e2⟩
      obtain ⟨b, S', rfl, rfl, rfl⟩ := List.map_eq_cons_iff.1 e
      have hb : NamelessIn i ds b := (b1 b).1 (hS.subset (by simp))
      obtain ⟨mx, g1, g2, g3⟩ := h6 b (f b) (hf b hb)
      refine (keys_iff g1 hinj hrange (fun d hd => (b1 d).1 (hS.subset hd)) ?_ hb).1 g3
      intro z w
      rw [g2, hget, ← suffix_iff b1 b2 hS]
      constructor
      · rintro ⟨⟨h7, h8⟩, h9⟩
        exact ⟨⟨h7, h9⟩, h8⟩
      · rintro ⟨⟨h7, h9⟩, h8⟩
        exact ⟨⟨h7, h8⟩, h9⟩
  · rw [shapes_iff hn, ← quadsAround_eq hx.1, ← quadsAround_eq (hrange x hx)]
    exact h4 _ _ (hf x hx)
  · constructor
    · intro hxy
      have := OrdMap.get_of_mem h1.sorted hxy
      rw [hf x hx] at this
      exact Option.some.inj this
    · rintro rfl
      exact OrdMap.mem_of_get (hf x hx)

/-- What passes the comparisons is found. -/
theorem found_of_consistent (hn : NamesAgree i) {ds ds' : List (Quad R)} {f : R → R}
    (h : ConsistentWith i f ds ds') : ∃ m, findBijectionWith i ds ds' = .ok (some m) := by
  have hrange' := range_of_places h.places
  have hrange : ∀ r, NamelessIn i ds r → nameless i (f r) = true :=
    fun r hr => ((hrange' _).2 ⟨r, hr, rfl⟩).1
  obtain ⟨bs, b1, -⟩ := exists_sorted i ds
  refine findBijectionWith_complete' (kinds hn) (τ := f) h.length ?_ ?_ ?_ ?_
  · intro x x' hx hx' e
    exact h.injective x x' (occurs_iff.1 hx) (occurs_iff.1 hx') e
  · intro y
    rw [occurs_iff, hrange']
    exact exists_congr fun x => and_congr occurs_iff.symm Iff.rfl
  · intro x hx
    rw [occurs_iff] at hx
    rw [quadsAround_eq hx.1, quadsAround_eq (hrange x hx), ← shapes_iff hn]
    exact h.shapes x hx
  · intro m x hx hg hup
    rw [occurs_iff] at hx
    refine (keys_iff (S := bs.filter fun d => decide (compare d x ≠ .gt)) hg h.injective hrange ?_ ?_
      hx).2 (h.places.flatMap_right _)
    · exact fun d hd => (b1 d).1 (List.mem_filter.1 hd).1
    · intro z w
      rw [hup, occurs_iff, List.mem_filter, b1, decide_eq_true_iff]
      constructor
      · rintro ⟨⟨h7, h8⟩, h9⟩
        exact ⟨⟨h7, h9⟩, h8⟩
      · rintro ⟨⟨h7, h9⟩, h8⟩
        exact ⟨⟨h7, h8⟩, h9⟩

end order

/-! ## An equivalence -/

theorem alike_self (r : R) : Alike i r r := by
  by_cases h : nameless i r = true
  · exact Or.inr ⟨h, h⟩
  · exact Or.inl (shares_self h)

theorem consistent_refl (hn : NamesAgree i) (ds : List (Quad R)) : ConsistentWith i id ds ds := by
  refine ⟨rfl, fun _ _ _ _ h => h, List.Perm.of_eq ?_,
    fun _ _ => (shapes_iff hn _ _).2 (List.Perm.refl _)⟩
  have : (fun q : Quad (Option R) => q.map (Option.map id)) = id := by
    funext q
    obtain ⟨s, p, o, g⟩ := q
    cases g <;> simp [Quad.map]
  rw [this, List.map_id]

theorem consistent_trans (hn : NamesAgree i) {f f' : R → R} {ds ds' ds'' : List (Quad R)}
    (h : ConsistentWith i f ds ds') (h' : ConsistentWith i f' ds' ds'') :
    ConsistentWith i (f' ∘ f) ds ds'' := by
  have hr : ∀ b, NamelessIn i ds b → NamelessIn i ds' (f b) :=
    fun b hb => (range_of_places h.places _).2 ⟨b, hb, rfl⟩
  refine ⟨h.length.trans h'.length, ?_, ?_, fun b hb => ?_⟩
  · intro b b' hb hb' e
    exact h.injective b b' hb hb' (h'.injective _ _ (hr b hb) (hr b' hb') e)
  · have := (h.places.map (·.map (Option.map f'))).trans h'.places
    rw [List.map_map] at this
    refine (List.Perm.of_eq (List.map_congr_left fun φ _ => ?_)).trans this
    rw [Function.comp, quad_map_map]
    congr 1
    funext x
    cases x <;> rfl
  · exact (shapes_iff hn _ _).2 (((shapes_iff hn _ _).1 (h.shapes b hb)).trans
      ((shapes_iff hn _ _).1 (h'.shapes _ (hr b hb))))

theorem consistent_symm (hn : NamesAgree i) {f : R → R} {ds ds' : List (Quad R)}
    (h : ConsistentWith i f ds ds') : ∃ g, ConsistentWith i g ds' ds := by
  have hg : ∀ c, ∃ b, NamelessIn i ds' c → NamelessIn i ds b ∧ f b = c := by
    intro c
    by_cases hc : NamelessIn i ds' c
    · obtain ⟨b, hb⟩ := (range_of_places h.places c).1 hc
      exact ⟨b, fun _ => hb⟩
    · exact ⟨c, fun h => absurd h hc⟩
  obtain ⟨g, hg⟩ := Classical.axiomOfChoice hg
  have hgf : ∀ b, NamelessIn i ds b → g (f b) = b := by
    intro b hb
    obtain ⟨h1, h2⟩ := hg (f b) ((range_of_places h.places _).2 ⟨b, hb, rfl⟩)
    exact h.injective _ _ h1 hb h2
  refine ⟨g, h.length.symm, ?_, ?_, ?_⟩
  · intro c c' hc hc' e
    rw [← (hg c hc).2, ← (hg c' hc').2, e]
  · have := (h.places.map (·.map (Option.map g))).symm
    rw [List.map_map] at this
    refine this.trans (List.Perm.of_eq ?_)
    conv => rhs; rw [← List.map_id (namelessFrames i ds)]
    refine List.map_congr_left fun φ hφ => ?_
    rw [Function.comp, quad_map_map]
    have : φ.map (Option.map g ∘ Option.map f) = φ.map id := by
      refine quad_map_congr fun x hx => ?_
      cases x with
      | none => rfl
      | some b =>
        show some (g (f b)) = some b
        rw [hgf b (namelessIn_frames.2 ⟨φ, hφ, hx⟩)]
    rw [this]
    obtain ⟨s, p, o, g⟩ := φ
    cases g <;> rfl
  · intro c hc
    obtain ⟨h1, h2⟩ := hg c hc
    have := ((shapes_iff hn _ _).1 (h.shapes _ h1)).symm
    rw [h2] at this
    exact (shapes_iff hn _ _).2 this

/-- A dataset whose nameless resources are renamed, whose other ones are replaced by some that
share a term, and whose quads are reordered. -/
theorem consistent_replaced (hn : NamesAgree i) {f : R → R} {ds ds' : List (Quad R)}
    (hf : ∀ r r', NamelessIn i ds r → NamelessIn i ds r' → f r = f r' → r = r')
    (ha : ∀ q ∈ ds, ∀ r ∈ positions q, Alike i r (f r))
    (h : (ds.map (·.map f)).Perm ds') : ConsistentWith i f ds ds' := by
  have hless : ∀ q ∈ ds, ∀ r ∈ positions q, nameless i (f r) = nameless i r := by
    intro q hq r hr
    rcases ha q hq r hr with hs | ⟨h1, h2⟩
    · have h1 : nameless i r ≠ true := fun hl => not_shares_of_nameless hl hs
      have h2 : nameless i (f r) ≠ true := fun hl => not_shares_of_nameless hl (shares_symm hs)
      rw [ne_eq, Bool.not_eq_true] at h1 h2
      rw [h1, h2]
    · rw [h1, h2]
  refine ⟨by simpa using h.length_eq, hf, ?_, fun b hb => ?_⟩
  · have h2 : (namelessFrames i (ds.map (·.map f))).Perm (namelessFrames i ds') := (h.map _).filter _
    refine List.Perm.trans (List.Perm.of_eq ?_) h2
    have e1 : (ds.map (·.map f)).map (·.map (bare i)) =
        (ds.map (·.map (bare i))).map (·.map (Option.map f)) := by
      rw [List.map_map, List.map_map]
      refine List.map_congr_left fun q hq => ?_
      rw [Function.comp, Function.comp, quad_map_map, quad_map_map]
      refine quad_map_congr fun r hr => ?_
      rw [Function.comp, Function.comp]
      unfold bare
      rw [hless q hq r hr]
      split <;> rfl
    show _ = ((ds.map (·.map f)).map (·.map (bare i))).filter _
    rw [e1, List.filter_map]
    congr 1
    refine List.filter_congr fun φ _ => ?_
    rw [Function.comp, Frames.positions_map, List.any_map]
    congr 1
    funext x
    cases x <;> rfl
  · refine (shapes_iff hn _ _).2 ?_
    refine List.Perm.trans ?_ ((h.flatMap_right _).map _)
    refine List.Perm.of_eq ?_
    show (quadsAround ds b).map _ = _
    unfold quadsAround
    rw [List.map_flatMap, List.map_flatMap, List.flatMap_map]
    refine Frames.flatMap_congr fun q hq => ?_
    rw [List.map_map, List.map_map]
    have e1 : ∀ l : List R, (l.filter (· = b)).map ((fun q : Quad R => q.map (class_ i)) ∘ fun _ => q) =
        List.replicate (l.count b) (q.map (class_ i)) := fun l => map_filter_replicate _ _ _
    have e2 : ∀ l : List R, (l.filter (· = f b)).map
        ((fun q : Quad R => q.map (class_ i)) ∘ fun _ => q.map f) =
        List.replicate (l.count (f b)) ((q.map f).map (class_ i)) := fun l => map_filter_replicate _ _ _
    rw [e1, e2, quad_map_map, Frames.positions_map]
    congr 1
    · symm
      refine count_map_of _ _ _ _ fun r hr => ?_
      constructor
      · intro e
        refine hf r b ⟨?_, q, hq, hr⟩ hb e
        obtain ⟨hb1, q', hq', hb'⟩ := hb
        rw [← hless q hq r hr, e, hless q' hq' b hb', hb1]
      · intro e
        rw [e]
    · exact quad_map_congr fun r hr => (class_eq hn _ _).2 (ha q hq r hr)

end RdfTypes.Nameless
