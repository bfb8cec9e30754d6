import Verif.Proof.IsomorphismExact
import Verif.Spec.Frames

/-!
# The comparisons of the search, without its order
-/

set_option linter.unusedSectionVars false

namespace RdfTypes.Frames

open Spec

theorem positions_map {R S : Type} (f : R → S) (q : Quad R) :
    positions (q.map f) = (positions q).map f := by
  cases e : q.g <;> simp [positions, Quad.map, e]

theorem flatMap_congr {A D : Type} {k k' : A → List D} :
    ∀ {l : List A}, (∀ a ∈ l, k a = k' a) → l.flatMap k = l.flatMap k'
  | [], _ => rfl
  | a :: l, h => by
    rw [List.flatMap_cons, List.flatMap_cons, h a (by simp),
      flatMap_congr fun b hb => h b (List.mem_cons_of_mem _ hb)]

/-! ## Lists of quads of blank nodes -/

section masks

variable {C : Type} [DecidableEq C]

/-- The quad, once for each position of a blank node, with the blank nodes in a list. -/
def keep (c : C) (S : List C) (φ : Quad (Option C)) : List (Quad (Option C)) :=
  List.replicate ((positions φ).count (some c)) (φ.map (Option.filter (· ∈ S)))

theorem keep_id {c : C} {S : List C} {φ : Quad (Option C)}
    (h : ∀ d, some d ∈ positions φ → d ∈ S) :
    keep c S φ = List.replicate ((positions φ).count (some c)) φ := by
  have key : ∀ r ∈ positions φ, Option.filter (fun d => decide (d ∈ S)) r = r := by
    rintro (_ | d) hd
    · rfl
    · simp [Option.filter, h d hd]
  have : φ.map (Option.filter (· ∈ S)) = φ := by
    obtain ⟨s, p, o, g⟩ := φ
    have k1 := key s (by simp [positions])
    have k2 := key p (by simp [positions])
    have k3 := key o (by simp [positions])
    cases g with
    | none => simp [Quad.map, k1, k2, k3]
    | some g => simp [Quad.map, k1, k2, k3, key g (by simp [positions])]
  unfold keep
  rw [this]

theorem count_flatMap_replicate {A : Type} [DecidableEq A] (k : A → Nat) (a : A) :
    ∀ l : List A, (l.flatMap fun x => List.replicate (k x) x).count a = k a * l.count a
  | [] => by simp
  | x :: l => by
    rw [List.flatMap_cons, List.count_append, count_flatMap_replicate k a l, List.count_replicate,
      List.count_cons]
    by_cases e : x = a
    · subst e
      simp [Nat.mul_add, Nat.add_comm]
    · simp [e]

theorem filter_split {A : Type} (p : A → Bool) (l : List A) :
    l.Perm (l.filter p ++ l.filter (!p ·)) :=
  (List.filter_append_perm p l).symm

/-- Lists of quads of blank nodes are permutations of each other when they are alike around
each blank node, as far as this one and the next ones go. -/
theorem perm_of_kept : ∀ (cs : List C) (X Y : List (Quad (Option C))),
    (∀ φ ∈ X, (∃ d, some d ∈ positions φ) ∧ ∀ d, some d ∈ positions φ → d ∈ cs) →
    (∀ φ ∈ Y, (∃ d, some d ∈ positions φ) ∧ ∀ d, some d ∈ positions φ → d ∈ cs) →
    (∀ c rest, (c :: rest) <:+ cs →
      (X.flatMap (keep c (c :: rest))).Perm (Y.flatMap (keep c (c :: rest)))) →
    X.Perm Y
  | [], X, Y, hX, hY, _ => by
    have nil : ∀ Z : List (Quad (Option C)),
        (∀ φ ∈ Z, (∃ d, some d ∈ positions φ) ∧ ∀ d, some d ∈ positions φ → d ∈ ([] : List C)) →
        Z = [] := by
      intro Z hZ
      refine List.eq_nil_iff_forall_not_mem.2 fun φ hφ => ?_
      obtain ⟨⟨d, hd⟩, h⟩ := hZ φ hφ
      simpa using h d hd
    rw [nil X hX, nil Y hY]
  | c :: cs, X, Y, hX, hY, h => by
    let p : Quad (Option C) → Bool := fun φ => decide (some c ∈ positions φ)
    have e : ∀ Z : List (Quad (Option C)),
        (∀ φ ∈ Z, (∃ d, some d ∈ positions φ) ∧ ∀ d, some d ∈ positions φ → d ∈ c :: cs) →
        Z.flatMap (keep c (c :: cs)) =
          Z.flatMap fun φ => List.replicate ((positions φ).count (some c)) φ := by
      intro Z hZ
      exact flatMap_congr fun φ hφ => keep_id (hZ φ hφ).2
    have h1 : (X.filter p).Perm (Y.filter p) := by
      refine List.perm_iff_count.2 fun φ => ?_
      by_cases hp : p φ = true
      · rw [List.count_filter hp, List.count_filter hp]
        have := h c cs (List.suffix_refl _)
        rw [e X hX, e Y hY] at this
        have := List.perm_iff_count.1 this φ
        rw [count_flatMap_replicate (fun φ => (positions φ).count (some c)),
          count_flatMap_replicate (fun φ => (positions φ).count (some c))] at this
        refine Nat.eq_of_mul_eq_mul_left (List.count_pos_iff.2 ?_) this
        simpa [p] using hp
      · rw [List.count_eq_zero.2, List.count_eq_zero.2]
        · simp [hp]
        · simp [hp]
    have h2 : (X.filter (!p ·)).Perm (Y.filter (!p ·)) := by
      refine perm_of_kept cs _ _ ?_ ?_ ?_
      · intro φ hφ
        obtain ⟨h3, h4⟩ := List.mem_filter.1 hφ
        refine ⟨(hX φ h3).1, fun d hd => ?_⟩
        rcases List.mem_cons.1 ((hX φ h3).2 d hd) with rfl | hm
        · simp [p, hd] at h4
        · exact hm
      · intro φ hφ
        obtain ⟨h3, h4⟩ := List.mem_filter.1 hφ
        refine ⟨(hY φ h3).1, fun d hd => ?_⟩
        rcases List.mem_cons.1 ((hY φ h3).2 d hd) with rfl | hm
        · simp [p, hd] at h4
        · exact hm
      · intro c' rest hs
        have h3 := h c' rest (hs.trans (List.suffix_cons _ _))
        have hx := (filter_split p X).flatMap_right (keep c' (c' :: rest))
        have hy := (filter_split p Y).flatMap_right (keep c' (c' :: rest))
        rw [List.flatMap_append] at hx hy
        have h4 := (hx.symm.trans h3).trans hy
        have h5 := h1.flatMap_right (keep c' (c' :: rest))
        exact (List.perm_append_left_iff _).1 (h4.trans (h5.symm.append_right _))
    exact (filter_split p X).trans ((h1.append h2).trans (filter_split p Y).symm)

end masks

/-! ## Datasets -/

variable {B I L : Type} [DecidableEq B] [DecidableEq I] [DecidableEq L]

theorem quad_map_congr {R K : Type} {k k' : R → K} {q : Quad R}
    (h : ∀ r ∈ positions q, k r = k' r) : q.map k = q.map k' := by
  obtain ⟨s, p, o, g⟩ := q
  have k1 := h s (by simp [positions])
  have k2 := h p (by simp [positions])
  have k3 := h o (by simp [positions])
  cases g with
  | none => simp [Quad.map, k1, k2, k3]
  | some g => simp [Quad.map, k1, k2, k3, h g (by simp [positions])]

theorem quad_map_map {R K M : Type} (k : R → K) (k' : K → M) (q : Quad R) :
    (q.map k).map k' = q.map (k' ∘ k) := by
  obtain ⟨s, p, o, g⟩ := q
  cases g <;> rfl

theorem skeleton_eq_some {x : LocalTerm B I L} {b : B} :
    skeleton x = some b ↔ x = .anonymous b := by
  cases x <;> simp [skeleton]

theorem mem_skeleton {q : Quad (LocalTerm B I L)} {b : B} :
    some b ∈ positions (q.map skeleton) ↔ .anonymous b ∈ positions q := by
  rw [positions_map, List.mem_map]
  constructor
  · rintro ⟨x, hx, e⟩
    rwa [skeleton_eq_some.1 e] at hx
  · exact fun h => ⟨_, h, rfl⟩

theorem blankIn_iff {ds : List (Quad (LocalTerm B I L))} {b : B} :
    BlankIn ds (.anonymous b) ↔ ∃ q ∈ ds, .anonymous b ∈ positions q :=
  ⟨fun h => h.2, fun h => ⟨⟨b, rfl⟩, h⟩⟩

theorem mem_frames {ds : List (Quad (LocalTerm B I L))} {φ : Quad (Option B)} :
    φ ∈ frames ds ↔ (∃ q ∈ ds, q.map skeleton = φ) ∧ ∃ d, some d ∈ positions φ := by
  unfold frames
  rw [List.mem_filter, List.mem_map, List.any_eq_true]
  refine and_congr Iff.rfl ⟨?_, ?_⟩
  · rintro ⟨x, hx, h⟩
    obtain ⟨d, rfl⟩ := Option.isSome_iff_exists.1 h
    exact ⟨d, hx⟩
  · rintro ⟨d, hd⟩
    exact ⟨_, hd, rfl⟩

/-- The blank nodes of a dataset are those of its frames. -/
theorem blankIn_frames {ds : List (Quad (LocalTerm B I L))} {b : B} :
    BlankIn ds (.anonymous b) ↔ ∃ φ ∈ frames ds, some b ∈ positions φ := by
  rw [blankIn_iff]
  constructor
  · rintro ⟨q, hq, hb⟩
    exact ⟨q.map skeleton, mem_frames.2 ⟨⟨q, hq, rfl⟩, b, mem_skeleton.2 hb⟩, mem_skeleton.2 hb⟩
  · rintro ⟨φ, hφ, hb⟩
    obtain ⟨⟨q, hq, rfl⟩, -⟩ := mem_frames.1 hφ
    exact ⟨q, hq, mem_skeleton.1 hb⟩

theorem flatMap_frames {A : Type} (k : Quad (Option B) → List A)
    (hk : ∀ φ, (∀ d, some d ∉ positions φ) → k φ = []) :
    ∀ ds : List (Quad (LocalTerm B I L)),
      (frames ds).flatMap k = ds.flatMap fun q => k (q.map skeleton)
  | [] => rfl
  | q :: ds => by
    have ih := flatMap_frames k hk ds
    unfold frames at ih ⊢
    rw [List.map_cons, List.filter_cons, List.flatMap_cons, ← ih]
    split
    · rfl
    · rename_i h
      rw [hk, List.nil_append]
      intro d hd
      exact h (List.any_eq_true.2 ⟨_, hd, rfl⟩)

theorem surroundings_around (ds : List (Quad (LocalTerm B I L))) (x : LocalTerm B I L) :
    surroundings ds x = (around ds x).map (·.map erase) := by
  unfold surroundings around
  rw [List.map_flatMap]
  simp only [List.map_map]
  rfl

theorem map_filter_replicate {R A : Type} [DecidableEq R] (x : R) (a : A) (l : List R) :
    (l.filter (· = x)).map (fun _ => a) = List.replicate (l.count x) a := by
  rw [List.map_const', List.count_eq_length_filter]
  congr 2

theorem count_map_of {R K : Type} [BEq R] [LawfulBEq R] [BEq K] [LawfulBEq K] (k : R → K) (x : R) (y : K) :
    ∀ l : List R, (∀ r ∈ l, k r = y ↔ r = x) → (l.map k).count y = l.count x
  | [], _ => rfl
  | r :: l, h => by
    rw [List.map_cons, List.count_cons, List.count_cons,
      count_map_of k x y l fun z hz => h z (List.mem_cons_of_mem _ hz)]
    have := h r (by simp)
    by_cases e : r = x
    · have e' := this.2 e
      simp [e, ← e']
    · simp [e, mt this.1 e]

/-- What is compared under the blank nodes in a list. -/
theorem names_iff {f : B → B} {ds ds' : List (Quad (LocalTerm B I L))}
    (hinj : ∀ b b', BlankIn ds (.anonymous b) → BlankIn ds (.anonymous b') → f b = f b' → b = b')
    {b : B} (hb : BlankIn ds (.anonymous b)) {S : List B}
    (hS : ∀ d ∈ S, BlankIn ds (.anonymous d)) :
    Paired (EachPosition (AgreeOn f fun d => d ∈ S)) (around ds (.anonymous b))
        (around ds' (.anonymous (f b))) ↔
      (((frames ds).map (·.map (Option.map f))).flatMap (keep (f b) (S.map f))).Perm
        ((frames ds').flatMap (keep (f b) (S.map f))) := by
  let kl : LocalTerm B I L → Option B := fun r => ((skeleton r).filter (· ∈ S)).map f
  let kr : LocalTerm B I L → Option B := fun r => (skeleton r).filter (· ∈ S.map f)
  have hk : ∀ r r', AgreeOn f (fun d => d ∈ S) r r' ↔ kl r = kr r' := by
    intro r r'
    constructor
    · intro h
      cases r with
      | anonymous d =>
        by_cases hd : d ∈ S
        · have e := (h d hd).1 rfl
          subst e
          have : f d ∈ S.map f := List.mem_map_of_mem hd
          simp only [kl, kr, skeleton, Option.filter, hd, this, decide_true]
          rfl
        · have e1 : kl (.anonymous d : LocalTerm B I L) = none := by
            simp [kl, skeleton, Option.filter, hd]
          rw [e1]
          cases r' with
          | named t => rfl
          | anonymous c =>
            by_cases hc : c ∈ S.map f
            · obtain ⟨d', h1, rfl⟩ := List.mem_map.1 hc
              cases (h d' h1).2 rfl
              exact absurd h1 hd
            · simp only [kr, skeleton, Option.filter, hc]
              rfl
      | named t =>
        cases r' with
        | named t => rfl
        | anonymous c =>
          by_cases hc : c ∈ S.map f
          · obtain ⟨d', h1, rfl⟩ := List.mem_map.1 hc
            cases (h d' h1).2 rfl
          · simp only [kl, kr, skeleton, Option.filter, hc]
            rfl
    · intro h d hd
      constructor
      · rintro rfl
        have e1 : kl (.anonymous d : LocalTerm B I L) = some (f d) := by
          simp [kl, skeleton, Option.filter, hd]
        rw [e1] at h
        have := (Option.filter_eq_some_iff.1 h.symm).1
        exact skeleton_eq_some.1 this
      · rintro rfl
        have : f d ∈ S.map f := List.mem_map_of_mem hd
        have e1 : kr (.anonymous (f d) : LocalTerm B I L) = some (f d) := by
          simp only [kr, skeleton, Option.filter, this, decide_true]
          rfl
        rw [e1] at h
        obtain ⟨d', h1, h2⟩ := Option.map_eq_some_iff.1 h
        obtain ⟨h3, h4⟩ := Option.filter_eq_some_iff.1 h1
        have h4 : d' ∈ S := by simpa using h4
        rw [← hinj d' d (hS _ h4) (hS _ hd) h2]
        exact skeleton_eq_some.1 h3
  rw [Isomorphism.paired_quads hk]
  have el : (around ds (.anonymous b)).map (·.map kl) =
      ((frames ds).map (·.map (Option.map f))).flatMap (keep (f b) (S.map f)) := by
    rw [List.flatMap_map, flatMap_frames]
    · unfold around
      rw [List.map_flatMap]
      refine flatMap_congr fun q hq => ?_
      have hblank : ∀ d, .anonymous d ∈ positions q → BlankIn ds (.anonymous d) :=
        fun d hd => blankIn_iff.2 ⟨q, hq, hd⟩
      rw [List.map_map]
      unfold keep
      rw [quad_map_map, quad_map_map]
      have e1 : (positions (q.map (Option.map f ∘ skeleton))).count (some (f b)) =
          (positions q).count (.anonymous b) := by
        rw [positions_map]
        refine count_map_of _ _ _ _ fun r hr => ?_
        cases r with
        | named t => simp [skeleton]
        | anonymous d =>
          simp only [Function.comp, skeleton, Option.map_some, Option.some.injEq,
            LocalTerm.anonymous.injEq]
          exact ⟨fun e => hinj d b (hblank d hr) hb e, fun e => by rw [e]⟩
      rw [e1]
      have e2 : q.map (Option.filter (fun x => decide (x ∈ S.map f)) ∘ Option.map f ∘ skeleton) =
          q.map kl := by
        refine quad_map_congr fun r hr => ?_
        cases r with
        | named t => rfl
        | anonymous d =>
          have : f d ∈ S.map f ↔ d ∈ S := by
            constructor
            · intro h
              obtain ⟨d', h1, h2⟩ := List.mem_map.1 h
              rwa [← hinj d' d (hS _ h1) (hblank d hr) h2]
            · exact fun h => List.mem_map_of_mem h
          by_cases hd : d ∈ S
          · simp only [Function.comp, skeleton, Option.map_some, Option.filter, this, hd, kl]
            rfl
          · simp only [Function.comp, skeleton, Option.map_some, Option.filter, this, hd, kl]
            rfl
      rw [e2]
      exact map_filter_replicate _ _ _
    · intro φ hφ
      unfold keep
      rw [List.count_eq_zero.2]
      · rfl
      · rw [positions_map]
        intro h
        obtain ⟨x, hx, h⟩ := List.mem_map.1 h
        obtain ⟨d, rfl, -⟩ := Option.map_eq_some_iff.1 h
        exact hφ d hx
  have er : (around ds' (.anonymous (f b))).map (·.map kr) =
      (frames ds').flatMap (keep (f b) (S.map f)) := by
    rw [flatMap_frames]
    · unfold around
      rw [List.map_flatMap]
      congr 1
      funext q
      rw [List.map_map]
      unfold keep
      rw [quad_map_map]
      have e1 : (positions (q.map skeleton)).count (some (f b)) =
          (positions q).count (.anonymous (f b)) := by
        rw [positions_map]
        exact count_map_of _ _ _ _ fun r _ => skeleton_eq_some
      rw [e1]
      exact map_filter_replicate _ _ _
    · intro φ hφ
      unfold keep
      rw [List.count_eq_zero.2 (hφ _)]
      rfl
  rw [el, er]

/-- The blank nodes of the second dataset are the images of those of the first. -/
theorem range_of_places {f : B → B} {ds ds' : List (Quad (LocalTerm B I L))}
    (h : ((frames ds).map (·.map (Option.map f))).Perm (frames ds')) (c : B) :
    BlankIn ds' (.anonymous c) ↔ ∃ b, BlankIn ds (.anonymous b) ∧ f b = c := by
  rw [blankIn_frames]
  constructor
  · rintro ⟨φ, hφ, hc⟩
    obtain ⟨φ₀, h0, rfl⟩ := List.mem_map.1 (h.mem_iff.2 hφ)
    rw [positions_map] at hc
    obtain ⟨x, hx, hc⟩ := List.mem_map.1 hc
    obtain ⟨b, rfl, rfl⟩ := Option.map_eq_some_iff.1 hc
    exact ⟨b, blankIn_frames.2 ⟨φ₀, h0, hx⟩, rfl⟩
  · rintro ⟨b, hb, rfl⟩
    obtain ⟨φ, hφ, hb⟩ := blankIn_frames.1 hb
    refine ⟨_, h.mem_iff.1 (List.mem_map_of_mem hφ), ?_⟩
    rw [positions_map]
    exact List.mem_map.2 ⟨_, hb, rfl⟩

/-! ## The comparisons of the search -/

section order

variable [Ord B] [Std.TransOrd B] [Std.LawfulEqOrd B]

/-- The blank nodes of a dataset, from the greatest on. -/
theorem exists_sorted (ds : List (Quad (LocalTerm B I L))) :
    ∃ bs : List B, (∀ b, b ∈ bs ↔ BlankIn ds (.anonymous b)) ∧
      bs.Pairwise fun b b' => compare b' b ≠ .gt := by
  let l : List B := (ds.flatMap positions).filterMap skeleton
  refine ⟨l.mergeSort fun b b' => (compare b' b).isLE, fun b => ?_, ?_⟩
  · rw [List.mem_mergeSort, List.mem_filterMap, blankIn_iff]
    constructor
    · rintro ⟨x, hx, e⟩
      obtain ⟨q, hq, hx⟩ := List.mem_flatMap.1 hx
      rw [skeleton_eq_some] at e
      exact ⟨q, hq, e ▸ hx⟩
    · rintro ⟨q, hq, hx⟩
      exact ⟨_, List.mem_flatMap.2 ⟨q, hq, hx⟩, rfl⟩
  · have := List.pairwise_mergeSort (le := fun b b' : B => (compare b' b).isLE)
      (fun a b c h1 h2 => Std.TransCmp.isLE_trans h2 h1)
      (fun a b => by
        rw [Std.OrientedCmp.eq_swap (cmp := compare) (a := a)]
        cases compare b a <;> rfl) l
    exact this.imp fun h => by
      rename_i a b
      cases e : compare b a <;> simp [e] at h ⊢

theorem suffix_iff {ds : List (Quad (LocalTerm B I L))} {bs : List B}
    (h1 : ∀ b, b ∈ bs ↔ BlankIn ds (.anonymous b))
    (h2 : bs.Pairwise fun b b' => compare b' b ≠ .gt) {b : B} {rest : List B}
    (hs : (b :: rest) <:+ bs) (d : B) :
    (BlankIn ds (.anonymous d) ∧ compare d b ≠ .gt) ↔ d ∈ b :: rest := by
  obtain ⟨pre, rfl⟩ := hs
  rw [← h1]
  rw [List.pairwise_append, List.pairwise_cons] at h2
  obtain ⟨-, ⟨h3, -⟩, h4⟩ := h2
  constructor
  · rintro ⟨hd, hc⟩
    rcases List.mem_append.1 hd with hp | hr
    · have := h4 d hp b (by simp)
      have e : compare d b = .eq := by
        rw [Std.OrientedCmp.eq_swap (cmp := compare)] at this
        revert hc this
        cases compare d b <;> simp
      rw [Std.LawfulEqOrd.eq_of_compare e]
      simp
    · exact hr
  · intro hd
    refine ⟨List.mem_append_right _ hd, ?_⟩
    rcases List.mem_cons.1 hd with rfl | hr
    · rw [Std.ReflOrd.compare_self]
      simp
    · exact h3 d hr

/-- What the search requires of a renaming does not depend on its order. -/
theorem accepted_iff {f : B → B} {ds ds' : List (Quad (LocalTerm B I L))} :
    Accepted f ds ds' ↔ Consistent f ds ds' := by
  obtain ⟨bs, h1, h2⟩ := exists_sorted ds
  have hshape : ∀ b, Paired (EachPosition fun r r' => erase r = erase r')
      (around ds (.anonymous b)) (around ds' (.anonymous (f b))) ↔
      (surroundings ds (.anonymous b)).Perm (surroundings ds' (.anonymous (f b))) := by
    intro b
    rw [surroundings_around, surroundings_around]
    exact Isomorphism.paired_quads (fun _ _ => Iff.rfl) _ _
  constructor
  · intro h
    refine ⟨h.length, h.injective, ?_, fun b hb => (hshape b).1 (h.shapes b hb)⟩
    refine perm_of_kept (bs.map f) _ _ ?_ ?_ ?_
    · intro φ hφ
      obtain ⟨φ₀, h0, rfl⟩ := List.mem_map.1 hφ
      rw [positions_map]
      constructor
      · obtain ⟨-, d, hd⟩ := mem_frames.1 h0
        exact ⟨f d, List.mem_map.2 ⟨_, hd, rfl⟩⟩
      · intro d hd
        obtain ⟨x, hx, e⟩ := List.mem_map.1 hd
        obtain ⟨b, rfl, rfl⟩ := Option.map_eq_some_iff.1 e
        exact List.mem_map_of_mem ((h1 b).2 (blankIn_frames.2 ⟨φ₀, h0, hx⟩))
    · intro φ hφ
      refine ⟨(mem_frames.1 hφ).2, fun d hd => ?_⟩
      obtain ⟨b, hb, rfl⟩ := (h.range d).1 (blankIn_frames.2 ⟨φ, hφ, hd⟩)
      exact List.mem_map_of_mem ((h1 b).2 hb)
    · intro c rest hs
      obtain ⟨S, hS, e⟩ : ∃ S, S <:+ bs ∧ S.map f = c :: rest := by
        obtain ⟨pre, hp⟩ := hs
        obtain ⟨l₁, l₂, rfl, -, e2⟩ := List.map_eq_append_iff.1 hp.symm
        exact ⟨l₂, ⟨l₁, rfl⟩, e2⟩
      obtain ⟨b, S', rfl, rfl, rfl⟩ := List.map_eq_cons_iff.1 e
      have hb : BlankIn ds (.anonymous b) := (h1 b).1 (hS.subset (by simp))
      have := h.names b hb
      have e2 : (fun d => BlankIn ds (.anonymous d) ∧ compare d b ≠ .gt) = fun d => d ∈ b :: S' := by
        funext d
        exact propext (suffix_iff h1 h2 hS d)
      rw [e2] at this
      exact (names_iff h.injective hb fun d hd => (h1 d).1 (hS.subset hd)).1 this
  · intro h
    refine ⟨h.length, h.injective, range_of_places h.places, fun b hb => (hshape b).2 (h.shapes b hb),
      fun b hb => ?_⟩
    have e2 : (fun d => BlankIn ds (.anonymous d) ∧ compare d b ≠ .gt) =
        fun d => d ∈ bs.filter fun d => decide (compare d b ≠ .gt) := by
      funext d
      rw [List.mem_filter, h1, decide_eq_true_iff]
    rw [e2]
    refine (names_iff h.injective hb fun d hd => (h1 d).1 (List.mem_filter.1 hd).1).2 ?_
    exact h.places.flatMap_right _

end order

/-! ## An equivalence -/

theorem consistent_refl (ds : List (Quad (LocalTerm B I L))) : Consistent id ds ds := by
  refine ⟨rfl, fun _ _ _ _ h => h, List.Perm.of_eq ?_, fun _ _ => List.Perm.refl _⟩
  have : (fun q : Quad (Option B) => q.map (Option.map id)) = id := by
    funext q
    obtain ⟨s, p, o, g⟩ := q
    cases g <;> simp [Quad.map]
  rw [this, List.map_id]

theorem Consistent.trans {f f' : B → B} {ds ds' ds'' : List (Quad (LocalTerm B I L))}
    (h : Consistent f ds ds') (h' : Consistent f' ds' ds'') : Consistent (f' ∘ f) ds ds'' := by
  have hr : ∀ b, BlankIn ds (.anonymous b) → BlankIn ds' (.anonymous (f b)) :=
    fun b hb => (range_of_places h.places _).2 ⟨b, hb, rfl⟩
  refine ⟨h.length.trans h'.length, ?_, ?_, ?_⟩
  · intro b b' hb hb' e
    exact h.injective b b' hb hb' (h'.injective _ _ (hr b hb) (hr b' hb') e)
  · have := (h.places.map (·.map (Option.map f'))).trans h'.places
    rw [List.map_map] at this
    refine (List.Perm.of_eq (List.map_congr_left fun φ _ => ?_)).trans this
    rw [Function.comp, quad_map_map]
    congr 1
    funext x
    cases x <;> rfl
  · exact fun b hb => (h.shapes b hb).trans (h'.shapes _ (hr b hb))

theorem Consistent.inverse {f : B → B} {ds ds' : List (Quad (LocalTerm B I L))}
    (h : Consistent f ds ds') : ∃ g, Consistent g ds' ds ∧
      ∀ c, BlankIn ds' (.anonymous c) → f (g c) = c := by
  have hg : ∀ c, ∃ b, BlankIn ds' (.anonymous c) → BlankIn ds (.anonymous b) ∧ f b = c := by
    intro c
    by_cases hc : BlankIn ds' (.anonymous c)
    · obtain ⟨b, hb⟩ := (range_of_places h.places c).1 hc
      exact ⟨b, fun _ => hb⟩
    · exact ⟨c, fun h => absurd h hc⟩
  obtain ⟨g, hg⟩ := Classical.axiomOfChoice hg
  have hgf : ∀ b, BlankIn ds (.anonymous b) → g (f b) = b := by
    intro b hb
    obtain ⟨h1, h2⟩ := hg (f b) ((range_of_places h.places _).2 ⟨b, hb, rfl⟩)
    exact h.injective _ _ h1 hb h2
  refine ⟨g, ⟨h.length.symm, ?_, ?_, ?_⟩, fun c hc => (hg c hc).2⟩
  · intro c c' hc hc' e
    rw [← (hg c hc).2, ← (hg c' hc').2, e]
  · have := (h.places.map (·.map (Option.map g))).symm
    rw [List.map_map] at this
    refine this.trans (List.Perm.of_eq ?_)
    conv => rhs; rw [← List.map_id (frames ds)]
    refine List.map_congr_left fun φ hφ => ?_
    rw [Function.comp, quad_map_map]
    have : φ.map (Option.map g ∘ Option.map f) = φ.map id := by
      refine quad_map_congr fun x hx => ?_
      cases x with
      | none => rfl
      | some b =>
        show some (g (f b)) = some b
        rw [hgf b (blankIn_frames.2 ⟨φ, hφ, hx⟩)]
    rw [this]
    obtain ⟨s, p, o, g⟩ := φ
    cases g <;> rfl
  · intro c hc
    obtain ⟨h1, h2⟩ := hg c hc
    have := (h.shapes _ h1).symm
    rwa [h2] at this

theorem Consistent.symm {f : B → B} {ds ds' : List (Quad (LocalTerm B I L))}
    (h : Consistent f ds ds') : ∃ g, Consistent g ds' ds :=
  let ⟨g, hg, _⟩ := Consistent.inverse h
  ⟨g, hg⟩

theorem surroundings_perm {ds ds' : List (Quad (LocalTerm B I L))} (h : ds.Perm ds')
    (x : LocalTerm B I L) : (surroundings ds x).Perm (surroundings ds' x) :=
  h.flatMap_right _

theorem erase_relabel (f : B → B) : erase ∘ relabel (I := I) (L := L) f = erase := by
  funext x
  cases x <;> rfl

theorem skeleton_relabel (f : B → B) :
    skeleton ∘ relabel (I := I) (L := L) f = Option.map f ∘ skeleton := by
  funext x
  cases x <;> rfl

/-- A dataset whose blank nodes are renamed and whose quads are reordered. -/
theorem consistent_relabel {f : B → B} {ds ds' : List (Quad (LocalTerm B I L))}
    (hf : ∀ b b', BlankIn ds (.anonymous b) → BlankIn ds (.anonymous b') → f b = f b' → b = b')
    (h : (ds.map (·.map (relabel f))).Perm ds') : Consistent f ds ds' := by
  refine ⟨by simpa using h.length_eq, hf, ?_, fun b hb => ?_⟩
  · have h2 : (frames (ds.map (·.map (relabel f)))).Perm (frames ds') := (h.map _).filter _
    refine List.Perm.trans (List.Perm.of_eq ?_) h2
    unfold frames
    rw [List.map_map, List.filter_map, List.filter_map, List.map_map]
    have e1 : (fun q : Quad (LocalTerm B I L) => q.map skeleton) ∘ (fun q : Quad (LocalTerm B I L) => q.map (relabel f)) =
        (fun q : Quad (Option B) => q.map (Option.map f)) ∘
          fun q : Quad (LocalTerm B I L) => q.map skeleton := by
      funext q
      simp only [Function.comp]
      rw [quad_map_map, quad_map_map, skeleton_relabel]
    rw [e1]
    congr 1
    refine List.filter_congr fun q _ => ?_
    simp only [Function.comp]
    rw [positions_map (Option.map f), List.any_map]
    congr 1
    funext x
    cases x <;> rfl
  · refine List.Perm.trans (List.Perm.of_eq ?_) (surroundings_perm h _)
    unfold surroundings
    rw [List.flatMap_map]
    refine flatMap_congr fun q hq => ?_
    rw [quad_map_map, erase_relabel, map_filter_replicate, map_filter_replicate,
      positions_map]
    congr 1
    symm
    refine count_map_of _ _ _ _ fun r hr => ?_
    cases r with
    | named t => simp [relabel]
    | anonymous d =>
      simp only [relabel, LocalTerm.anonymous.injEq]
      exact ⟨fun e => hf d b (blankIn_iff.2 ⟨q, hq, hr⟩) hb e, fun e => by rw [e]⟩

end RdfTypes.Frames
