import Verif.Proof.Frames
import Verif.Spec.Untangled

/-!
# Renamings between datasets whose blank nodes are not entangled
-/

set_option linter.unusedSectionVars false

namespace RdfTypes.Untangled

open Spec Frames

variable {B I L : Type} [DecidableEq B] [DecidableEq I] [DecidableEq L]

/-! ## Terms and quads in two halves -/

theorem term_ext {x y : LocalTerm B I L} (h : skeleton x = skeleton y) (h' : erase x = erase y) :
    x = y := by
  cases x <;> cases y <;> simp [skeleton, erase] at h h' <;> simp [h, h']

theorem quad_ext {q q' : Quad (LocalTerm B I L)} (h : q.map skeleton = q'.map skeleton)
    (h' : q.map erase = q'.map erase) : q = q' := by
  obtain ⟨s, p, o, g⟩ := q
  obtain ⟨s', p', o', g'⟩ := q'
  simp only [Quad.map, Quad.mk.injEq] at h h'
  obtain ⟨h1, h2, h3, h4⟩ := h
  obtain ⟨h1', h2', h3', h4'⟩ := h'
  rw [term_ext h1 h1', term_ext h2 h2', term_ext h3 h3']
  cases g <;> cases g' <;> simp at h4 h4'
  · rfl
  · rw [term_ext h4 h4']

theorem isSome_skeleton (x : LocalTerm B I L) : (skeleton x).isSome = (erase x).isNone := by
  cases x <;> rfl

/-- Quads of the same shape have blank nodes at the same positions. -/
theorem sameSpots_of_shape {q q' : Quad (LocalTerm B I L)} (h : q.map erase = q'.map erase) :
    SameSpots (q.map skeleton) (q'.map skeleton) := by
  unfold SameSpots
  rw [quad_map_map, quad_map_map]
  have e : (Option.isSome ∘ skeleton : LocalTerm B I L → Bool) = Option.isNone ∘ erase := by
    funext x
    exact isSome_skeleton x
  rw [e, ← quad_map_map, ← quad_map_map, h]

/-- Terms that are `b` or no blank node. -/
theorem term_only {b : B} {x y : LocalTerm B I L} (hx : ∀ c, x = .anonymous c → c = b)
    (hy : ∀ c, y = .anonymous c → c = b) (h : erase x = erase y) : x = y := by
  cases x with
  | anonymous c =>
    cases y with
    | anonymous c' => rw [hx c rfl, hy c' rfl]
    | named t => simp [erase] at h
  | named t =>
    cases y with
    | anonymous c' => simp [erase] at h
    | named t' => simpa [erase] using h

/-- Quads of the same shape that have no other blank node than `b`. -/
theorem only_ext {b : B} {q q' : Quad (LocalTerm B I L)}
    (h : ∀ c, .anonymous c ∈ positions q → c = b) (h' : ∀ c, .anonymous c ∈ positions q' → c = b)
    (e : q.map erase = q'.map erase) : q = q' := by
  obtain ⟨s, p, o, g⟩ := q
  obtain ⟨s', p', o', g'⟩ := q'
  simp only [Quad.map, Quad.mk.injEq] at e
  obtain ⟨e1, e2, e3, e4⟩ := e
  have t1 := term_only (b := b) (fun c hc => h c (by simp [positions, hc]))
    (fun c hc => h' c (by simp [positions, hc])) e1
  have t2 := term_only (b := b) (fun c hc => h c (by simp [positions, hc]))
    (fun c hc => h' c (by simp [positions, hc])) e2
  have t3 := term_only (b := b) (fun c hc => h c (by simp [positions, hc]))
    (fun c hc => h' c (by simp [positions, hc])) e3
  subst t1 t2 t3
  cases g with
  | none => cases g' <;> simp at e4; rfl
  | some g =>
    cases g' with
    | none => simp at e4
    | some g' =>
      simp only [Option.map_some, Option.some.injEq] at e4
      rw [term_only (b := b) (fun c hc => h c (by simp [positions, hc]))
        (fun c hc => h' c (by simp [positions, hc])) e4]

theorem not_several {q : Quad (LocalTerm B I L)} {b : B} (hb : .anonymous b ∈ positions q)
    (h : ¬ Several (q.map skeleton)) : ∀ c, .anonymous c ∈ positions q → c = b := by
  intro c hc
  by_cases e : c = b
  · exact e
  · exact absurd ⟨c, b, e, mem_skeleton.2 hc, mem_skeleton.2 hb⟩ h

/-! ## How often a blank node is in a quad -/

theorem count_le (b : B) : ∀ l : List (LocalTerm B I L),
    l.count (.anonymous b) ≤ (l.map erase).count none
  | [] => by simp
  | x :: l => by
    have ih := count_le b l
    rw [List.map_cons, List.count_cons, List.count_cons]
    cases x with
    | anonymous c =>
      simp only [erase, beq_self_eq_true, if_true]
      split <;> omega
    | named t => simpa [erase] using ih

theorem count_lt {b c : B} (hne : c ≠ b) : ∀ l : List (LocalTerm B I L), .anonymous c ∈ l →
    l.count (.anonymous b) < (l.map erase).count none
  | [], h => by simp at h
  | x :: l, h => by
    rw [List.map_cons, List.count_cons, List.count_cons]
    rcases List.mem_cons.1 h with e | h
    · subst e
      have := count_le b l
      have : ¬ (LocalTerm.anonymous c : LocalTerm B I L) = .anonymous b := by simpa using hne
      simp only [erase, beq_self_eq_true, if_true, beq_iff_eq, this, if_false]
      omega
    · have ih := count_lt hne l h
      cases x with
      | anonymous d =>
        simp only [erase, beq_self_eq_true, if_true]
        split <;> omega
      | named t => simpa [erase] using ih

theorem count_only_eq {b : B} : ∀ l : List (LocalTerm B I L), (∀ c, .anonymous c ∈ l → c = b) →
    l.count (.anonymous b) = (l.map erase).count none
  | [], _ => by simp
  | x :: l, h => by
    have ih := count_only_eq l fun c hc => h c (List.mem_cons_of_mem _ hc)
    rw [List.map_cons, List.count_cons, List.count_cons]
    cases x with
    | anonymous c =>
      have : c = b := h c (by simp)
      subst this
      simp [erase, ih]
    | named t => simpa [erase] using ih

/-! ## How often a shape is around a blank node -/

theorem mem_surroundings {ds : List (Quad (LocalTerm B I L))} {x : LocalTerm B I L}
    {s : Quad (Option (Term I L))} :
    s ∈ surroundings ds x ↔ ∃ q ∈ ds, x ∈ positions q ∧ q.map erase = s := by
  unfold surroundings
  simp only [List.mem_flatMap, List.mem_map, List.mem_filter, decide_eq_true_eq]
  constructor
  · rintro ⟨q, hq, y, ⟨hy, rfl⟩, e⟩
    exact ⟨q, hq, hy, e⟩
  · rintro ⟨q, hq, hx, e⟩
    exact ⟨q, hq, x, ⟨hx, rfl⟩, e⟩

theorem count_none {x : LocalTerm B I L} {s : Quad (Option (Term I L))}
    {ds : List (Quad (LocalTerm B I L))}
    (h : ∀ r ∈ ds, r.map erase = s → x ∉ positions r) : (surroundings ds x).count s = 0 := by
  rw [List.count_eq_zero]
  intro hm
  obtain ⟨q, hq, hx, e⟩ := mem_surroundings.1 hm
  exact h q hq e hx

/-- If only one quad of a shape has a blank node, the shape is around it once for each of its
positions there. -/
theorem count_one {x : LocalTerm B I L} {r₀ : Quad (LocalTerm B I L)} :
    ∀ {ds : List (Quad (LocalTerm B I L))}, ds.Nodup → r₀ ∈ ds →
      (∀ r ∈ ds, r.map erase = r₀.map erase → x ∈ positions r → r = r₀) →
      (surroundings ds x).count (r₀.map erase) = (positions r₀).count x
  | [], _, h, _ => by simp at h
  | r :: ds, hn, hm, h => by
    rw [List.nodup_cons] at hn
    have e : surroundings (r :: ds) x =
        List.replicate ((positions r).count x) (r.map erase) ++ surroundings ds x := by
      rw [← map_filter_replicate]
      rfl
    rw [e, List.count_append, List.count_replicate]
    by_cases er : r = r₀
    · subst er
      rw [count_none fun r' hr' e' hx => hn.1 (h r' (List.mem_cons_of_mem _ hr') e' hx ▸ hr')]
      simp
    · have hm' : r₀ ∈ ds := (List.mem_cons.1 hm).resolve_left fun e => er e.symm
      rw [count_one hn.2 hm' fun r' hr' => h r' (List.mem_cons_of_mem _ hr')]
      by_cases es : r.map erase = r₀.map erase
      · have : (positions r).count x = 0 :=
          List.count_eq_zero.2 fun hx => er (h r (by simp) es hx)
        simp [this]
      · simp [es]

/-! ## What two datasets do not have in common -/

section apart

variable {A C : List (Quad (LocalTerm B I L))}

/-- Datasets with no quad in common that agree on places and shapes. -/
structure Apart (A C : List (Quad (LocalTerm B I L))) : Prop where
  nodup : A.Nodup
  nodup' : C.Nodup
  disjoint : ∀ q, q ∈ A → q ∈ C → False
  places : (frames A).Perm (frames C)
  shapes : ∀ b : B, (surroundings A (.anonymous b)).Perm (surroundings C (.anonymous b))

theorem frames_append (X Y : List (Quad (LocalTerm B I L))) :
    frames (X ++ Y) = frames X ++ frames Y := by
  simp [frames]

theorem surroundings_append (X Y : List (Quad (LocalTerm B I L))) (x : LocalTerm B I L) :
    surroundings (X ++ Y) x = surroundings X x ++ surroundings Y x := by
  simp [surroundings]

theorem frames_perm {X Y : List (Quad (LocalTerm B I L))} (h : X.Perm Y) :
    (frames X).Perm (frames Y) := (h.map _).filter _

theorem Apart.of (hA : A.Nodup) (hC : C.Nodup) (places : (frames A).Perm (frames C))
    (shapes : ∀ b : B, (surroundings A (.anonymous b)).Perm (surroundings C (.anonymous b))) :
    Apart (A.filter fun q => !decide (q ∈ C)) (C.filter fun q => !decide (q ∈ A)) := by
  have sA := filter_split (fun q => decide (q ∈ C)) A
  have sC := filter_split (fun q => decide (q ∈ A)) C
  have both : (A.filter fun q => decide (q ∈ C)).Perm (C.filter fun q => decide (q ∈ A)) := by
    rw [List.perm_ext_iff_of_nodup (hA.filter _) (hC.filter _)]
    intro q
    simp [and_comm]
  refine ⟨hA.filter _, hC.filter _, ?_, ?_, fun b => ?_⟩
  · intro q hq hq'
    simp only [List.mem_filter, Bool.not_eq_true', decide_eq_false_iff_not] at hq hq'
    exact hq.2 hq'.1
  · have h := (frames_perm sA).symm.trans (places.trans (frames_perm sC))
    rw [frames_append, frames_append] at h
    exact (List.perm_append_left_iff _).1 (((frames_perm both).symm.append_right _).trans h)
  · have h := (surroundings_perm sA (.anonymous b)).symm.trans
      ((shapes b).trans (surroundings_perm sC _))
    rw [surroundings_append, surroundings_append] at h
    exact (List.perm_append_left_iff _).1
      (((surroundings_perm both (.anonymous b)).symm.append_right _).trans h)

theorem mem_frames_of {ds : List (Quad (LocalTerm B I L))} {q : Quad (LocalTerm B I L)} {b : B}
    (hq : q ∈ ds) (hb : .anonymous b ∈ positions q) : q.map skeleton ∈ frames ds :=
  mem_frames.2 ⟨⟨q, hq, rfl⟩, b, mem_skeleton.2 hb⟩

/-- A quad of either dataset has one of the same shape in the other, around a blank node. -/
theorem Apart.partner (h : Apart A C) {q : Quad (LocalTerm B I L)} {b : B} (hq : q ∈ C)
    (hb : .anonymous b ∈ positions q) :
    ∃ r ∈ A, .anonymous b ∈ positions r ∧ r.map erase = q.map erase :=
  mem_surroundings.1 ((h.shapes b).mem_iff.2 (mem_surroundings.2 ⟨q, hq, hb, rfl⟩))

/-- No quad has a blank node that has only one place. -/
theorem Apart.not_only_place (h : Apart A C) {q : Quad (LocalTerm B I L)} (hq : q ∈ C)
    (hs : Several (q.map skeleton)) {b : B} (hb : .anonymous b ∈ positions q)
    (ho : ∀ ψ ∈ frames C, Several ψ → some b ∈ positions ψ → SameSpots ψ (q.map skeleton) →
      ψ = q.map skeleton) : False := by
  obtain ⟨r, hr, hbr, e⟩ := h.partner hq hb
  have hplace : ∀ r', r' ∈ A ∨ r' ∈ C → .anonymous b ∈ positions r' → r'.map erase = q.map erase →
      Several (r'.map skeleton) → r' = q := by
    intro r' hr' hb' e' hs'
    refine quad_ext (ho _ ?_ hs' (mem_skeleton.2 hb') (sameSpots_of_shape e')) e'
    rcases hr' with hr' | hr'
    · exact h.places.mem_iff.1 (mem_frames_of hr' hb')
    · exact mem_frames_of hr' hb'
  have hr1 : ¬ Several (r.map skeleton) := fun hs' =>
    h.disjoint q (hplace r (.inl hr) hbr e hs' ▸ hr) hq
  have c1 : (surroundings A (.anonymous b)).count (r.map erase) = (positions r).count (.anonymous b) :=
    count_one h.nodup hr fun r' hr' e' hb' => by
      by_cases hs' : Several (r'.map skeleton)
      · exact absurd (hplace r' (.inl hr') hb' (e'.trans e) hs' ▸ hr') fun hm => h.disjoint q hm hq
      · exact only_ext (not_several hb' hs') (not_several hbr hr1) e'
  have c2 : (surroundings C (.anonymous b)).count (q.map erase) = (positions q).count (.anonymous b) :=
    count_one h.nodup' hq fun r' hr' e' hb' => by
      by_cases hs' : Several (r'.map skeleton)
      · exact hplace r' (.inr hr') hb' e' hs'
      · exact absurd (only_ext (not_several hb' hs') (not_several hbr hr1) (e'.trans e.symm) ▸ hr')
          fun hm => h.disjoint r hr hm
  rw [(h.shapes b).count_eq, e, c2, count_only_eq _ (not_several hbr hr1), ← positions_map, e,
    positions_map] at c1
  obtain ⟨c, d, hcd, hc, hd⟩ := hs
  rw [mem_skeleton] at hc hd
  by_cases ec : c = b
  · have := count_lt (b := b) (fun ed => hcd (ec.trans ed.symm)) (positions q) hd
    omega
  · have := count_lt ec (positions q) hc
    omega

/-- No quad has a blank node that has only one shape. -/
theorem Apart.not_only_shape (h : Apart A C) {q : Quad (LocalTerm B I L)} (hq : q ∈ C) {b : B}
    (hb : .anonymous b ∈ positions q)
    (ho : ∀ q' ∈ C, .anonymous b ∈ positions q' → SameSpots (q'.map skeleton) (q.map skeleton) →
      q'.map erase = q.map erase) : False := by
  obtain ⟨⟨r, hr, e⟩, -⟩ := mem_frames.1 (h.places.mem_iff.2 (mem_frames_of hq hb))
  have hbr : .anonymous b ∈ positions r := mem_skeleton.1 (e ▸ mem_skeleton.2 hb)
  obtain ⟨q', hq', hb', e'⟩ : ∃ q' ∈ C, .anonymous b ∈ positions q' ∧ q'.map erase = r.map erase :=
    mem_surroundings.1 ((h.shapes b).mem_iff.1 (mem_surroundings.2 ⟨r, hr, hbr, rfl⟩))
  have := ho q' hq' hb' (e ▸ sameSpots_of_shape e')
  exact h.disjoint q (quad_ext e (e'.symm.trans this) ▸ hr) hq

/-- Untangled datasets differ in no quad with blank nodes. -/
theorem Apart.ground (h : Apart A C) {D : List (Quad (LocalTerm B I L))} (hD : Untangled D)
    (hs : ∀ q ∈ C, q ∈ D) : ∀ q ∈ C, Ground q := by
  have single : ∀ q ∈ C, ¬ Several (q.map skeleton) := by
    intro q₀ hq₀ hs₀
    obtain ⟨b₀, c₀, -, hb₀, -⟩ := id hs₀
    obtain ⟨φ, hφ, hsφ, hSφ, b, hb, ho⟩ := hD (fun φ => φ ∈ frames C)
      ⟨q₀.map skeleton, mem_frames_of (hs _ hq₀) (mem_skeleton.1 hb₀), hs₀,
        mem_frames_of hq₀ (mem_skeleton.1 hb₀)⟩
    obtain ⟨⟨q, hq, rfl⟩, -⟩ := mem_frames.1 hSφ
    rcases ho with ho | ho
    · refine h.not_only_place hq hsφ (mem_skeleton.1 hb) fun ψ hψ hsψ hbψ hsp => ?_
      obtain ⟨⟨q', hq', e⟩, d⟩ := mem_frames.1 hψ
      exact ho ψ (mem_frames.2 ⟨⟨q', hs _ hq', e⟩, d⟩) hsψ hψ hbψ hsp
    · refine h.not_only_shape hq (mem_skeleton.1 hb) fun q' hq' hb' hsp => ?_
      exact ho q' (hs _ hq') q (hs _ hq) ⟨mem_frames_of hq' hb', hb', hsp⟩
        ⟨hSφ, mem_skeleton.1 hb, rfl⟩
  intro q hq b hb
  obtain ⟨r, hr, hbr, e⟩ := h.partner hq hb
  have hrs : ¬ Several (r.map skeleton) := by
    obtain ⟨⟨q', hq', e'⟩, -⟩ := mem_frames.1 (h.places.mem_iff.1 (mem_frames_of hr hbr))
    rw [← e']
    exact single q' hq'
  exact h.disjoint q (only_ext (not_several hbr hrs) (not_several hb (single q hq)) e ▸ hr) hq

theorem Apart.symm (h : Apart A C) : Apart C A :=
  ⟨h.nodup', h.nodup, fun q h1 h2 => h.disjoint q h2 h1, h.places.symm, fun b => (h.shapes b).symm⟩

/-- If one of them has no quad with blank nodes, neither has the other. -/
theorem Apart.ground_left (h : Apart A C) (hC : ∀ q ∈ C, Ground q) : ∀ q ∈ A, Ground q := by
  intro q hq b hb
  obtain ⟨r, hr, hbr, -⟩ := h.symm.partner hq hb
  exact hC r hr b hbr

end apart

/-! ## Renamings -/

theorem relabel_injOn {f : B → B} {ds : List (Quad (LocalTerm B I L))}
    (hf : ∀ b b', BlankIn ds (.anonymous b) → BlankIn ds (.anonymous b') → f b = f b' → b = b')
    {q q' : Quad (LocalTerm B I L)} (hq : q ∈ ds) (hq' : q' ∈ ds)
    (e : q.map (relabel f) = q'.map (relabel f)) : q = q' := by
  refine quad_ext ?_ ?_
  · have e' : (q.map skeleton).map (Option.map f) = (q'.map skeleton).map (Option.map f) := by
      rw [quad_map_map, quad_map_map, ← skeleton_relabel (I := I) (L := L), ← quad_map_map,
        ← quad_map_map, e]
    have inj : ∀ x y : LocalTerm B I L, x ∈ positions q → y ∈ positions q' →
        (skeleton x).map f = (skeleton y).map f → skeleton x = skeleton y := by
      intro x y hx hy e
      cases x with
      | named t => cases y <;> simp [skeleton] at e ⊢
      | anonymous b =>
        cases y with
        | named t => simp [skeleton] at e
        | anonymous c =>
          simp only [skeleton, Option.map_some, Option.some.injEq] at e ⊢
          exact hf b c (blankIn_iff.2 ⟨q, hq, hx⟩) (blankIn_iff.2 ⟨q', hq', hy⟩) e
    obtain ⟨s, p, o, g⟩ := q
    obtain ⟨s', p', o', g'⟩ := q'
    simp only [Quad.map, Quad.mk.injEq] at e' ⊢
    obtain ⟨e1, e2, e3, e4⟩ := e'
    refine ⟨inj _ _ (by simp [positions]) (by simp [positions]) e1,
      inj _ _ (by simp [positions]) (by simp [positions]) e2,
      inj _ _ (by simp [positions]) (by simp [positions]) e3, ?_⟩
    cases g <;> cases g' <;> simp only [Option.map_none, Option.map_some, Option.some.injEq,
      reduceCtorEq] at e4 ⊢
    exact inj _ _ (by simp [positions]) (by simp [positions]) e4
  · have := congrArg (·.map erase) e
    simp only [quad_map_map, erase_relabel] at this
    exact this

theorem nodup_relabel {f : B → B} {ds : List (Quad (LocalTerm B I L))} (hd : ds.Nodup)
    (hf : ∀ b b', BlankIn ds (.anonymous b) → BlankIn ds (.anonymous b') → f b = f b' → b = b') :
    (ds.map (·.map (relabel f))).Nodup := by
  rw [List.Nodup, List.pairwise_map]
  refine List.Pairwise.imp_of_mem (fun {q q'} hq hq' hne e => hne ?_) hd
  exact relabel_injOn hf hq hq' e

theorem not_blankIn {ds : List (Quad (LocalTerm B I L))} {b : B}
    (h : ¬ BlankIn ds (.anonymous b)) : surroundings ds (.anonymous b) = [] := by
  refine List.eq_nil_iff_forall_not_mem.2 fun s hs => ?_
  obtain ⟨q, hq, hb, -⟩ := mem_surroundings.1 hs
  exact h (blankIn_iff.2 ⟨q, hq, hb⟩)

/-- The quads of a consistent renaming and those of the second dataset, without the common
ones. -/
theorem apart_of_consistent {f : B → B} {ds ds' : List (Quad (LocalTerm B I L))}
    (h : Consistent f ds ds') (hd : ds.Nodup) (hd' : ds'.Nodup) :
    Apart ((ds.map (·.map (relabel f))).filter fun q => !decide (q ∈ ds'))
      (ds'.filter fun q => !decide (q ∈ ds.map (·.map (relabel f)))) := by
  have hr := consistent_relabel h.injective (List.Perm.refl (ds.map (·.map (relabel f))))
  have places := hr.places.symm.trans h.places
  refine Apart.of (nodup_relabel hd h.injective) hd' places fun c => ?_
  by_cases hc : BlankIn ds' (.anonymous c)
  · obtain ⟨b, hb, rfl⟩ := (range_of_places h.places c).1 hc
    exact (hr.shapes b hb).symm.trans (h.shapes b hb)
  · have hc' : ¬ BlankIn (ds.map (·.map (relabel f))) (.anonymous c) := by
      rw [blankIn_frames] at hc ⊢
      rintro ⟨φ, hφ, hm⟩
      exact hc ⟨φ, places.mem_iff.1 hφ, hm⟩
    rw [not_blankIn hc, not_blankIn hc']

/-- A consistent renaming gives the quads with blank nodes of an untangled dataset. -/
theorem exact {f : B → B} {ds ds' : List (Quad (LocalTerm B I L))} (h : Consistent f ds ds')
    (hd : ds.Nodup) (hd' : ds'.Nodup) (hu : Untangled ds') {q : Quad (LocalTerm B I L)}
    (hq : ¬ Ground q) : q ∈ ds' ↔ ∃ q₀ ∈ ds, q = q₀.map (relabel f) := by
  have ha := apart_of_consistent h hd hd'
  have hC := ha.ground hu fun q hq => (List.mem_filter.1 hq).1
  have hA := ha.ground_left hC
  constructor
  · intro hm
    by_cases hi : q ∈ ds.map (·.map (relabel f))
    · obtain ⟨q₀, h1, h2⟩ := List.mem_map.1 hi
      exact ⟨q₀, h1, h2.symm⟩
    · exact absurd (hC q (List.mem_filter.2 ⟨hm, by simpa using hi⟩)) hq
  · rintro ⟨q₀, hq₀, rfl⟩
    by_cases hi : q₀.map (relabel f) ∈ ds'
    · exact hi
    · exact absurd (hA _ (List.mem_filter.2 ⟨List.mem_map_of_mem hq₀, by simpa using hi⟩)) hq

theorem ground_relabel {f : B → B} {q : Quad (LocalTerm B I L)} :
    Ground (q.map (relabel f)) ↔ Ground q := by
  unfold Ground
  rw [positions_map]
  constructor
  · intro h b hb
    exact h (f b) (List.mem_map.2 ⟨_, hb, rfl⟩)
  · intro h b hb
    obtain ⟨x, hx, e⟩ := List.mem_map.1 hb
    cases x with
    | anonymous c => exact h c hx
    | named t => simp [relabel] at e

/-- The same when the first dataset is untangled. -/
theorem exact_left {f : B → B} {ds ds' : List (Quad (LocalTerm B I L))} (h : Consistent f ds ds')
    (hd : ds.Nodup) (hd' : ds'.Nodup) (hu : Untangled ds) {q : Quad (LocalTerm B I L)}
    (hq : ¬ Ground q) : q ∈ ds' ↔ ∃ q₀ ∈ ds, q = q₀.map (relabel f) := by
  obtain ⟨g, hg, hfg⟩ := Consistent.inverse h
  have back : ∀ q ∈ ds', (q.map (relabel g)).map (relabel f) = q := by
    intro q hq
    rw [quad_map_map]
    have : q.map (relabel f ∘ relabel g) = q.map id := by
      refine quad_map_congr fun x hx => ?_
      cases x with
      | named t => rfl
      | anonymous c =>
        show LocalTerm.anonymous (f (g c)) = .anonymous c
        rw [hfg c (blankIn_iff.2 ⟨q, hq, hx⟩)]
    rw [this]
    obtain ⟨s, p, o, g⟩ := q
    cases g <;> rfl
  constructor
  · intro hm
    have hg' : ¬ Ground (q.map (relabel g)) := fun h => hq (ground_relabel.1 h)
    exact ⟨_, (exact hg hd' hd hu hg').2 ⟨q, hm, rfl⟩, (back q hm).symm⟩
  · rintro ⟨q₀, hq₀, rfl⟩
    obtain ⟨q₁, hq₁, rfl⟩ := (exact hg hd' hd hu fun h => hq (ground_relabel.2 h)).1 hq₀
    rw [back q₁ hq₁]
    exact hq₁

/-! ## Kinds of untangled datasets -/

theorem exists_deepest (depth : B → Nat) : ∀ l : List (Quad (Option B)),
    ∀ P : Quad (Option B) → Prop, (∃ φ ∈ l, P φ) →
    (∀ φ ∈ l, P φ → ∃ c, Deepest depth c φ) →
    ∃ φ ∈ l, P φ ∧ ∃ c, Deepest depth c φ ∧
      ∀ ψ ∈ l, P ψ → ∀ d, some d ∈ positions ψ → depth d ≤ depth c
  | [], _, h, _ => by simp at h
  | φ :: l, P, h, hc => by
    have top : ∀ ψ c, Deepest depth c ψ → ∀ d, some d ∈ positions ψ → depth d ≤ depth c := by
      intro ψ c h d hd
      by_cases e : d = c
      · rw [e]
        exact Nat.le_refl _
      · exact Nat.le_of_lt (h.2 d hd e)
    by_cases hl : ∃ φ ∈ l, P φ
    · obtain ⟨ψ, hψ, hPψ, c, hcψ, hmax⟩ := exists_deepest depth l P hl
        fun φ hφ => hc φ (List.mem_cons_of_mem _ hφ)
      by_cases hP : P φ
      · obtain ⟨c', hc'⟩ := hc φ (by simp) hP
        by_cases hle : depth c' ≤ depth c
        · refine ⟨ψ, List.mem_cons_of_mem _ hψ, hPψ, c, hcψ, fun χ hχ hPχ d hd => ?_⟩
          rcases List.mem_cons.1 hχ with e | hχ
          · subst e
            exact Nat.le_trans (top _ _ hc' d hd) hle
          · exact hmax χ hχ hPχ d hd
        · refine ⟨φ, by simp, hP, c', hc', fun χ hχ hPχ d hd => ?_⟩
          rcases List.mem_cons.1 hχ with e | hχ
          · subst e
            exact top _ _ hc' d hd
          · have := hmax χ hχ hPχ d hd
            omega
      · refine ⟨ψ, List.mem_cons_of_mem _ hψ, hPψ, c, hcψ, fun χ hχ hPχ d hd => ?_⟩
        rcases List.mem_cons.1 hχ with e | hχ
        · subst e
          exact absurd hPχ hP
        · exact hmax χ hχ hPχ d hd
    · have only : ∀ ψ ∈ φ :: l, P ψ → ψ = φ := by
        intro ψ hψ hP
        rcases List.mem_cons.1 hψ with e | hψ
        · exact e
        · exact absurd ⟨ψ, hψ, hP⟩ hl
      obtain ⟨ψ, hψ, hP⟩ := h
      have := only ψ hψ hP
      subst this
      obtain ⟨c, hcφ⟩ := hc ψ (by simp) hP
      exact ⟨ψ, by simp, hP, c, hcφ, fun χ hχ hPχ d hd => top _ _ hcφ d (only χ hχ hPχ ▸ hd)⟩

theorem of_treeLike {ds : List (Quad (LocalTerm B I L))} (h : TreeLike ds) : Untangled ds := by
  obtain ⟨depth, h1, h2⟩ := h
  intro S ⟨φ₀, hφ₀, hs₀, hS₀⟩
  obtain ⟨φ, hφ, ⟨hs, hS⟩, c, hc, hmax⟩ := exists_deepest depth (frames ds)
    (fun φ => Several φ ∧ S φ) ⟨φ₀, hφ₀, hs₀, hS₀⟩ fun φ hφ hP => h1 φ hφ hP.1
  refine ⟨φ, hφ, hs, hS, c, hc.1, .inl fun ψ hψ hsψ hSψ hcψ _ => ?_⟩
  obtain ⟨d, hd⟩ := h1 ψ hψ hsψ
  have : c = d := by
    by_cases e : c = d
    · exact e
    · have := hd.2 c hcψ e
      have := hmax ψ hψ ⟨hsψ, hSψ⟩ d hd.1
      omega
  subst this
  exact h2 ψ hψ φ hφ hsψ hs c hd hc

theorem of_alike {ds : List (Quad (LocalTerm B I L))} (h : AlikeWhenShared ds) : Untangled ds := by
  intro S ⟨φ, hφ, hs, hS⟩
  obtain ⟨b, c, hbc, hb, hc⟩ := id hs
  refine ⟨φ, hφ, hs, hS, b, hb, .inr fun q hq q' hq' hq2 hq2' => ?_⟩
  obtain ⟨⟨q₀, hq₀, rfl⟩, -⟩ := mem_frames.1 hφ
  rw [mem_skeleton] at hb hc
  exact (h q₀ hq₀ q hq b c hbc hb hc ⟨b, hb, hq2.2.1⟩).symm.trans
    (h q₀ hq₀ q' hq' b c hbc hb hc ⟨b, hb, hq2'.2.1⟩)

theorem of_oneBlank {ds : List (Quad (LocalTerm B I L))} (h : OneBlankEach ds) : Untangled ds := by
  intro S ⟨φ, hφ, hs, hS⟩
  obtain ⟨b, c, hbc, hb, hc⟩ := hs
  obtain ⟨⟨q₀, hq₀, rfl⟩, -⟩ := mem_frames.1 hφ
  exact absurd (h q₀ hq₀ b c (mem_skeleton.1 hb) (mem_skeleton.1 hc)) hbc

end RdfTypes.Untangled
