import Verif.Proof.Nameless
import Verif.Proof.Untangled
import Verif.Spec.Meaning

/-!
# Resources taken as lexical terms
-/

set_option linter.unusedSectionVars false

namespace RdfTypes.Meaning

open Spec Isomorphism Nameless Frames

variable {R I L : Type} [DecidableEq R] [DecidableEq I] [DecidableEq L]
  {i : ReverseInterpretation R I L}

noncomputable local instance : DecidableEq (R → Prop) := Classical.typeDecidableEq _

theorem skeleton_meaning (r : R) : skeleton (meaning i r) = bare i r := by
  unfold meaning bare
  split <;> rfl

theorem erase_meaning (r : R) : erase (meaning i r) = (class_ i r).map Term.iri := by
  unfold meaning class_
  split <;> rfl

theorem meaning_eq_anonymous {r r' : R} :
    meaning i r = .anonymous r' ↔ nameless i r = true ∧ r = r' := by
  unfold meaning
  split
  · next h => simp [h]
  · next h => simp [h]

theorem relabel_meaning (hn : NamesAgree i) (f : R → R) (r r' : R) :
    relabel f (meaning i r) = meaning i r' ↔ CarriedTo i f r r' := by
  by_cases h : nameless i r = true
  · have e : meaning i r = .anonymous r := meaning_eq_anonymous.2 ⟨h, rfl⟩
    rw [e]
    show LocalTerm.anonymous (f r) = _ ↔ _
    rw [eq_comm, meaning_eq_anonymous]
    constructor
    · rintro ⟨h1, h2⟩
      exact .inl ⟨h, h1, h2.symm⟩
    · rintro (⟨-, h1, h2⟩ | h1)
      · exact ⟨h1, h2.symm⟩
      · exact absurd h1 (not_shares_of_nameless h)
  · have e : meaning i r = .named (.iri (SharesTerm i r)) := by simp [meaning, h]
    rw [e]
    show LocalTerm.named (.iri (SharesTerm i r)) = _ ↔ _
    have hc := class_eq hn r r'
    unfold class_ at hc
    rw [if_neg h] at hc
    constructor
    · intro e'
      by_cases h' : nameless i r' = true
      · rw [meaning_eq_anonymous.2 ⟨h', rfl⟩] at e'
        cases e'
      · simp only [meaning, h', if_false, LocalTerm.named.injEq, Term.iri.injEq,
          Bool.false_eq_true] at e'
        rw [if_neg h', e'] at hc
        rcases hc.1 rfl with hs | hs
        · exact .inr hs
        · exact absurd hs.1 h
    · rintro (⟨h1, -⟩ | hs)
      · exact absurd h1 h
      · have h' : nameless i r' ≠ true := fun hl => not_shares_of_nameless hl (shares_symm hs)
        rw [if_neg h', Option.some.injEq] at hc
        rw [hc.2 (.inl hs)]
        simp [meaning, h']

theorem eachPosition_iff {A C : Type} {P : A → A → Prop} {g g' : A → C}
    (h : ∀ x y, g x = g' y ↔ P x y) (q q' : Quad A) :
    EachPosition P q q' ↔ q.map g = q'.map g' := by
  obtain ⟨s, p, o, k⟩ := q
  obtain ⟨s', p', o', k'⟩ := q'
  cases k <;> cases k' <;> simp [EachPosition, Quad.map, h]

theorem carried_iff (hn : NamesAgree i) (f : R → R) (q q' : Quad R) :
    EachPosition (CarriedTo i f) q q' ↔
      q'.map (meaning i) = (q.map (meaning i)).map (relabel f) := by
  rw [eachPosition_iff (g := fun r => relabel f (meaning i r)) (g' := meaning i)
    (relabel_meaning hn f), quad_map_map, eq_comm]
  rfl

/-- The dataset with its resources taken as terms. -/
abbrev meant (i : ReverseInterpretation R I L) (ds : List (Quad R)) :
    List (Quad (LocalTerm R (R → Prop) Empty)) := ds.map (·.map (meaning i))

theorem relabel_id {B I L : Type} (q : Quad (LocalTerm B I L)) : q.map (relabel id) = q := by
  have : (relabel id : LocalTerm B I L → LocalTerm B I L) = id := by
    funext t
    cases t <;> rfl
  obtain ⟨s, p, o, g⟩ := q
  rw [this]
  cases g <;> rfl

theorem saysOnce_iff (hn : NamesAgree i) (ds : List (Quad R)) :
    SaysOnce i ds ↔ (meant i ds).Nodup := by
  unfold SaysOnce List.Nodup
  rw [List.pairwise_map]
  refine Iff.of_eq ?_
  congr 1
  funext q q'
  rw [carried_iff hn, relabel_id, eq_comm (a := q'.map _)]

theorem mem_positions {q : Quad R} {r : R} :
    LocalTerm.anonymous r ∈ positions (q.map (meaning i)) ↔ r ∈ positions q ∧ nameless i r = true := by
  rw [Frames.positions_map, List.mem_map]
  constructor
  · rintro ⟨x, hx, e⟩
    obtain ⟨h, rfl⟩ := meaning_eq_anonymous.1 e
    exact ⟨hx, h⟩
  · rintro ⟨h1, h2⟩
    exact ⟨r, h1, meaning_eq_anonymous.2 ⟨h2, rfl⟩⟩

theorem blankIn_iff (ds : List (Quad R)) (r : R) :
    BlankIn (meant i ds) (.anonymous r) ↔ NamelessIn i ds r := by
  constructor
  · rintro ⟨-, q, hq, h⟩
    obtain ⟨q', hq', rfl⟩ := List.mem_map.1 hq
    obtain ⟨h1, h2⟩ := mem_positions.1 h
    exact ⟨h2, q', hq', h1⟩
  · rintro ⟨h2, q, hq, h1⟩
    exact ⟨⟨r, rfl⟩, _, List.mem_map.2 ⟨q, hq, rfl⟩, mem_positions.2 ⟨h1, h2⟩⟩

theorem ground_iff (q : Quad R) : Ground (q.map (meaning i)) ↔ AllNamed i q := by
  constructor
  · intro h r hr
    cases e : nameless i r with
    | false => rfl
    | true => exact absurd (mem_positions.2 ⟨hr, e⟩) (h r)
  · intro h r hr
    obtain ⟨h1, h2⟩ := mem_positions.1 hr
    rw [h r h1] at h2
    cases h2

theorem frames_meant (ds : List (Quad R)) : frames (meant i ds) = namelessFrames i ds := by
  unfold frames namelessFrames meant
  rw [List.map_map]
  congr 1
  refine List.map_congr_left fun q _ => ?_
  rw [Function.comp, quad_map_map]
  congr 1
  funext r
  exact skeleton_meaning r

theorem surroundings_meant (ds : List (Quad R)) {r : R} (hr : nameless i r = true) :
    surroundings (meant i ds) (.anonymous r) =
      ((quadsAround ds r).map (·.map (class_ i))).map (·.map (Option.map Term.iri)) := by
  unfold surroundings quadsAround meant
  rw [List.map_flatMap, List.map_flatMap, List.flatMap_map]
  refine Frames.flatMap_congr fun q _ => ?_
  rw [Frames.positions_map, List.filter_map, List.map_map, List.map_map, List.map_map]
  have e : ((fun x => decide (x = LocalTerm.anonymous r)) ∘ meaning i) = fun x => decide (x = r) := by
    funext x
    rw [Function.comp, decide_eq_decide, meaning_eq_anonymous]
    exact ⟨fun h => h.2, fun h => ⟨h ▸ hr, h⟩⟩
  rw [e]
  refine List.map_congr_left fun x _ => ?_
  simp only [Function.comp, quad_map_map]
  congr 1
  funext y
  exact erase_meaning y

theorem perm_of_map {A C : Type} {g : A → C} {g' : C → A} (h : ∀ x, g' (g x) = x) {l l' : List A}
    (hp : (l.map g).Perm (l'.map g)) : l.Perm l' := by
  have := hp.map g'
  rw [List.map_map, List.map_map] at this
  have e : g' ∘ g = id := funext h
  rwa [e, List.map_id, List.map_id] at this

/-- The inverse of wrapping. -/
private def unwrap : Option (Term (R → Prop) Empty) → Option (R → Prop)
  | some (.iri k) => some k
  | _ => none

theorem consistent_iff (hn : NamesAgree i) {f : R → R} {ds ds' : List (Quad R)} :
    ConsistentWith i f ds ds' ↔ Consistent f (meant i ds) (meant i ds') := by
  have shapes : ((namelessFrames i ds).map (·.map (Option.map f))).Perm (namelessFrames i ds') →
      ∀ r, NamelessIn i ds r →
      (Paired (EachPosition (Alike i)) (quadsAround ds r) (quadsAround ds' (f r)) ↔
        (surroundings (meant i ds) (.anonymous r)).Perm
          (surroundings (meant i ds') (.anonymous (f r)))) := by
    intro hp r hr
    have hfr : nameless i (f r) = true := ((range_of_places hp (f r)).2 ⟨r, hr, rfl⟩).1
    rw [surroundings_meant ds hr.1, surroundings_meant ds' hfr, shapes_iff hn]
    constructor
    · exact fun h => h.map _
    · refine fun h => perm_of_map (g' := fun q => q.map unwrap) (fun q => ?_) h
      obtain ⟨s, p, o, g⟩ := q
      have e : ∀ x : Option (R → Prop), unwrap (x.map Term.iri) = x := by
        intro x
        cases x <;> rfl
      cases g <;> simp [Quad.map, e]
  constructor
  · rintro ⟨h1, h2, h3, h4⟩
    refine ⟨by simpa using h1, fun b b' hb hb' => h2 b b' ((blankIn_iff ds b).1 hb) ((blankIn_iff ds b').1 hb'), ?_, ?_⟩
    · rw [frames_meant, frames_meant]
      exact h3
    · intro b hb
      exact (shapes h3 b ((blankIn_iff ds b).1 hb)).1 (h4 b ((blankIn_iff ds b).1 hb))
  · rintro ⟨h1, h2, h3, h4⟩
    rw [frames_meant, frames_meant] at h3
    refine ⟨by simpa using h1, fun b b' hb hb' => h2 b b' ((blankIn_iff ds b).2 hb) ((blankIn_iff ds b').2 hb'), h3, ?_⟩
    intro b hb
    exact (shapes h3 b hb).2 (h4 b ((blankIn_iff ds b).2 hb))

theorem related_iff (hn : NamesAgree i) {f : R → R} {ds ds' : List (Quad R)} :
    RelatedWith i f ds ds' ↔ RelatedBy f (meant i ds) (meant i ds') := by
  constructor
  · rintro ⟨h1, h2, h3⟩
    refine ⟨fun b b' hb hb' => h1 b b' ((blankIn_iff ds b).1 hb) ((blankIn_iff ds b').1 hb'), ?_⟩
    intro q
    constructor
    · intro hq
      obtain ⟨q', hq', rfl⟩ := List.mem_map.1 hq
      obtain ⟨q₀, h4, h5⟩ := h3 q' hq'
      exact ⟨_, List.mem_map.2 ⟨q₀, h4, rfl⟩, (carried_iff hn f q₀ q').1 h5⟩
    · rintro ⟨q₁, hq₁, rfl⟩
      obtain ⟨q₀, hq₀, rfl⟩ := List.mem_map.1 hq₁
      obtain ⟨q', h4, h5⟩ := h2 q₀ hq₀
      exact List.mem_map.2 ⟨q', h4, (carried_iff hn f q₀ q').1 h5⟩
  · rintro ⟨h1, h2⟩
    refine ⟨fun b b' hb hb' => h1 b b' ((blankIn_iff ds b).2 hb) ((blankIn_iff ds b').2 hb'), ?_, ?_⟩
    · intro q hq
      obtain ⟨q', h4, h5⟩ := List.mem_map.1 ((h2 _).2 ⟨_, List.mem_map.2 ⟨q, hq, rfl⟩, rfl⟩)
      exact ⟨q', h4, (carried_iff hn f q q').2 h5⟩
    · intro q' hq'
      obtain ⟨q₀, h4, h5⟩ := (h2 _).1 (List.mem_map.2 ⟨q', hq', rfl⟩)
      obtain ⟨q, hq, rfl⟩ := List.mem_map.1 h4
      exact ⟨q, hq, (carried_iff hn f q q').2 h5⟩

/-- A renaming that gives the quads of the second dataset is consistent. -/
theorem consistent_of_related (hn : NamesAgree i) {f : R → R} {ds ds' : List (Quad R)}
    (hd : SaysOnce i ds) (hd' : SaysOnce i ds') (h : RelatedWith i f ds ds') :
    ConsistentWith i f ds ds' := by
  rw [saysOnce_iff hn] at hd hd'
  obtain ⟨h1, h2⟩ := (related_iff hn).1 h
  refine (consistent_iff hn).2 (Frames.consistent_relabel h1 ?_)
  refine (List.perm_ext_iff_of_nodup (Untangled.nodup_relabel hd h1) hd').2 fun q => ?_
  rw [h2, List.mem_map]
  exact exists_congr fun _ => and_congr_right fun _ => eq_comm

end RdfTypes.Meaning
