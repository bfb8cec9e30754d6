import Verif.Spec.PatternMap
import Verif.Proof.Pattern

/-!
# Pattern maps
-/

set_option linter.unusedSectionVars false
set_option linter.unusedSimpArgs false

namespace RdfTypes

open Spec

/-! ## Iterators -/

section iterators

variable {S S' V : Type}

/-- `rest s` are the items left in state `s`; the iterator stays at its end. -/
def Rests (next : Next S V) (rest : S → List V) : Prop :=
  ∀ s, match rest s with
    | [] => ∃ s', next s = (none, s') ∧ rest s' = []
    | v :: l => ∃ s', next s = (some v, s') ∧ rest s' = l

theorem Rests.yields {next : Next S V} {rest : S → List V} (h : Rests next rest) :
    ∀ {l : List V} {s : S}, rest s = l → Yields (fun s => .ok (next s)) s l
  | [], s, e => by
    have := h s
    rw [e] at this
    obtain ⟨s', h1, -⟩ := this
    exact .ends (m' := s') (by rw [h1])
  | v :: l, s, e => by
    have := h s
    rw [e] at this
    obtain ⟨s', h1, h2⟩ := this
    exact .item (m' := s') (by rw [h1]) (h.yields h2)

theorem rests_set : Rests (setNext : Next (List V) V) id := by
  intro s
  cases s <;> simp [setNext]

theorem rests_option {next : Next S V} {rest : S → List V} (h : Rests next rest) :
    Rests (optionNext next) (fun s => s.elim [] rest) := by
  intro s
  cases s with
  | none => exact ⟨none, rfl, rfl⟩
  | some s =>
    have := h s
    simp only [Option.elim]
    split
    next e =>
      rw [e] at this
      obtain ⟨s', h1, h2⟩ := this
      exact ⟨some s', by simp [optionNext, h1], h2⟩
    next v l e =>
      rw [e] at this
      obtain ⟨s', h1, h2⟩ := this
      exact ⟨some s', by simp [optionNext, h1], h2⟩

theorem rests_or {next : Next S V} {rest : S → List V} {next' : Next S' V} {rest' : S' → List V}
    (h : Rests next rest) (h' : Rests next' rest') :
    Rests (orNext next next') (fun s => rest s.1 ++ rest' s.2) := by
  rintro ⟨s, s'⟩
  have h1 := h s
  cases e : rest s with
  | cons v l =>
    rw [e] at h1
    obtain ⟨s1, e1, e2⟩ := h1
    simp only [e, List.cons_append]
    exact ⟨(s1, s'), by simp [orNext, e1], by simp [e2]⟩
  | nil =>
    rw [e] at h1
    obtain ⟨s1, e1, e2⟩ := h1
    have h2 := h' s'
    cases e' : rest' s' with
    | nil =>
      rw [e'] at h2
      obtain ⟨s2, e3, e4⟩ := h2
      simp only [e, e', List.nil_append]
      exact ⟨(s1, s2), by simp [orNext, e1, e3], by simp [e2, e4]⟩
    | cons v l =>
      rw [e'] at h2
      obtain ⟨s2, e3, e4⟩ := h2
      simp only [e, e', List.nil_append]
      exact ⟨(s1, s2), by simp [orNext, e1, e3], by simp [e2, e4]⟩

end iterators

/-! ## Sets -/

section sets

variable {V : Type} [DecidableEq V]

theorem HashSet.mem_insert (l : HashSet V) (v w : V) : w ∈ (HashSet.insert v l).1 ↔ w ∈ l ∨ w = v := by
  unfold HashSet.insert
  split
  · next h => exact ⟨Or.inl, fun h' => h'.elim id (fun e => e ▸ h)⟩
  · simp

theorem HashSet.nodup_insert {l : HashSet V} (h : l.Nodup) (v : V) :
    (HashSet.insert v l).1.Nodup := by
  unfold HashSet.insert
  split
  · exact h
  · next hv =>
    simp only [List.nodup_append, h, true_and]
    refine ⟨by simp, ?_⟩
    intro a ha b hb
    simp at hb
    subst hb
    exact fun e => hv (e ▸ ha)

theorem HashSet.insert_new (l : HashSet V) (v : V) : (HashSet.insert v l).2 = true ↔ v ∉ l := by
  unfold HashSet.insert
  split <;> simp_all

theorem HashSet.mem_extend (l' : HashSet V) :
    ∀ (l : HashSet V) (w : V), w ∈ HashSet.extend l l' ↔ w ∈ l ∨ w ∈ l' := by
  unfold HashSet.extend
  induction l' with
  | nil => simp
  | cons v l' ih =>
    intro l w
    simp only [List.foldl_cons]
    rw [ih, HashSet.mem_insert]
    simp [or_assoc]

theorem HashSet.nodup_extend (l' : HashSet V) :
    ∀ {l : HashSet V}, l.Nodup → (HashSet.extend l l').Nodup := by
  unfold HashSet.extend
  induction l' with
  | nil => exact id
  | cons v l' ih => exact fun h => ih (HashSet.nodup_insert h v)

theorem HashSet.extend_nil (l : HashSet V) : HashSet.extend l [] = l := rfl

end sets

/-! ## Maps seen as functions on patterns -/

variable {P V T : Type} [DecidableEq V]

/-- `at_ m p` is the set stored for the pattern `p`, and `hits t` are the patterns
that match `t`, in the order of lookup. -/
structure Flat (i : MapImpl P V T) (at_ : i.Map → P → HashSet V) (hits : Triple T → List P)
    (rest : i.State → List V) (matching : Triple T → P → Prop) : Prop where
  empty : ∀ p, at_ i.empty p = []
  same : ∀ m p v, at_ (i.insert m p v).1 p = (HashSet.insert v (at_ m p)).1
  other : ∀ m p v q, q ≠ p → at_ (i.insert m p v).1 q = at_ m q
  new : ∀ m p v, (i.insert m p v).2 = (HashSet.insert v (at_ m p)).2
  rests : Rests i.next rest
  get : ∀ m t, rest (i.get m t) = (hits t).flatMap (at_ m)
  nodup : ∀ t, (hits t).Nodup
  mem : ∀ t p, p ∈ hits t ↔ matching t p

/-- Entries of hash maps, and what union does with them. -/
structure Joined (i : MapImpl P V T) (at_ : i.Map → P → HashSet V) (union : i.Map → i.Map → i.Map)
    (keyed : i.Map → P → Prop) (meet : P → P → Prop) : Prop where
  empty : ∀ p, ¬ keyed i.empty p
  insert : ∀ m p v q, keyed (i.insert m p v).1 q → keyed m q ∨ meet q p
  inserts : ∀ m p v q, keyed m q ∨ meet q p → keyed (i.insert m p v).1 q
  both : ∀ a b p, keyed (union a b) p ↔ keyed a p ∨ keyed b p
  free : ∀ a b p, ¬ keyed b p → at_ (union a b) p = HashSet.extend (at_ a p) (at_ b p)
  taken : ∀ a b p, keyed b p → at_ (union a b) p = at_ b p

namespace Flat

variable {i : MapImpl P V T} {at_ : i.Map → P → HashSet V} {hits : Triple T → List P}
  {rest : i.State → List V} {matching : Triple T → P → Prop}

theorem fold (h : Flat i at_ hits rest matching) (p : P) :
    ∀ (l : List (P × V)) (m : i.Map), (at_ m p).Nodup →
      (at_ (l.foldl (fun m x => (i.insert m x.1 x.2).1) m) p).Nodup ∧
      ∀ v, v ∈ at_ (l.foldl (fun m x => (i.insert m x.1 x.2).1) m) p ↔ v ∈ at_ m p ∨ (p, v) ∈ l
  | [], m, hn => ⟨hn, by simp⟩
  | (q, w) :: l, m, hn => by
    have key : (at_ (i.insert m q w).1 p).Nodup ∧
        ∀ v, v ∈ at_ (i.insert m q w).1 p ↔ v ∈ at_ m p ∨ (p, v) = (q, w) := by
      by_cases e : p = q
      · subst e
        rw [h.same]
        exact ⟨HashSet.nodup_insert hn w, fun v => by rw [HashSet.mem_insert]; simp⟩
      · rw [h.other _ _ _ _ e]
        exact ⟨hn, fun v => by simp [e]⟩
    obtain ⟨h1, h2⟩ := fold h p l _ key.1
    refine ⟨h1, fun v => ?_⟩
    simp only [List.foldl_cons, h2, key.2, List.mem_cons, or_assoc]

theorem fill (h : Flat i at_ hits rest matching) (l : List (P × V)) (p : P) :
    (at_ (i.fill l) p).Nodup ∧ ∀ v, v ∈ at_ (i.fill l) p ↔ (p, v) ∈ l := by
  have := h.fold p l i.empty (by rw [h.empty]; simp)
  simpa [h.empty, MapImpl.fill] using this

theorem returns (h : Flat i at_ hits rest matching) (m : i.Map) (t : Triple T) :
    i.Returns m t ((hits t).flatMap (at_ m)) := h.rests.yields (h.get m t)

theorem mem_returned (h : Flat i at_ hits rest matching) (m : i.Map) (t : Triple T) (v : V) :
    v ∈ (hits t).flatMap (at_ m) ↔ ∃ p, matching t p ∧ v ∈ at_ m p := by
  simp [List.mem_flatMap, h.mem]

theorem count_flatMap (f : P → List V) (v : V) :
    ∀ (ps : List P), (∀ p ∈ ps, (f p).Nodup) →
      (ps.flatMap f).count v = (ps.filter (fun p => decide (v ∈ f p))).length
  | [], _ => rfl
  | p :: ps, hn => by
    rw [List.flatMap_cons, List.count_append, count_flatMap f v ps (fun q hq => hn q (by simp [hq]))]
    have := hn p (by simp)
    by_cases hv : v ∈ f p
    · rw [List.filter_cons_of_pos (by simpa using hv), List.length_cons,
        List.Nodup.count this, if_pos hv]
      omega
    · rw [List.filter_cons_of_neg (by simpa using hv), List.count_eq_zero_of_not_mem hv]
      omega

theorem counts (h : Flat i at_ hits rest matching) {m : i.Map} {l : List (P × V)}
    (hm : ∀ p, (at_ m p).Nodup ∧ ∀ v, v ∈ at_ m p ↔ (p, v) ∈ l) (t : Triple T) :
    MapImpl.Counts l (matching t) ((hits t).flatMap (at_ m)) := by
  intro v
  refine ⟨(hits t).filter (fun p => decide (v ∈ at_ m p)), ?_, ?_,
    count_flatMap _ v _ (fun p _ => (hm p).1)⟩
  · exact (h.nodup t).sublist List.filter_sublist
  · intro p
    simp [h.mem, (hm p).2, and_comm]

theorem maps (h : Flat i at_ hits rest matching) : i.Maps matching := by
  refine ⟨fun l t => ⟨_, h.returns _ t, h.counts (h.fill l) t⟩, fun l p v => ?_⟩
  rw [h.new, HashSet.insert_new, (h.fill l p).2]

end Flat

namespace Joined

variable {i : MapImpl P V T} {at_ : i.Map → P → HashSet V} {hits : Triple T → List P}
  {rest : i.State → List V} {matching : Triple T → P → Prop} {union : i.Map → i.Map → i.Map}
  {keyed : i.Map → P → Prop} {meet : P → P → Prop}

theorem keyed_fold (j : Joined i at_ union keyed meet) (p : P) :
    ∀ (l : List (P × V)) (m : i.Map), keyed (l.foldl (fun m x => (i.insert m x.1 x.2).1) m) p →
      keyed m p ∨ ∃ x ∈ l, meet p x.1
  | [], m, h => Or.inl h
  | (q, w) :: l, m, h => by
    rcases keyed_fold j p l _ h with h | ⟨x, hx, hm⟩
    · rcases j.insert _ _ _ _ h with h | h
      · exact Or.inl h
      · exact Or.inr ⟨_, by simp, h⟩
    · exact Or.inr ⟨x, by simp [hx], hm⟩

/-- What the union holds for a pattern. -/
theorem union_at (h : Flat i at_ hits rest matching) (j : Joined i at_ union keyed meet)
    (l l' : List (P × V)) (p : P) :
    (at_ (union (i.fill l) (i.fill l')) p).Nodup ∧
    (∀ v, v ∈ at_ (union (i.fill l) (i.fill l')) p → (p, v) ∈ l ∨ (p, v) ∈ l') ∧
    (∀ v, (p, v) ∈ l' → v ∈ at_ (union (i.fill l) (i.fill l')) p) ∧
    (Apart meet l l' → ∀ v, (p, v) ∈ l → v ∈ at_ (union (i.fill l) (i.fill l')) p) := by
  obtain ⟨h1, h2⟩ := h.fill l p
  obtain ⟨h1', h2'⟩ := h.fill l' p
  by_cases hk : keyed (i.fill l') p
  · rw [j.taken _ _ _ hk]
    refine ⟨h1', fun v hv => Or.inr ((h2' v).1 hv), fun v hv => (h2' v).2 hv, fun ha v hv => ?_⟩
    rcases j.keyed_fold p l' _ hk with he | ⟨x, hx, hm⟩
    · exact absurd he (j.empty p)
    · exact absurd hm (ha _ hv _ hx)
  · rw [j.free _ _ _ hk]
    refine ⟨HashSet.nodup_extend _ h1, fun v hv => ?_, fun v hv => ?_, fun _ v hv => ?_⟩
    · rw [HashSet.mem_extend, h2, h2'] at hv
      exact hv
    · rw [HashSet.mem_extend, h2, h2']
      exact Or.inr hv
    · rw [HashSet.mem_extend, h2, h2']
      exact Or.inl hv

theorem mergesSome (h : Flat i at_ hits rest matching) (j : Joined i at_ union keyed meet) :
    i.MergesSome union := by
  intro l l' t
  refine ⟨_, _, _, h.returns _ t, h.returns _ t, h.returns _ t, ?_, ?_⟩
  · intro v hv
    rw [h.mem_returned] at hv ⊢
    obtain ⟨p, hp, hv⟩ := hv
    exact ⟨p, hp, (j.union_at h l l' p).2.2.1 v (((h.fill l' p).2 v).1 hv)⟩
  · intro v hv
    rw [h.mem_returned] at hv ⊢
    rw [h.mem_returned]
    obtain ⟨p, hp, hv⟩ := hv
    rcases (j.union_at h l l' p).2.1 v hv with hv | hv
    · exact Or.inl ⟨p, hp, ((h.fill l p).2 v).2 hv⟩
    · exact Or.inr ⟨p, hp, ((h.fill l' p).2 v).2 hv⟩

theorem merges (h : Flat i at_ hits rest matching) (j : Joined i at_ union keyed meet) :
    i.Merges union (Apart meet) := by
  intro l l' ha t
  obtain ⟨xs, ys, zs, h1, h2, h3, h4, h5⟩ := j.mergesSome h l l' t
  refine ⟨_, _, _, h.returns _ t, h.returns _ t, h.returns _ t, fun v => ⟨?_, ?_⟩⟩
  · intro hv
    rw [h.mem_returned] at hv ⊢
    rw [h.mem_returned]
    obtain ⟨p, hp, hv⟩ := hv
    rcases (j.union_at h l l' p).2.1 v hv with hv | hv
    · exact Or.inl ⟨p, hp, ((h.fill l p).2 v).2 hv⟩
    · exact Or.inr ⟨p, hp, ((h.fill l' p).2 v).2 hv⟩
  · simp only [h.mem_returned]
    rintro (⟨p, hp, hv⟩ | ⟨p, hp, hv⟩)
    · exact ⟨p, hp, (j.union_at h l l' p).2.2.2 ha v (((h.fill l p).2 v).1 hv)⟩
    · exact ⟨p, hp, (j.union_at h l l' p).2.2.1 v (((h.fill l' p).2 v).1 hv)⟩

theorem mergesCounts (h : Flat i at_ hits rest matching) (j : Joined i at_ union keyed meet) :
    i.MergesCounts union matching (Apart meet) := by
  intro l l' ha t
  refine ⟨_, h.returns _ t, h.counts (fun p => ?_) t⟩
  obtain ⟨h1, h2, h3, h4⟩ := j.union_at h l l' p
  refine ⟨h1, fun v => ⟨fun hv => ?_, fun hv => ?_⟩⟩
  · simpa using h2 v hv
  · rcases List.mem_append.1 hv with hv | hv
    · exact h4 ha v hv
    · exact h3 v hv

theorem keyed_build (j : Joined i at_ union keyed meet) (p : P) :
    ∀ s : Steps P V, keyed (i.build union s) p ↔ ∃ x ∈ s.inserted, meet p x.1
  | .empty => by
    simp only [MapImpl.build, Steps.inserted]
    exact ⟨fun h => absurd h (j.empty p), by simp⟩
  | .insert s q v => by
    have ih := keyed_build j p s
    simp only [MapImpl.build, Steps.inserted]
    constructor
    · intro h
      rcases j.insert _ _ _ _ h with h | h
      · obtain ⟨x, hx, hm⟩ := ih.1 h
        exact ⟨x, by simp [hx], hm⟩
      · exact ⟨_, List.mem_append_right _ (List.mem_singleton_self _), h⟩
    · rintro ⟨x, hx, hm⟩
      rcases List.mem_append.1 hx with hx | hx
      · exact j.inserts _ _ _ _ (Or.inl (ih.2 ⟨x, hx, hm⟩))
      · simp only [List.mem_singleton] at hx
        subst hx
        exact j.inserts _ _ _ _ (Or.inr hm)
  | .union s s' => by
    have ih := keyed_build j p s
    have ih' := keyed_build j p s'
    simp only [MapImpl.build, Steps.inserted]
    rw [j.both, ih, ih']
    simp only [List.mem_append]
    constructor
    · rintro (⟨x, hx, hm⟩ | ⟨x, hx, hm⟩)
      · exact ⟨x, Or.inl hx, hm⟩
      · exact ⟨x, Or.inr hx, hm⟩
    · rintro ⟨x, hx | hx, hm⟩
      · exact Or.inl ⟨x, hx, hm⟩
      · exact Or.inr ⟨x, hx, hm⟩

theorem at_build (h : Flat i at_ hits rest matching) (j : Joined i at_ union keyed meet) (p : P) :
    ∀ s : Steps P V, (at_ (i.build union s) p).Nodup ∧
      ∀ v, v ∈ at_ (i.build union s) p ↔ s.Holds meet p v
  | .empty => by simp [MapImpl.build, h.empty, Steps.Holds]
  | .insert s q w => by
    obtain ⟨h1, h2⟩ := at_build h j p s
    simp only [MapImpl.build, Steps.Holds]
    by_cases e : p = q
    · subst e
      rw [h.same]
      exact ⟨HashSet.nodup_insert h1 w, fun v => by rw [HashSet.mem_insert, h2]; simp⟩
    · rw [h.other _ _ _ _ e]
      exact ⟨h1, fun v => by rw [h2]; simp [e]⟩
  | .union s s' => by
    obtain ⟨h1, h2⟩ := at_build h j p s
    obtain ⟨h1', h2'⟩ := at_build h j p s'
    have hk := j.keyed_build p s'
    simp only [MapImpl.build, Steps.Holds]
    by_cases k : keyed (i.build union s') p
    · rw [j.taken _ _ _ k]
      obtain ⟨x, hx, hm⟩ := hk.1 k
      refine ⟨h1', fun v => ?_⟩
      rw [h2']
      exact ⟨Or.inl, fun h => h.elim id (fun h => absurd hm (h.2 x hx))⟩
    · rw [j.free _ _ _ k]
      refine ⟨HashSet.nodup_extend _ h1, fun v => ?_⟩
      rw [HashSet.mem_extend, h2, h2']
      constructor
      · rintro (hv | hv)
        · exact Or.inr ⟨hv, fun x hx hm => k (hk.2 ⟨x, hx, hm⟩)⟩
        · exact Or.inl hv
      · rintro (hv | hv)
        · exact Or.inr hv
        · exact Or.inl hv.1

theorem mapsUnions (h : Flat i at_ hits rest matching) (j : Joined i at_ union keyed meet) :
    i.MapsUnions union matching meet := by
  refine ⟨fun s t => ⟨_, h.returns _ t, fun v => ?_⟩, fun s p v => ?_⟩
  · refine ⟨(hits t).filter (fun p => decide (v ∈ at_ (i.build union s) p)), ?_, ?_,
      Flat.count_flatMap _ v _ (fun p _ => (at_build h j p s).1)⟩
    · exact (h.nodup t).sublist List.filter_sublist
    · intro p
      simp [h.mem, (at_build h j p s).2, and_comm]
  · rw [h.new, HashSet.insert_new, (at_build h j p s).2]

end Joined

/-! ## Entries -/

section entries

variable {X : Type} [DecidableEq T]

theorem HashMap.entry_same (m : HashMap T X) (k : T) (x : X) (f : X → X × Bool) :
    (m.entry k x f).1 k = some (f ((m k).getD x)).1 := by simp [HashMap.entry]

theorem HashMap.entry_other (m : HashMap T X) (k : T) (x : X) (f : X → X × Bool) (k' : T)
    (h : k' ≠ k) : (m.entry k x f).1 k' = m k' := by simp [HashMap.entry, h]

theorem HashMap.entry_snd (m : HashMap T X) (k : T) (x : X) (f : X → X × Bool) :
    (m.entry k x f).2 = (f ((m k).getD x)).2 := by simp [HashMap.entry]

end entries

namespace PatternMap

open TPat

variable [DecidableEq T]

namespace GivenSubjectGivenPredicateMap

def at_ (m : GivenSubjectGivenPredicateMap V T) : GivenSubjectGivenPredicate T → HashSet V
  | .anyObject => m.any
  | .givenObject o => (m.given o).getD []

def hits (t : Triple T) : List (GivenSubjectGivenPredicate T) :=
  [.anyObject, .givenObject t.o]

def rest (s : Values V) : List V := s.1 ++ s.2.elim [] id

def keyed (m : GivenSubjectGivenPredicateMap V T) : GivenSubjectGivenPredicate T → Prop
  | .givenObject o => m.given o ≠ none
  | _ => False

theorem flat : Flat (Spec.givenSubjectGivenPredicateMap V T) at_ hits rest inGivenSubjectGivenPredicate where
  empty p := by cases p <;> rfl
  same m p v := by cases p <;> simp [insert, at_, HashMap.entry_same]
  other m p v q h := by
    cases p <;> cases q <;> simp_all [insert, at_, HashMap.entry_other]
  new m p v := by cases p <;> simp [insert, at_, HashMap.entry_snd]
  rests := rests_or rests_set (rests_option rests_set)
  get m t := by
    simp only [rest, get, hits]
    cases e : m.given t.o <;> (repeat' split) <;> simp_all [at_]
  nodup t := by
    unfold hits
    (repeat' split) <;> simp
  mem t p := by
    unfold hits
    cases p <;> (repeat' split) <;> simp_all [matchesTriple, eq_comm]

theorem joined : Joined (Spec.givenSubjectGivenPredicateMap V T) at_ unionWith keyed meetGivenSubjectGivenPredicate where
  empty p := by cases p <;> simp [keyed, HashMap.empty]
  insert m p v q h := by
    cases p <;> cases q <;> simp_all [insert, keyed, meetGivenSubjectGivenPredicate]
    next o o' =>
      by_cases e : o' = o
      · exact Or.inr e
      · rw [HashMap.entry_other _ _ _ _ _ e] at h
        exact Or.inl h
  inserts m p v q h := by
    cases p <;> cases q <;> simp_all [insert, keyed, meetGivenSubjectGivenPredicate]
    next o o' =>
      by_cases e : o' = o
      · subst e
        simp [HashMap.entry_same]
      · rw [HashMap.entry_other _ _ _ _ _ e]
        exact h.resolve_right e
  both a b p := by
    cases p <;> simp [keyed, unionWith, HashMap.extend]
    next o => cases a.given o <;> cases b.given o <;> simp
  free a b p h := by
    cases p <;> simp_all [keyed, at_, unionWith, HashMap.extend, HashSet.extend_nil]
  taken a b p h := by
    cases p <;> simp_all [keyed, at_, unionWith, HashMap.extend, Option.ne_none_iff_exists']
    obtain ⟨x, hx⟩ := h
    simp [hx]

theorem at_empty (r) : at_ ({} : GivenSubjectGivenPredicateMap V T) r = [] := flat.empty r

end GivenSubjectGivenPredicateMap

namespace GivenSubjectAnyPredicateMap

def at_ (m : GivenSubjectAnyPredicateMap V T) : GivenSubjectAnyPredicate T → HashSet V
  | .anyObject => m.any
  | .sameAsPredicate => m.sameAsPredicate
  | .givenObject o => (m.given o).getD []

def hits (t : Triple T) : List (GivenSubjectAnyPredicate T) :=
  [.anyObject] ++ ((if t.p = t.o then [.sameAsPredicate] else []) ++ [.givenObject t.o])

def rest (s : Values V) : List V := s.1 ++ (s.2.1.elim [] id ++ s.2.2.elim [] id)

def keyed (m : GivenSubjectAnyPredicateMap V T) : GivenSubjectAnyPredicate T → Prop
  | .givenObject o => m.given o ≠ none
  | _ => False

theorem flat : Flat (Spec.givenSubjectAnyPredicateMap V T) at_ hits rest inGivenSubjectAnyPredicate where
  empty p := by cases p <;> rfl
  same m p v := by cases p <;> simp [insert, at_, HashMap.entry_same]
  other m p v q h := by
    cases p <;> cases q <;> simp_all [insert, at_, HashMap.entry_other]
  new m p v := by cases p <;> simp [insert, at_, HashMap.entry_snd]
  rests := rests_or rests_set (rests_or (rests_option rests_set) (rests_option rests_set))
  get m t := by
    simp only [rest, get, hits]
    cases e : m.given t.o <;> (repeat' split) <;> simp_all [at_]
  nodup t := by
    unfold hits
    (repeat' split) <;> simp
  mem t p := by
    unfold hits
    cases p <;> (repeat' split) <;> simp_all [matchesTriple, eq_comm]

theorem joined : Joined (Spec.givenSubjectAnyPredicateMap V T) at_ unionWith keyed meetGivenSubjectAnyPredicate where
  empty p := by cases p <;> simp [keyed, HashMap.empty]
  insert m p v q h := by
    cases p <;> cases q <;> simp_all [insert, keyed, meetGivenSubjectAnyPredicate]
    next o o' =>
      by_cases e : o' = o
      · exact Or.inr e
      · rw [HashMap.entry_other _ _ _ _ _ e] at h
        exact Or.inl h
  inserts m p v q h := by
    cases p <;> cases q <;> simp_all [insert, keyed, meetGivenSubjectAnyPredicate]
    next o o' =>
      by_cases e : o' = o
      · subst e
        simp [HashMap.entry_same]
      · rw [HashMap.entry_other _ _ _ _ _ e]
        exact h.resolve_right e
  both a b p := by
    cases p <;> simp [keyed, unionWith, HashMap.extend]
    next o => cases a.given o <;> cases b.given o <;> simp
  free a b p h := by
    cases p <;> simp_all [keyed, at_, unionWith, HashMap.extend, HashSet.extend_nil]
  taken a b p h := by
    cases p <;> simp_all [keyed, at_, unionWith, HashMap.extend, Option.ne_none_iff_exists']
    obtain ⟨x, hx⟩ := h
    simp [hx]

end GivenSubjectAnyPredicateMap

namespace AnySubjectGivenPredicateMap

def at_ (m : AnySubjectGivenPredicateMap V T) : AnySubjectGivenPredicate T → HashSet V
  | .anyObject => m.any
  | .sameAsSubject => m.sameAsSubject
  | .givenObject o => (m.given o).getD []

def hits (t : Triple T) : List (AnySubjectGivenPredicate T) :=
  [.anyObject] ++ ((if t.s = t.o then [.sameAsSubject] else []) ++ [.givenObject t.o])

def rest (s : Values V) : List V := s.1 ++ (s.2.1.elim [] id ++ s.2.2.elim [] id)

def keyed (m : AnySubjectGivenPredicateMap V T) : AnySubjectGivenPredicate T → Prop
  | .givenObject o => m.given o ≠ none
  | _ => False

theorem flat : Flat (Spec.anySubjectGivenPredicateMap V T) at_ hits rest inAnySubjectGivenPredicate where
  empty p := by cases p <;> rfl
  same m p v := by cases p <;> simp [insert, at_, HashMap.entry_same]
  other m p v q h := by
    cases p <;> cases q <;> simp_all [insert, at_, HashMap.entry_other]
  new m p v := by cases p <;> simp [insert, at_, HashMap.entry_snd]
  rests := rests_or rests_set (rests_or (rests_option rests_set) (rests_option rests_set))
  get m t := by
    simp only [rest, get, hits]
    cases e : m.given t.o <;> (repeat' split) <;> simp_all [at_]
  nodup t := by
    unfold hits
    (repeat' split) <;> simp
  mem t p := by
    unfold hits
    cases p <;> (repeat' split) <;> simp_all [matchesTriple, eq_comm]

theorem joined : Joined (Spec.anySubjectGivenPredicateMap V T) at_ unionWith keyed meetAnySubjectGivenPredicate where
  empty p := by cases p <;> simp [keyed, HashMap.empty]
  insert m p v q h := by
    cases p <;> cases q <;> simp_all [insert, keyed, meetAnySubjectGivenPredicate]
    next o o' =>
      by_cases e : o' = o
      · exact Or.inr e
      · rw [HashMap.entry_other _ _ _ _ _ e] at h
        exact Or.inl h
  inserts m p v q h := by
    cases p <;> cases q <;> simp_all [insert, keyed, meetAnySubjectGivenPredicate]
    next o o' =>
      by_cases e : o' = o
      · subst e
        simp [HashMap.entry_same]
      · rw [HashMap.entry_other _ _ _ _ _ e]
        exact h.resolve_right e
  both a b p := by
    cases p <;> simp [keyed, unionWith, HashMap.extend]
    next o => cases a.given o <;> cases b.given o <;> simp
  free a b p h := by
    cases p <;> simp_all [keyed, at_, unionWith, HashMap.extend, HashSet.extend_nil]
  taken a b p h := by
    cases p <;> simp_all [keyed, at_, unionWith, HashMap.extend, Option.ne_none_iff_exists']
    obtain ⟨x, hx⟩ := h
    simp [hx]

theorem at_empty (r) : at_ ({} : AnySubjectGivenPredicateMap V T) r = [] := flat.empty r

end AnySubjectGivenPredicateMap

namespace AnySubjectAnyPredicateMap

def at_ (m : AnySubjectAnyPredicateMap V T) : AnySubjectAnyPredicate T → HashSet V
  | .anyObject => m.any
  | .sameAsSubject => m.sameAsSubject
  | .sameAsPredicate => m.sameAsPredicate
  | .givenObject o => (m.given o).getD []

def hits (t : Triple T) : List (AnySubjectAnyPredicate T) :=
  [.anyObject] ++ ((if t.s = t.o then [.sameAsSubject] else []) ++
    ((if t.p = t.o then [.sameAsPredicate] else []) ++ [.givenObject t.o]))

def rest (s : Values V) : List V := s.1 ++ (s.2.1.elim [] id ++ (s.2.2.1.elim [] id ++ s.2.2.2.elim [] id))

def keyed (m : AnySubjectAnyPredicateMap V T) : AnySubjectAnyPredicate T → Prop
  | .givenObject o => m.given o ≠ none
  | _ => False

theorem flat : Flat (Spec.anySubjectAnyPredicateMap V T) at_ hits rest inAnySubjectAnyPredicate where
  empty p := by cases p <;> rfl
  same m p v := by cases p <;> simp [insert, at_, HashMap.entry_same]
  other m p v q h := by
    cases p <;> cases q <;> simp_all [insert, at_, HashMap.entry_other]
  new m p v := by cases p <;> simp [insert, at_, HashMap.entry_snd]
  rests := rests_or rests_set (rests_or (rests_option rests_set) (rests_or (rests_option rests_set) (rests_option rests_set)))
  get m t := by
    simp only [rest, get, hits]
    cases e : m.given t.o <;> (repeat' split) <;> simp_all [at_]
  nodup t := by
    unfold hits
    (repeat' split) <;> simp
  mem t p := by
    unfold hits
    cases p <;> (repeat' split) <;> simp_all [matchesTriple, eq_comm]

theorem joined : Joined (Spec.anySubjectAnyPredicateMap V T) at_ unionWith keyed meetAnySubjectAnyPredicate where
  empty p := by cases p <;> simp [keyed, HashMap.empty]
  insert m p v q h := by
    cases p <;> cases q <;> simp_all [insert, keyed, meetAnySubjectAnyPredicate]
    next o o' =>
      by_cases e : o' = o
      · exact Or.inr e
      · rw [HashMap.entry_other _ _ _ _ _ e] at h
        exact Or.inl h
  inserts m p v q h := by
    cases p <;> cases q <;> simp_all [insert, keyed, meetAnySubjectAnyPredicate]
    next o o' =>
      by_cases e : o' = o
      · subst e
        simp [HashMap.entry_same]
      · rw [HashMap.entry_other _ _ _ _ _ e]
        exact h.resolve_right e
  both a b p := by
    cases p <;> simp [keyed, unionWith, HashMap.extend]
    next o => cases a.given o <;> cases b.given o <;> simp
  free a b p h := by
    cases p <;> simp_all [keyed, at_, unionWith, HashMap.extend, HashSet.extend_nil]
  taken a b p h := by
    cases p <;> simp_all [keyed, at_, unionWith, HashMap.extend, Option.ne_none_iff_exists']
    obtain ⟨x, hx⟩ := h
    simp [hx]

end AnySubjectAnyPredicateMap

theorem nodup_map_of {A B : Type} {f : A → B} {l : List A} (h : l.Nodup)
    (hf : ∀ x y, f x = f y → x = y) : (l.map f).Nodup := by
  rw [List.nodup_iff_pairwise_ne, List.pairwise_map]
  exact h.imp (fun hn e => hn (hf _ _ e))

namespace GivenSubjectMap

def at_ (m : GivenSubjectMap V T) : GivenSubject T → HashSet V
  | .anyPredicate r => m.any.at_ r
  | .givenPredicate k r => (m.given k).elim [] (·.at_ r)

def hits (t : Triple T) : List (GivenSubject T) :=
  (GivenSubjectAnyPredicateMap.hits t).map .anyPredicate ++ (GivenSubjectGivenPredicateMap.hits t).map (.givenPredicate t.p)

def rest (s : Values V) : List V := GivenSubjectAnyPredicateMap.rest s.1 ++ s.2.elim [] GivenSubjectGivenPredicateMap.rest

theorem flat : Flat (Spec.givenSubjectMap V T) at_ hits rest inGivenSubject where
  empty p := by
    cases p with
    | anyPredicate r => exact GivenSubjectAnyPredicateMap.flat.empty r
    | givenPredicate k r => rfl
  same m p v := by
    cases p with
    | anyPredicate r => exact GivenSubjectAnyPredicateMap.flat.same m.any r v
    | givenPredicate k r =>
      simp only [insert, at_, HashMap.entry_same, Option.elim]
      rw [GivenSubjectGivenPredicateMap.flat.same _ r v]
      cases m.given k <;> simp [GivenSubjectGivenPredicateMap.at_empty]
  other m p v q h := by
    cases p with
    | anyPredicate r =>
      cases q with
      | anyPredicate r' => exact GivenSubjectAnyPredicateMap.flat.other m.any r v r' (fun e => h (by rw [e]))
      | _ => rfl
    | givenPredicate k r =>
      cases q with
      | givenPredicate k' r' =>
        by_cases e : k' = k
        · subst e
          simp only [insert, at_, HashMap.entry_same, Option.elim]
          rw [GivenSubjectGivenPredicateMap.flat.other _ r v r' (fun e => h (by rw [e]))]
          cases m.given k' <;> simp [GivenSubjectGivenPredicateMap.at_empty]
        · simp [insert, at_, HashMap.entry_other _ _ _ _ _ e]
      | _ => rfl
  new m p v := by
    cases p with
    | anyPredicate r => exact GivenSubjectAnyPredicateMap.flat.new m.any r v
    | givenPredicate k r =>
      simp only [insert, at_, HashMap.entry_snd]
      rw [GivenSubjectGivenPredicateMap.flat.new _ r v]
      cases m.given k <;> simp [GivenSubjectGivenPredicateMap.at_empty]
  rests := rests_or (GivenSubjectAnyPredicateMap.flat (T := T)).rests (rests_option (GivenSubjectGivenPredicateMap.flat (T := T)).rests)
  get m t := by
    simp only [rest, get, hits, List.flatMap_append, List.flatMap_map]
    congr 1
    · exact GivenSubjectAnyPredicateMap.flat.get m.any t
    · cases e : m.given t.p with
      | none => simp [at_, e]
      | some x =>
        simp only [Option.map_some, Option.elim, at_, e]
        exact GivenSubjectGivenPredicateMap.flat.get x t
  nodup t := by
    have h1 := (GivenSubjectAnyPredicateMap.flat (V := V)).nodup t
    have h2 := (GivenSubjectGivenPredicateMap.flat (V := V)).nodup t
    simp only [hits]
    refine List.nodup_append.2 ⟨?_, ?_, ?_⟩
    · exact nodup_map_of h1 (fun x y e => by cases e; rfl)
    · exact nodup_map_of h2 (fun x y e => by cases e; rfl)
    · simp
  mem t p := by
    have h1 := (GivenSubjectAnyPredicateMap.flat (V := V)).mem t
    have h2 := (GivenSubjectGivenPredicateMap.flat (V := V)).mem t
    cases p with
    | anyPredicate r =>
      have := h1 r
      simp [hits, this]
    | givenPredicate k r =>
      have := h2 r
      by_cases e : t.p = k
      · subst e
        simp [hits, this]
      · have e' : ¬ k = t.p := fun h => e h.symm
        cases r <;> simp [hits, matchesTriple, e, e']

def keyed (m : GivenSubjectMap V T) : GivenSubject T → Prop
  | .anyPredicate r => m.any.keyed r
  | .givenPredicate k _ => m.given k ≠ none

theorem joined : Joined (Spec.givenSubjectMap V T) at_ unionWith keyed meetGivenSubject where
  empty p := by
    cases p with
    | anyPredicate r => exact GivenSubjectAnyPredicateMap.joined.empty r
    | givenPredicate k r => simp [keyed, HashMap.empty]
  insert m p v q h := by
    cases p with
    | anyPredicate r =>
      cases q with
      | anyPredicate r' => exact GivenSubjectAnyPredicateMap.joined.insert m.any r v r' h
      | _ => exact Or.inl h
    | givenPredicate k r =>
      cases q with
      | givenPredicate k' r' =>
        by_cases e : k' = k
        · exact Or.inr e
        · simp only [insert, keyed, HashMap.entry_other _ _ _ _ _ e] at h
          exact Or.inl h
      | _ => exact Or.inl h
  inserts m p v q h := by
    cases p with
    | anyPredicate r =>
      cases q with
      | anyPredicate r' => exact GivenSubjectAnyPredicateMap.joined.inserts m.any r v r' h
      | _ => exact h.elim id (fun h => h.elim)
    | givenPredicate k r =>
      cases q with
      | givenPredicate k' r' =>
        by_cases e : k' = k
        · subst e
          simp [insert, keyed, HashMap.entry_same]
        · simp only [insert, keyed, HashMap.entry_other _ _ _ _ _ e]
          exact h.resolve_right e
      | _ => exact h.elim id (fun h => h.elim)
  both a b p := by
    cases p with
    | anyPredicate r => exact GivenSubjectAnyPredicateMap.joined.both a.any b.any r
    | givenPredicate k r =>
      simp only [keyed, unionWith, HashMap.extend]
      cases a.given k <;> cases b.given k <;> simp
  free a b p h := by
    cases p with
    | anyPredicate r => exact GivenSubjectAnyPredicateMap.joined.free a.any b.any r h
    | givenPredicate k r =>
      simp_all [keyed, at_, unionWith, HashMap.extend, HashSet.extend_nil]
  taken a b p h := by
    cases p with
    | anyPredicate r => exact GivenSubjectAnyPredicateMap.joined.taken a.any b.any r h
    | givenPredicate k r =>
      simp only [keyed, Option.ne_none_iff_exists'] at h
      obtain ⟨x, hx⟩ := h
      simp [at_, unionWith, HashMap.extend, hx]

theorem at_empty (r) : at_ ({} : GivenSubjectMap V T) r = [] := flat.empty r

end GivenSubjectMap

namespace AnySubjectMap

def at_ (m : AnySubjectMap V T) : AnySubject T → HashSet V
  | .anyPredicate r => m.any.at_ r
  | .sameAsSubject r => m.sameAsSubject.at_ r
  | .givenPredicate k r => (m.given k).elim [] (·.at_ r)

def hits (t : Triple T) : List (AnySubject T) :=
  (AnySubjectAnyPredicateMap.hits t).map .anyPredicate ++
    ((if t.s = t.p then (AnySubjectGivenPredicateMap.hits t).map .sameAsSubject else []) ++
      (AnySubjectGivenPredicateMap.hits t).map (.givenPredicate t.p))

def rest (s : Values V) : List V := AnySubjectAnyPredicateMap.rest s.1 ++
    (s.2.1.elim [] AnySubjectGivenPredicateMap.rest ++ s.2.2.elim [] AnySubjectGivenPredicateMap.rest)

theorem flat : Flat (Spec.anySubjectMap V T) at_ hits rest inAnySubject where
  empty p := by
    cases p with
    | anyPredicate r => exact AnySubjectAnyPredicateMap.flat.empty r
    | sameAsSubject r => exact AnySubjectGivenPredicateMap.flat.empty r
    | givenPredicate k r => rfl
  same m p v := by
    cases p with
    | anyPredicate r => exact AnySubjectAnyPredicateMap.flat.same m.any r v
    | sameAsSubject r => exact AnySubjectGivenPredicateMap.flat.same m.sameAsSubject r v
    | givenPredicate k r =>
      simp only [insert, at_, HashMap.entry_same, Option.elim]
      rw [AnySubjectGivenPredicateMap.flat.same _ r v]
      cases m.given k <;> simp [AnySubjectGivenPredicateMap.at_empty]
  other m p v q h := by
    cases p with
    | anyPredicate r =>
      cases q with
      | anyPredicate r' => exact AnySubjectAnyPredicateMap.flat.other m.any r v r' (fun e => h (by rw [e]))
      | _ => rfl
    | sameAsSubject r =>
      cases q with
      | sameAsSubject r' => exact AnySubjectGivenPredicateMap.flat.other m.sameAsSubject r v r' (fun e => h (by rw [e]))
      | _ => rfl
    | givenPredicate k r =>
      cases q with
      | givenPredicate k' r' =>
        by_cases e : k' = k
        · subst e
          simp only [insert, at_, HashMap.entry_same, Option.elim]
          rw [AnySubjectGivenPredicateMap.flat.other _ r v r' (fun e => h (by rw [e]))]
          cases m.given k' <;> simp [AnySubjectGivenPredicateMap.at_empty]
        · simp [insert, at_, HashMap.entry_other _ _ _ _ _ e]
      | _ => rfl
  new m p v := by
    cases p with
    | anyPredicate r => exact AnySubjectAnyPredicateMap.flat.new m.any r v
    | sameAsSubject r => exact AnySubjectGivenPredicateMap.flat.new m.sameAsSubject r v
    | givenPredicate k r =>
      simp only [insert, at_, HashMap.entry_snd]
      rw [AnySubjectGivenPredicateMap.flat.new _ r v]
      cases m.given k <;> simp [AnySubjectGivenPredicateMap.at_empty]
  rests := rests_or (AnySubjectAnyPredicateMap.flat (T := T)).rests
    (rests_or (rests_option (AnySubjectGivenPredicateMap.flat (T := T)).rests) (rests_option (AnySubjectGivenPredicateMap.flat (T := T)).rests))
  get m t := by
    simp only [rest, get, hits, List.flatMap_append, List.flatMap_map]
    congr 1
    · exact AnySubjectAnyPredicateMap.flat.get m.any t
    congr 1
    · split
      · simp only [Option.elim, List.flatMap_map]
        exact AnySubjectGivenPredicateMap.flat.get m.sameAsSubject t
      · rfl
    · cases e : m.given t.p with
      | none => simp [at_, e]
      | some x =>
        simp only [Option.map_some, Option.elim, at_, e]
        exact AnySubjectGivenPredicateMap.flat.get x t
  nodup t := by
    have h1 := (AnySubjectAnyPredicateMap.flat (V := V)).nodup t
    have h2 := (AnySubjectGivenPredicateMap.flat (V := V)).nodup t
    simp only [hits]
    refine List.nodup_append.2 ⟨?_, List.nodup_append.2 ⟨?_, ?_, ?_⟩, ?_⟩
    · exact nodup_map_of h1 (fun x y e => by cases e; rfl)
    · split
      · exact nodup_map_of h2 (fun x y e => by cases e; rfl)
      · simp
    · exact nodup_map_of h2 (fun x y e => by cases e; rfl)
    · split <;> simp
    · intro a ha b hb e
      subst e
      obtain ⟨x, -, rfl⟩ := List.mem_map.1 ha
      split at hb <;> simp at hb
  mem t p := by
    have h1 := (AnySubjectAnyPredicateMap.flat (V := V)).mem t
    have h2 := (AnySubjectGivenPredicateMap.flat (V := V)).mem t
    cases p with
    | anyPredicate r =>
      have := h1 r
      simp only [hits]
      split <;> simp [this]
    | sameAsSubject r =>
      have := h2 r
      simp only [hits]
      split
      · next e =>
        simp only [List.mem_append, List.mem_map]
        cases r <;> simp_all [matchesTriple]
      · next e =>
        have e' : ¬ t.p = t.s := fun h => e h.symm
        cases r <;> simp [matchesTriple, e']
    | givenPredicate k r =>
      have := h2 r
      by_cases e : t.p = k
      · subst e
        simp only [hits]
        split <;> simp [this]
      · have e' : ¬ k = t.p := fun h => e h.symm
        simp only [hits]
        cases r <;> split <;> simp [matchesTriple, e, e']

def keyed (m : AnySubjectMap V T) : AnySubject T → Prop
  | .anyPredicate r => m.any.keyed r
  | .sameAsSubject r => m.sameAsSubject.keyed r
  | .givenPredicate k _ => m.given k ≠ none

theorem joined : Joined (Spec.anySubjectMap V T) at_ unionWith keyed meetAnySubject where
  empty p := by
    cases p with
    | anyPredicate r => exact AnySubjectAnyPredicateMap.joined.empty r
    | sameAsSubject r => exact AnySubjectGivenPredicateMap.joined.empty r
    | givenPredicate k r => simp [keyed, HashMap.empty]
  insert m p v q h := by
    cases p with
    | anyPredicate r =>
      cases q with
      | anyPredicate r' => exact AnySubjectAnyPredicateMap.joined.insert m.any r v r' h
      | _ => exact Or.inl h
    | sameAsSubject r =>
      cases q with
      | sameAsSubject r' => exact AnySubjectGivenPredicateMap.joined.insert m.sameAsSubject r v r' h
      | _ => exact Or.inl h
    | givenPredicate k r =>
      cases q with
      | givenPredicate k' r' =>
        by_cases e : k' = k
        · exact Or.inr e
        · simp only [insert, keyed, HashMap.entry_other _ _ _ _ _ e] at h
          exact Or.inl h
      | _ => exact Or.inl h
  inserts m p v q h := by
    cases p with
    | anyPredicate r =>
      cases q with
      | anyPredicate r' => exact AnySubjectAnyPredicateMap.joined.inserts m.any r v r' h
      | _ => exact h.elim id (fun h => h.elim)
    | sameAsSubject r =>
      cases q with
      | sameAsSubject r' => exact AnySubjectGivenPredicateMap.joined.inserts m.sameAsSubject r v r' h
      | _ => exact h.elim id (fun h => h.elim)
    | givenPredicate k r =>
      cases q with
      | givenPredicate k' r' =>
        by_cases e : k' = k
        · subst e
          simp [insert, keyed, HashMap.entry_same]
        · simp only [insert, keyed, HashMap.entry_other _ _ _ _ _ e]
          exact h.resolve_right e
      | _ => exact h.elim id (fun h => h.elim)
  both a b p := by
    cases p with
    | anyPredicate r => exact AnySubjectAnyPredicateMap.joined.both a.any b.any r
    | sameAsSubject r => exact AnySubjectGivenPredicateMap.joined.both a.sameAsSubject b.sameAsSubject r
    | givenPredicate k r =>
      simp only [keyed, unionWith, HashMap.extend]
      cases a.given k <;> cases b.given k <;> simp
  free a b p h := by
    cases p with
    | anyPredicate r => exact AnySubjectAnyPredicateMap.joined.free a.any b.any r h
    | sameAsSubject r => exact AnySubjectGivenPredicateMap.joined.free a.sameAsSubject b.sameAsSubject r h
    | givenPredicate k r =>
      simp_all [keyed, at_, unionWith, HashMap.extend, HashSet.extend_nil]
  taken a b p h := by
    cases p with
    | anyPredicate r => exact AnySubjectAnyPredicateMap.joined.taken a.any b.any r h
    | sameAsSubject r => exact AnySubjectGivenPredicateMap.joined.taken a.sameAsSubject b.sameAsSubject r h
    | givenPredicate k r =>
      simp only [keyed, Option.ne_none_iff_exists'] at h
      obtain ⟨x, hx⟩ := h
      simp [at_, unionWith, HashMap.extend, hx]

end AnySubjectMap

namespace TriplePatternMap

def at_ (m : TriplePatternMap V T) : CanonicalTriplePattern T → HashSet V
  | .anySubject r => m.any.at_ r
  | .givenSubject k r => (m.given k).elim [] (·.at_ r)

def hits (t : Triple T) : List (CanonicalTriplePattern T) :=
  (AnySubjectMap.hits t).map .anySubject ++ (GivenSubjectMap.hits t).map (.givenSubject t.s)

def rest (s : Values V) : List V := AnySubjectMap.rest s.1 ++ s.2.elim [] GivenSubjectMap.rest

theorem flat : Flat (Spec.triplePatternMap V T) at_ hits rest (fun t p => matchesTriple p t) where
  empty p := by
    cases p with
    | anySubject r => exact AnySubjectMap.flat.empty r
    | givenSubject k r => rfl
  same m p v := by
    cases p with
    | anySubject r => exact AnySubjectMap.flat.same m.any r v
    | givenSubject k r =>
      simp only [insert, at_, HashMap.entry_same, Option.elim]
      rw [GivenSubjectMap.flat.same _ r v]
      cases m.given k <;> simp [GivenSubjectMap.at_empty]
  other m p v q h := by
    cases p with
    | anySubject r =>
      cases q with
      | anySubject r' => exact AnySubjectMap.flat.other m.any r v r' (fun e => h (by rw [e]))
      | _ => rfl
    | givenSubject k r =>
      cases q with
      | givenSubject k' r' =>
        by_cases e : k' = k
        · subst e
          simp only [insert, at_, HashMap.entry_same, Option.elim]
          rw [GivenSubjectMap.flat.other _ r v r' (fun e => h (by rw [e]))]
          cases m.given k' <;> simp [GivenSubjectMap.at_empty]
        · simp [insert, at_, HashMap.entry_other _ _ _ _ _ e]
      | _ => rfl
  new m p v := by
    cases p with
    | anySubject r => exact AnySubjectMap.flat.new m.any r v
    | givenSubject k r =>
      simp only [insert, at_, HashMap.entry_snd]
      rw [GivenSubjectMap.flat.new _ r v]
      cases m.given k <;> simp [GivenSubjectMap.at_empty]
  rests := rests_or (AnySubjectMap.flat (T := T)).rests (rests_option (GivenSubjectMap.flat (T := T)).rests)
  get m t := by
    simp only [rest, get, hits, List.flatMap_append, List.flatMap_map]
    congr 1
    · exact AnySubjectMap.flat.get m.any t
    · cases e : m.given t.s with
      | none => simp [at_, e]
      | some x =>
        simp only [Option.map_some, Option.elim, at_, e]
        exact GivenSubjectMap.flat.get x t
  nodup t := by
    have h1 := (AnySubjectMap.flat (V := V)).nodup t
    have h2 := (GivenSubjectMap.flat (V := V)).nodup t
    simp only [hits]
    refine List.nodup_append.2 ⟨?_, ?_, ?_⟩
    · exact nodup_map_of h1 (fun x y e => by cases e; rfl)
    · exact nodup_map_of h2 (fun x y e => by cases e; rfl)
    · simp
  mem t p := by
    have h1 := (AnySubjectMap.flat (V := V)).mem t
    have h2 := (GivenSubjectMap.flat (V := V)).mem t
    cases p with
    | anySubject r =>
      have := h1 r
      simp [hits, this]
    | givenSubject k r =>
      have := h2 r
      by_cases e : t.s = k
      · subst e
        simp [hits, this]
      · have e' : ¬ k = t.s := fun h => e h.symm
        cases r with
        | anyPredicate r => cases r <;> simp [hits, matchesTriple, e, e']
        | givenPredicate k r => cases r <;> simp [hits, matchesTriple, e, e']

end TriplePatternMap

end PatternMap

end RdfTypes
