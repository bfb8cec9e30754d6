import Verif.Proof.Map
import Verif.Spec.Isomorphism

/-!
# Isomorphism of datasets
-/

set_option linter.unusedSectionVars false
set_option linter.unusedSimpArgs false

namespace RdfTypes.Isomorphism

open Spec

variable {R I L : Type} [Ord R] [DecidableEq R] [DecidableEq I] [DecidableEq L]

/-! ## Greedy matching -/

section greedy

/-- The quads left. -/
def left (other : List (Option (Quad R))) : List (Quad R) := other.filterMap id

theorem takeFirst_spec (f : Quad R → Bool) :
    ∀ other, match takeFirst f other with
      | some other' => ∃ q, f q = true ∧ (left other).Perm (q :: left other')
      | none => ∀ q ∈ left other, f q = false
  | [] => by simp [takeFirst, left]
  | none :: other => by
    have := takeFirst_spec f other
    unfold takeFirst
    cases e : takeFirst f other with
    | none =>
      rw [e] at this
      simpa [left] using this
    | some other' =>
      rw [e] at this
      obtain ⟨q, h1, h2⟩ := this
      exact ⟨q, h1, by simpa [left] using h2⟩
  | some q :: other => by
    unfold takeFirst
    by_cases hq : f q = true
    · simp only [hq, if_true]
      exact ⟨q, hq, by simp [left]⟩
    · simp only [hq]
      have := takeFirst_spec f other
      cases e : takeFirst f other with
      | none =>
        rw [e] at this
        simp only [left, List.filterMap_cons, id] at this ⊢
        intro q' hq'
        rcases List.mem_cons.1 hq' with rfl | h
        · simpa using hq
        · exact this q' h
      | some other' =>
        rw [e] at this
        obtain ⟨q', h1, h2⟩ := this
        refine ⟨q', h1, ?_⟩
        simp only [left, List.filterMap_cons, id] at h2 ⊢
        exact (h2.cons q).trans (List.Perm.swap _ _ _)

/-- When matching is equality of keys, taking the first match is enough. -/
theorem takeAll_iff {K : Type} {f : Quad R → Quad R → Bool} (k k' : Quad R → K)
    (hf : ∀ q q', f q q' = true ↔ k q = k' q') :
    ∀ (a : List (Quad R)) (other : List (Option (Quad R))),
      takeAll f a other = true ↔ ∃ rest, ((left other).map k').Perm (a.map k ++ rest)
  | [], other => by
    simp only [takeAll, List.map_nil, List.nil_append, true_iff]
    exact ⟨_, List.Perm.refl _⟩
  | q :: a, other => by
    have hs := takeFirst_spec (f q) other
    unfold takeAll
    cases e : takeFirst (f q) other with
    | some other' =>
      rw [e] at hs
      obtain ⟨q', h1, h2⟩ := hs
      simp only
      rw [takeAll_iff k k' hf a other']
      have h3 : ((left other).map k').Perm (k q :: (left other').map k') := by
        have := h2.map k'
        rw [List.map_cons, ← (hf q q').1 h1] at this
        exact this
      simp only [List.map_cons, List.cons_append]
      exact ⟨fun ⟨rest, h⟩ => ⟨rest, h3.trans (h.cons _)⟩,
        fun ⟨rest, h⟩ => ⟨rest, (h3.symm.trans h).cons_inv⟩⟩
    | none =>
      rw [e] at hs
      simp only [Bool.false_eq_true, false_iff]
      rintro ⟨rest, h⟩
      have : k q ∈ (left other).map k' := h.mem_iff.2 (by simp)
      obtain ⟨q', hq', e'⟩ := List.mem_map.1 this
      have := hs q' hq'
      rw [(hf q q').2 e'.symm] at this
      cases this

theorem takeAll_map_iff {K : Type} {f : Quad R → Quad R → Bool} (k k' : Quad R → K)
    (hf : ∀ q q', f q q' = true ↔ k q = k' q') (a b : List (Quad R)) :
    (if a.length = b.length then takeAll f a (b.map some) else false) = true ↔
      (a.map k).Perm (b.map k') := by
  have hl : left (b.map some) = b := by simp [left, List.filterMap_map]
  constructor
  · intro h
    split at h
    · next e =>
      obtain ⟨rest, h⟩ := (takeAll_iff k k' hf _ _).1 h
      rw [hl] at h
      have := h.length_eq
      simp at this
      have : rest = [] := List.length_eq_zero_iff.1 (by omega)
      subst this
      simpa using h.symm
    · cases h
  · intro h
    have e := h.length_eq
    simp at e
    rw [if_pos e, takeAll_iff k k' hf, hl]
    exact ⟨[], by simpa using h.symm⟩

end greedy

/-! ## Matching of resources -/

section matching

variable (i : ReverseInterpretation R I L)

/-- The resources have at most one name. -/
structure Kinds {K : Type} (kind : R → Option K) : Prop where
  anonymous : ∀ r, i.isAnonymous r = true ↔ kind r = none
  same : ∀ a b, ((i.irisOf a).any (fun x => (i.irisOf b).any (fun y => x = y)) ||
    (i.literalsOf a).any (fun x => (i.literalsOf b).any (fun y => x = y))) = true ↔
      kind a = kind b ∧ kind a ≠ none

variable {i} {K : Type} {kind : R → Option K}

theorem Kinds.resourceMatches (hk : Kinds i kind) (a b : R) :
    resourceMatches i a b = true ↔ kind a = kind b := by
  unfold Isomorphism.resourceMatches
  rw [Bool.or_eq_true, hk.same, Bool.and_eq_true, hk.anonymous, hk.anonymous]
  constructor
  · rintro (h | ⟨h1, h2⟩)
    · exact h.1
    · rw [h1, h2]
  · intro h
    by_cases hn : kind a = none
    · exact Or.inr ⟨hn, h ▸ hn⟩
    · exact Or.inl ⟨h, hn⟩

omit [Ord R] [DecidableEq R] in
theorem quad_map_eq {K : Type} (k k' : R → K) (a b : Quad R) :
    (k a.s = k' b.s ∧ k a.p = k' b.p ∧ k a.o = k' b.o ∧ a.g.map k = b.g.map k') ↔
      a.map k = b.map k' := by
  simp [Quad.map]

theorem Kinds.quadMatches (hk : Kinds i kind) (a b : Quad R) :
    quadMatches i a b = true ↔ a.map kind = b.map kind := by
  rw [← quad_map_eq]
  unfold Isomorphism.quadMatches
  simp only [Bool.and_eq_true, hk.resourceMatches, and_assoc]
  refine and_congr Iff.rfl (and_congr Iff.rfl (and_congr Iff.rfl ?_))
  cases a.g <;> cases b.g <;> simp [hk.resourceMatches]

theorem Kinds.matches_ (hk : Kinds i kind) (a b : BlankSignature R) :
    a.matches_ i b = true ↔ (a.map (·.map kind)).Perm (b.map (·.map kind)) :=
  takeAll_map_iff _ _ hk.quadMatches a b

end matching

/-! ## Partial bijections -/

section bijections

variable [Std.TransOrd R] [Std.LawfulEqOrd R] {i : ReverseInterpretation R I L} {K : Type}
  {kind : R → Option K}

/-- The two maps are inverse of each other and only about blank nodes. -/
structure Good (kind : R → Option K) (m : Bijection R) : Prop where
  sorted : m.forward.Sorted
  sorted' : m.backward.Sorted
  inverse : ∀ x y, m.forward.get x = some y ↔ m.backward.get y = some x
  blank : ∀ x y, m.forward.get x = some y → kind x = none ∧ kind y = none

theorem Good.empty : Good kind ({} : Bijection R) :=
  ⟨OrdMap.sorted_nil, OrdMap.sorted_nil, fun _ _ => by simp [OrdMap.get], fun _ _ => by
    simp [OrdMap.get]⟩

theorem Good.insert {m : Bijection R} (h : Good kind m) {x y : R} (hx : kind x = none)
    (hy : kind y = none) (hx' : m.forward.get x = none) (hy' : m.backward.get y = none) :
    Good kind (m.insert x y) where
  sorted := OrdMap.sorted_insert _ _ h.sorted
  sorted' := OrdMap.sorted_insert _ _ h.sorted'
  inverse x' y' := by
    simp only [Bijection.insert]
    rw [OrdMap.get_insert _ _ _ h.sorted, OrdMap.get_insert _ _ _ h.sorted']
    by_cases e : x' = x
    · subst e
      by_cases e' : y' = y
      · subst e'
        simp
      · simp only [if_pos, e', if_neg, not_false_eq_true]
        constructor
        · intro h'
          exact absurd (Option.some.inj h').symm e'
        · intro h'
          rw [← h.inverse, hx'] at h'
          cases h'
    · by_cases e' : y' = y
      · subst e'
        simp only [if_neg e, if_pos]
        constructor
        · intro h'
          rw [h.inverse, hy'] at h'
          cases h'
        · intro h'
          exact absurd (Option.some.inj h').symm e
      · simp only [if_neg e, if_neg e']
        exact h.inverse x' y'
  blank x' y' h' := by
    simp only [Bijection.insert] at h'
    rw [OrdMap.get_insert _ _ _ h.sorted] at h'
    split at h'
    · next e =>
      cases h'
      exact ⟨e ▸ hx, hy⟩
    · exact h.blank _ _ h'

/-- What `resource_matches_with` compares on the left and on the right. -/
def leftKey (m : Bijection R) (a : R) : Option R := m.forward.get a

def rightKey (m : Bijection R) (b : R) : Option R := (m.backward.get b).map (fun _ => b)

theorem Good.resourceMatchesWith {m : Bijection R} (h : Good kind m) (hk : Kinds i kind)
    (a b : R) : m.resourceMatchesWith i a b = true ↔ leftKey m a = rightKey m b := by
  unfold Bijection.resourceMatchesWith leftKey rightKey
  rw [Bool.or_eq_true, hk.same]
  have hn : ∀ x, kind x ≠ none → m.forward.get x = none ∧ m.backward.get x = none := by
    intro x hx
    constructor
    · cases e : m.forward.get x with
      | none => rfl
      | some y => exact absurd (h.blank _ _ e).1 hx
    · cases e : m.backward.get x with
      | none => rfl
      | some y => exact absurd (h.blank _ _ ((h.inverse _ _).2 e)).2 hx
  constructor
  · rintro (⟨h1, h2⟩ | h1)
    · rw [(hn a h2).1, (hn b (h1 ▸ h2)).2]
      rfl
    · split at h1
      · next c e =>
        simp only [decide_eq_true_eq] at h1
        subst h1
        rw [e, (h.inverse _ _).1 e]
        rfl
      · next e =>
        split at h1
        · next c e' =>
          simp only [decide_eq_true_eq] at h1
          subst h1
          rw [(h.inverse _ _).2 e'] at e
          cases e
        · next e' =>
          rw [e, e']
          rfl
  · intro h1
    right
    cases e : m.forward.get a with
    | some c =>
      rw [e] at h1
      cases e' : m.backward.get b with
      | none => simp [e'] at h1
      | some d =>
        simp only [e', Option.map_some, Option.some.injEq] at h1
        simpa using h1
    | none =>
      rw [e] at h1
      cases e' : m.backward.get b with
      | none => rfl
      | some d => simp [e'] at h1

theorem Good.quadMatchesWith {m : Bijection R} (h : Good kind m) (hk : Kinds i kind)
    (a b : Quad R) :
    m.quadMatchesWith i a b = true ↔ a.map (leftKey m) = b.map (rightKey m) := by
  rw [← quad_map_eq]
  unfold Bijection.quadMatchesWith
  simp only [Bool.and_eq_true, h.resourceMatchesWith hk, and_assoc]
  refine and_congr Iff.rfl (and_congr Iff.rfl (and_congr Iff.rfl ?_))
  cases a.g <;> cases b.g <;> simp [h.resourceMatchesWith hk]

theorem Good.signatureMatchesWith {m : Bijection R} (h : Good kind m) (hk : Kinds i kind)
    (a b : BlankSignature R) : m.signatureMatchesWith i a b = true ↔
      (a.map (·.map (leftKey m))).Perm (b.map (·.map (rightKey m))) :=
  takeAll_map_iff _ _ (h.quadMatchesWith hk) a b

end bijections

/-! ## Signatures -/

section signatures

variable (i : ReverseInterpretation R I L)

/-- The blank nodes of a quad. -/
def blanksOf (q : Quad R) : List R := (positions q).filter i.isAnonymous

/-- The quads around a blank node. -/
def sigOf (ds : List (Quad R)) (x : R) : List (Quad R) :=
  ds.flatMap (fun q => ((blanksOf i q).filter (· = x)).map (fun _ => q))

theorem collectQuad_eq (map : OrdMap R (BlankSignature R)) (q : Quad R) :
    collectQuad i map q = (blanksOf i q).foldl (fun m x => m.entry x [] (· ++ [q])) map := by
  unfold collectQuad blanksOf positions
  cases hg : q.g <;> cases h1 : i.isAnonymous q.s <;> cases h2 : i.isAnonymous q.p <;>
    cases h3 : i.isAnonymous q.o <;> simp_all
  all_goals split <;> simp_all

theorem blankCount_eq (q : Quad R) : blankCount i q = (blanksOf i q).length := by
  unfold blankCount blanksOf positions
  cases hg : q.g <;> cases h1 : i.isAnonymous q.s <;> cases h2 : i.isAnonymous q.p <;>
    cases h3 : i.isAnonymous q.o <;> simp_all
  all_goals split <;> simp_all

variable [Std.TransOrd R] [Std.LawfulEqOrd R]

/-- The quads held for a blank node. -/
def held (m : OrdMap R (BlankSignature R)) (x : R) : BlankSignature R := (m.get x).getD []

/-- Ordered maps without empty signatures. -/
structure Full (m : OrdMap R (BlankSignature R)) : Prop where
  sorted : m.Sorted
  nonempty : ∀ x, m.get x ≠ some []

theorem Full.get_eq {m : OrdMap R (BlankSignature R)} (h : Full m) (x : R) :
    m.get x = if held m x = [] then none else some (held m x) := by
  unfold held
  have := h.nonempty x
  cases e : m.get x with
  | none => rfl
  | some l =>
    rw [e] at this
    have : l ≠ [] := fun e => this (by rw [e])
    simp [this]

theorem Full.entry {m : OrdMap R (BlankSignature R)} (h : Full m) (x : R) (q : Quad R) :
    Full (m.entry x [] (· ++ [q])) ∧
    ∀ y, held (m.entry x [] (· ++ [q])) y = held m y ++ if x = y then [q] else [] := by
  refine ⟨⟨OrdMap.sorted_entry _ _ _ h.sorted, fun y => ?_⟩, fun y => ?_⟩
  · rw [OrdMap.get_entry _ _ _ _ h.sorted]
    split
    · simp
    · exact h.nonempty y
  · unfold held
    rw [OrdMap.get_entry _ _ _ _ h.sorted]
    by_cases e : y = x
    · subst e
      simp
    · have e' : ¬ x = y := fun h => e h.symm
      simp [e, e']

theorem Full.fold {q : Quad R} : ∀ (l : List R) {m : OrdMap R (BlankSignature R)}, Full m →
    Full (l.foldl (fun m x => m.entry x [] (· ++ [q])) m) ∧
    ∀ y, held (l.foldl (fun m x => m.entry x [] (· ++ [q])) m) y =
      held m y ++ (l.filter (· = y)).map (fun _ => q)
  | [], m, h => ⟨h, fun y => by simp⟩
  | x :: l, m, h => by
    obtain ⟨h1, h2⟩ := h.entry x q
    obtain ⟨h3, h4⟩ := Full.fold (q := q) l h1
    refine ⟨h3, fun y => ?_⟩
    rw [List.foldl_cons, h4, h2]
    by_cases e : x = y <;> simp [e, List.filter_cons]

theorem Full.collect : ∀ (ds : List (Quad R)) {m : OrdMap R (BlankSignature R)}, Full m →
    Full (ds.foldl (collectQuad i) m) ∧
    ∀ y, held (ds.foldl (collectQuad i) m) y = held m y ++ sigOf i ds y
  | [], m, h => ⟨h, fun y => by simp [sigOf]⟩
  | q :: ds, m, h => by
    have h0 := Full.fold (q := q) (blanksOf i q) h
    rw [← collectQuad_eq] at h0
    obtain ⟨h1, h2⟩ := h0
    obtain ⟨h3, h4⟩ := Full.collect ds h1
    refine ⟨h3, fun y => ?_⟩
    rw [List.foldl_cons, h4, h2]
    simp [sigOf]

theorem full_empty : Full ([] : OrdMap R (BlankSignature R)) :=
  ⟨OrdMap.sorted_nil, fun x => by simp [OrdMap.get]⟩

theorem collectSignatures_sorted (ds : List (Quad R)) : (collectSignatures i ds).Sorted :=
  OrdMap.sorted_map sortUnstable (Full.collect i ds full_empty).1.sorted

theorem collectSignatures_get (ds : List (Quad R)) (x : R) :
    (collectSignatures i ds).get x =
      if sigOf i ds x = [] then none else some (sortUnstable (sigOf i ds x)) := by
  obtain ⟨h1, h2⟩ := Full.collect i ds (m := []) full_empty
  have h3 : (collectSignatures i ds).get x = ((ds.foldl (collectQuad i) []).get x).map sortUnstable :=
    OrdMap.get_map sortUnstable x _
  rw [h3, h1.get_eq, h2]
  have : held ([] : OrdMap R (BlankSignature R)) x = [] := rfl
  rw [this, List.nil_append]
  split <;> rfl

omit [Ord R] [Std.TransOrd R] [Std.LawfulEqOrd R] in
theorem sigOf_eq_nil (ds : List (Quad R)) (x : R) :
    sigOf i ds x = [] ↔ ¬ (i.isAnonymous x = true ∧ ∃ q ∈ ds, x ∈ positions q) := by
  simp [sigOf, blanksOf]
  grind

/-- The signature of a blank node. -/
theorem signature {ds : List (Quad R)} {x : R} {sig : BlankSignature R}
    (h : (collectSignatures i ds).get x = some sig) : sig.Perm (sigOf i ds x) := by
  rw [collectSignatures_get] at h
  split at h
  · cases h
  · cases h
    exact perm_sortUnstable _

theorem get_signature (ds : List (Quad R)) (x : R) :
    (∃ sig, (collectSignatures i ds).get x = some sig) ↔
      i.isAnonymous x = true ∧ ∃ q ∈ ds, x ∈ positions q := by
  rw [collectSignatures_get]
  have := sigOf_eq_nil i ds x
  split
  · next h =>
    simp only [reduceCtorEq, exists_false, false_iff]
    exact this.1 h
  · next h =>
    simp only [Option.some.injEq, exists_eq', true_iff]
    exact Decidable.byContradiction fun hn => h (this.2 hn)

end signatures

/-! ## Groups -/

section groups

variable [Std.TransOrd R] [Std.LawfulEqOrd R]

/-- What the groups are when the entries `l` have been added. -/
structure Groups (l : List (R × BlankSignature R)) (g : OrdMap Nat (OrdMap R (BlankSignature R))) :
    Prop where
  sorted : g.Sorted
  inner : ∀ n, OrdMap.Sorted ((g.get n).getD [])
  get : ∀ n x sig, OrdMap.get x ((g.get n).getD []) = some sig → (x, sig) ∈ l ∧ sig.length = n
  mem : ∀ x sig, (x, sig) ∈ l → ∃ sig', OrdMap.get x ((g.get sig.length).getD []) = some sig'
  some : ∀ n, g.get n ≠ none ↔ ∃ x ∈ l, x.2.length = n

theorem Groups.split : ∀ (l pre : List (R × BlankSignature R))
    (g : OrdMap Nat (OrdMap R (BlankSignature R))), Groups pre g →
    Groups (pre ++ l) (l.foldl
      (fun result (id, sig) => OrdMap.entry sig.length [] (OrdMap.insert id sig) result) g)
  | [], pre, g, h => by simpa using h
  | (id, sig) :: l, pre, g, h => by
    have := Groups.split l (pre ++ [(id, sig)])
      (OrdMap.entry sig.length [] (OrdMap.insert id sig) g) ?_
    · simpa using this
    have hd : ∀ n, ((OrdMap.entry sig.length [] (OrdMap.insert id sig) g).get n).getD [] =
        if n = sig.length then OrdMap.insert id sig ((g.get n).getD []) else (g.get n).getD [] := by
      intro n
      rw [OrdMap.get_entry _ _ _ _ h.sorted]
      by_cases e : n = sig.length <;> simp [e]
    constructor
    · exact OrdMap.sorted_entry _ _ _ h.sorted
    · intro n
      rw [hd]
      split
      · exact OrdMap.sorted_insert _ _ (h.inner n)
      · exact h.inner n
    · intro n x s hx
      rw [hd] at hx
      split at hx
      · next e =>
        rw [OrdMap.get_insert _ _ _ (h.inner n)] at hx
        split at hx
        · next e' =>
          cases hx
          exact ⟨by simp [e'], e.symm⟩
        · have := h.get n x s hx
          exact ⟨by simp [this.1], this.2⟩
      · have := h.get n x s hx
        exact ⟨by simp [this.1], this.2⟩
    · intro x s hx
      rw [hd]
      have old : (x, s) ∈ pre → ∃ sig', OrdMap.get x (if s.length = sig.length then
          OrdMap.insert id sig ((g.get s.length).getD []) else (g.get s.length).getD []) = .some sig' := by
        intro hp
        obtain ⟨s', hs'⟩ := h.mem x s hp
        split
        · rw [OrdMap.get_insert _ _ _ (h.inner _)]
          split
          · exact ⟨_, rfl⟩
          · exact ⟨s', hs'⟩
        · exact ⟨s', hs'⟩
      rcases List.mem_append.1 hx with hp | hp
      · exact old hp
      · simp at hp
        obtain ⟨rfl, rfl⟩ := hp
        rw [if_pos rfl, OrdMap.get_insert _ _ _ (h.inner _), if_pos rfl]
        exact ⟨_, rfl⟩
    · intro n
      rw [OrdMap.get_entry _ _ _ _ h.sorted]
      split
      · next e =>
        simp only [ne_eq, reduceCtorEq, not_false_eq_true, true_iff]
        exact ⟨(id, sig), by simp, e.symm⟩
      · next e =>
        rw [h.some]
        constructor
        · rintro ⟨x, hx, hl⟩
          exact ⟨x, by simp [hx], hl⟩
        · rintro ⟨x, hx, hl⟩
          rcases List.mem_append.1 hx with hp | hp
          · exact ⟨x, hp, hl⟩
          · simp at hp
            subst hp
            exact absurd hl.symm e

theorem groups (m : OrdMap R (BlankSignature R)) : Groups m (splitBySize m) := by
  have := Groups.split m [] [] ⟨OrdMap.sorted_nil, fun n => OrdMap.sorted_nil,
    fun n x s h => by simp [OrdMap.get] at h, fun x s h => by simp at h, fun n => by
      simp [OrdMap.get]⟩
  rw [List.nil_append] at this
  exact this

/-- The group of a size. -/
def group (m : OrdMap R (BlankSignature R)) (n : Nat) : OrdMap R (BlankSignature R) :=
  ((splitBySize m).get n).getD []

theorem get_group {m : OrdMap R (BlankSignature R)} (hm : m.Sorted) (n : Nat) (x : R)
    (sig : BlankSignature R) :
    (group m n).get x = some sig ↔ m.get x = some sig ∧ sig.length = n := by
  constructor
  · intro h
    have := (groups m).get n x sig h
    exact ⟨OrdMap.get_of_mem hm this.1, this.2⟩
  · rintro ⟨h, rfl⟩
    obtain ⟨s, hs⟩ := (groups m).mem x sig (OrdMap.mem_of_get h)
    have := (groups m).get _ x s hs
    have h2 := OrdMap.get_of_mem hm this.1
    rw [h] at h2
    cases h2
    exact hs

theorem sorted_group (m : OrdMap R (BlankSignature R)) (n : Nat) : (group m n).Sorted :=
  (groups m).inner n

theorem mem_sizes (m : OrdMap R (BlankSignature R)) (n : Nat) :
    n ∈ (splitBySize m).map Prod.fst ↔ ∃ x ∈ m, x.2.length = n := by
  rw [OrdMap.mem_keys (groups m).sorted, ← (groups m).some, Option.ne_none_iff_exists']

end groups

/-! ## Candidates -/

section candidates

variable [Std.TransOrd R] [Std.LawfulEqOrd R] (i : ReverseInterpretation R I L)

theorem mem_candidatesOf (sig : BlankSignature R) (y : R) :
    ∀ (g : OrdMap R (BlankSignature R)) (c : OrdSet R),
      y ∈ g.foldl (fun c (id, sig') => if sig.matches_ i sig' then OrdSet.insert id c else c) c ↔
        y ∈ c ∨ ∃ sig', (y, sig') ∈ g ∧ sig.matches_ i sig' = true
  | [], c => by simp
  | (id, sig') :: g, c => by
    rw [List.foldl_cons, mem_candidatesOf sig y g]
    by_cases h : sig.matches_ i sig' = true
    · simp only [h, if_true, OrdSet.mem_insert, List.mem_cons, Prod.mk.injEq]
      constructor
      · rintro ((rfl | h1) | ⟨s, h1, h2⟩)
        · exact Or.inr ⟨sig', Or.inl ⟨rfl, rfl⟩, h⟩
        · exact Or.inl h1
        · exact Or.inr ⟨s, Or.inr h1, h2⟩
      · rintro (h1 | ⟨s, ⟨rfl, rfl⟩ | h1, h2⟩)
        · exact Or.inl (Or.inr h1)
        · exact Or.inl (Or.inl rfl)
        · exact Or.inr ⟨s, h1, h2⟩
    · simp only [h, List.mem_cons, Prod.mk.injEq]
      constructor
      · rintro (h1 | ⟨s, h1, h2⟩)
        · exact Or.inl h1
        · exact Or.inr ⟨s, Or.inr h1, h2⟩
      · rintro (h1 | ⟨s, ⟨rfl, rfl⟩ | h1, h2⟩)
        · exact Or.inl h1
        · exact absurd h2 h
        · exact Or.inr ⟨s, h1, h2⟩

theorem sorted_candidatesOf (sig : BlankSignature R) :
    ∀ (g : OrdMap R (BlankSignature R)) (c : OrdSet R), OrdSet.Sorted c → OrdSet.Sorted
      (g.foldl (fun c (id, sig') => if sig.matches_ i sig' then OrdSet.insert id c else c) c)
  | [], c, h => h
  | (id, sig') :: g, c, h => by
    refine sorted_candidatesOf sig g _ ?_
    by_cases e : sig.matches_ i sig' = true
    · simp only [e, if_true]
      exact OrdSet.sorted_insert id h
    · simp only [e]
      exact h

variable (a b : OrdMap R (BlankSignature R))

/-- The candidates a blank node has. -/
def IsCandidate (x y : R) : Prop :=
  ∃ sig sig', a.get x = some sig ∧ b.get y = some sig' ∧ sig.length = sig'.length ∧
    sig.matches_ i sig' = true

/-- The candidates found so far. -/
structure Found (c : OrdMap R (OrdSet R)) : Prop where
  sorted : c.Sorted
  get : ∀ x l, c.get x = some l → (a.get x ≠ none) ∧ l ≠ [] ∧ ∀ y, y ∈ l ↔ IsCandidate i a b x y
  ordered : ∀ x l, c.get x = some l → OrdSet.Sorted l

theorem group_spec (hb : b.Sorted) (n : Nat) :
    ∀ (g : OrdMap R (BlankSignature R)) (c : OrdMap R (OrdSet R)),
      (∀ x sig, (x, sig) ∈ g → a.get x = some sig ∧ sig.length = n) → Found i a b c →
      match groupCandidates i (group b n) g c with
      | some c' => Found i a b c' ∧ (∀ x, c.get x ≠ none → c'.get x ≠ none) ∧
          ∀ x sig, (x, sig) ∈ g → c'.get x ≠ none
      | none => ∃ x, a.get x ≠ none ∧ ∀ y, ¬ IsCandidate i a b x y
  | [], c, _, hc => by simpa [groupCandidates] using hc
  | (x, sig) :: g, c, hg, hc => by
    obtain ⟨h1, h2⟩ := hg x sig (by simp)
    have hy : ∀ y, y ∈ candidatesOf i sig (group b n) ↔ IsCandidate i a b x y := by
      intro y
      unfold candidatesOf
      rw [mem_candidatesOf]
      simp only [List.not_mem_nil, false_or]
      constructor
      · rintro ⟨s, hs, hm⟩
        have := (get_group hb n y s).1 (OrdMap.get_of_mem (sorted_group b n) hs)
        exact ⟨sig, s, h1, this.1, h2.trans this.2.symm, hm⟩
      · rintro ⟨s, s', e1, e2, e3, e4⟩
        rw [h1] at e1
        cases e1
        refine ⟨s', OrdMap.mem_of_get ((get_group hb n y s').2 ⟨e2, ?_⟩), e4⟩
        omega
    unfold groupCandidates
    by_cases he : candidatesOf i sig (group b n) = []
    · simp only [he, if_pos]
      refine ⟨x, by simp [h1], fun y hy' => ?_⟩
      have := (hy y).2 hy'
      rw [he] at this
      cases this
    · simp only [he, if_neg, not_false_eq_true]
      have hf : Found i a b (c.insert x (candidatesOf i sig (group b n))) := by
        refine ⟨OrdMap.sorted_insert _ _ hc.sorted, fun x' l hl => ?_, fun x' l hl => ?_⟩
        · rw [OrdMap.get_insert _ _ _ hc.sorted] at hl
          split at hl
          · next e =>
            subst e
            cases hl
            exact ⟨by simp [h1], he, hy⟩
          · exact hc.get _ _ hl
        · rw [OrdMap.get_insert _ _ _ hc.sorted] at hl
          split at hl
          · cases hl
            exact sorted_candidatesOf i sig _ [] List.Pairwise.nil
          · exact hc.ordered _ _ hl
      have ih := group_spec hb n g _ (fun x' s h => hg x' s (by simp [h])) hf
      split at ih
      · next c' e =>
        obtain ⟨i1, i2, i3⟩ := ih
        refine ⟨i1, fun x' hx' => i2 x' ?_, fun x' s hx' => ?_⟩
        · rw [OrdMap.get_insert _ _ _ hc.sorted]
          split
          · simp
          · exact hx'
        · rcases List.mem_cons.1 hx' with e' | hx'
          · cases e'
            refine i2 x ?_
            rw [OrdMap.get_insert _ _ _ hc.sorted, if_pos rfl]
            simp
          · exact i3 x' s hx'
      · next e =>
        exact ih

theorem groups_spec (hb : b.Sorted) :
    ∀ (gs : OrdMap Nat (OrdMap R (BlankSignature R))) (c : OrdMap R (OrdSet R)),
      (∀ n g, (n, g) ∈ gs → (splitBySize b).get n ≠ none ∧
        ∀ x sig, (x, sig) ∈ g → a.get x = some sig ∧ sig.length = n) → Found i a b c →
      (∃ c', allCandidates i (splitBySize b) gs c = .ok (some c') ∧ Found i a b c' ∧
        (∀ x, c.get x ≠ none → c'.get x ≠ none) ∧
        ∀ n g x sig, (n, g) ∈ gs → (x, sig) ∈ g → c'.get x ≠ none) ∨
      (allCandidates i (splitBySize b) gs c = .ok none ∧
        ∃ x, a.get x ≠ none ∧ ∀ y, ¬ IsCandidate i a b x y)
  | [], c, _, hc => Or.inl ⟨c, rfl, hc, fun _ h => h, fun n g x sig h => by simp at h⟩
  | (n, g) :: gs, c, hg, hc => by
    obtain ⟨h1, h2⟩ := hg n g (by simp)
    obtain ⟨bg, hbg⟩ := Option.ne_none_iff_exists'.1 h1
    have hgr : group b n = bg := by simp [group, hbg]
    have := group_spec i a b hb n g c h2 hc
    rw [hgr] at this
    have hstep : allCandidates i (splitBySize b) ((n, g) :: gs) c =
        match groupCandidates i bg g c with
        | some c' => allCandidates i (splitBySize b) gs c'
        | none => .ok none := by
      simp only [allCandidates, hbg, unwrap]
      rfl
    rw [hstep]
    split at this
    · next c' e =>
      obtain ⟨i1, i2, i3⟩ := this
      rcases groups_spec hb gs c' (fun n' g' h => hg n' g' (by simp [h])) i1 with
        ⟨c'', e1, j1, j2, j3⟩ | h
      · refine Or.inl ⟨c'', e1, j1, fun x hx => j2 x (i2 x hx), fun n' g' x sig hn hx => ?_⟩
        rcases List.mem_cons.1 hn with e' | hn
        · cases e'
          exact j2 x (i3 x sig hx)
        · exact j3 n' g' x sig hn hx
      · exact Or.inr h
    · next e =>
      exact Or.inr ⟨rfl, this⟩

/-- All the candidates, if every size of the first map is one of the second. -/
theorem allCandidates_spec (ha : a.Sorted) (hb : b.Sorted)
    (hs : (splitBySize a).all (fun (n, _) => (splitBySize b).contains n) = true) :
    (∃ c, allCandidates i (splitBySize b) (splitBySize a) [] = .ok (some c) ∧ Found i a b c ∧
      ∀ x, c.get x ≠ none ↔ a.get x ≠ none) ∨
    (allCandidates i (splitBySize b) (splitBySize a) [] = .ok none ∧
      ∃ x, a.get x ≠ none ∧ ∀ y, ¬ IsCandidate i a b x y) := by
  have hg : ∀ n g, (n, g) ∈ splitBySize a → (splitBySize b).get n ≠ none ∧
      ∀ x sig, (x, sig) ∈ g → a.get x = some sig ∧ sig.length = n := by
    intro n g h
    have := List.all_eq_true.1 hs _ h
    refine ⟨?_, fun x sig hx => ?_⟩
    · simpa [OrdMap.contains, Option.isSome_iff_ne_none] using this
    · have e : group a n = g := by
        simp [group, OrdMap.get_of_mem (groups a).sorted h]
      refine (get_group ha n x sig).1 ?_
      rw [e]
      exact OrdMap.get_of_mem (e ▸ sorted_group a n) hx
  have h0 : Found i a b [] := ⟨OrdMap.sorted_nil, fun x l h => by simp [OrdMap.get] at h,
    fun x l h => by simp [OrdMap.get] at h⟩
  rcases groups_spec i a b hb (splitBySize a) [] hg h0 with ⟨c, e, h1, -, h3⟩ | h
  · refine Or.inl ⟨c, e, h1, fun x => ⟨fun hx => ?_, fun hx => ?_⟩⟩
    · obtain ⟨l, hl⟩ := Option.ne_none_iff_exists'.1 hx
      exact (h1.get x l hl).1
    · obtain ⟨sig, hl⟩ := Option.ne_none_iff_exists'.1 hx
      have hgx := (get_group ha sig.length x sig).2 ⟨hl, rfl⟩
      cases e' : (splitBySize a).get sig.length with
      | none => simp [group, e', OrdMap.get] at hgx
      | some g =>
        simp only [group, e', Option.getD_some] at hgx
        exact h3 sig.length g x sig (OrdMap.mem_of_get e') (OrdMap.mem_of_get hgx)
  · exact Or.inr h

end candidates

/-! ## The search -/

section search

variable [Std.TransOrd R] [Std.LawfulEqOrd R] {i : ReverseInterpretation R I L} {K : Type}
  {kind : R → Option K} {a b : OrdMap R (BlankSignature R)}

theorem try_cons (m : Bijection R) (x : R) (next : Bijection R → Res (Option (Bijection R)))
    (y : R) (l : OrdSet R) {sig sig' : BlankSignature R} (hx : a.get x = some sig)
    (hy : b.get y = some sig') :
    Bijection.tryCandidates i a b m x next (y :: l) =
      if m.backward.get y = none ∧ (m.insert x y).signatureMatchesWith i sig sig' = true then
        (next (m.insert x y)).bind fun
          | some final => .ok (some final)
          | none => Bijection.tryCandidates i a b m x next l
      else Bijection.tryCandidates i a b m x next l := by
  conv => lhs; unfold Bijection.tryCandidates
  cases e : m.backward.get y with
  | some z => simp [OrdMap.contains, e]
  | none =>
    simp only [OrdMap.contains, e, Option.isSome_none, Bool.false_eq_true, if_false, hx, hy, unwrap,
      bind, Except.bind, true_and]
    rfl

theorem try_spec {m : Bijection R} {x : R} {next : Bijection R → Res (Option (Bijection R))}
    {sig : BlankSignature R} (hx : a.get x = some sig) {Q : R → Bijection R → Prop} :
    ∀ (l : OrdSet R), (∀ y ∈ l, (∃ sig', b.get y = some sig') ∧ (m.backward.get y = none →
        ∃ o, next (m.insert x y) = .ok o ∧ ∀ m', o = some m' → Q y m')) →
      ∃ o, Bijection.tryCandidates i a b m x next l = .ok o ∧
        ∀ m', o = some m' → ∃ y ∈ l, m.backward.get y = none ∧ Q y m'
  | [], _ => ⟨none, rfl, fun m' h => by cases h⟩
  | y :: l, h => by
    obtain ⟨o, e, ho⟩ := try_spec hx l (fun y' hy' => h y' (by simp [hy']))
    have rest : ∃ o, Bijection.tryCandidates i a b m x next l = .ok o ∧
        ∀ m', o = some m' → ∃ y' ∈ y :: l, m.backward.get y' = none ∧ Q y' m' :=
      ⟨o, e, fun m' hm => by
        obtain ⟨y', h1, h2⟩ := ho m' hm
        exact ⟨y', by simp [h1], h2⟩⟩
    obtain ⟨⟨sig', hy⟩, hn⟩ := h y (by simp)
    rw [try_cons m x next y l hx hy]
    split
    · next hc =>
      obtain ⟨o', e', ho'⟩ := hn hc.1
      rw [e']
      cases o' with
      | none => exact rest
      | some m' =>
        refine ⟨some m', rfl, fun m'' hm => ?_⟩
        cases hm
        exact ⟨y, by simp, hc.1, ho' m' rfl⟩
    · exact rest

theorem try_complete {m : Bijection R} {x : R} {next : Bijection R → Res (Option (Bijection R))}
    {sig : BlankSignature R} (hx : a.get x = some sig) {y : R} {sig' : BlankSignature R}
    (hy : b.get y = some sig') (hb : m.backward.get y = none)
    (hs : (m.insert x y).signatureMatchesWith i sig sig' = true)
    (hn : ∃ m', next (m.insert x y) = .ok (some m')) :
    ∀ (l : OrdSet R), y ∈ l → (∀ y ∈ l, (∃ sig', b.get y = some sig') ∧ (m.backward.get y = none →
        ∃ o, next (m.insert x y) = .ok o)) →
      ∃ m', Bijection.tryCandidates i a b m x next l = .ok (some m')
  | [], h, _ => by cases h
  | z :: l, h, hl => by
    obtain ⟨⟨sz, hz⟩, hzn⟩ := hl z (by simp)
    rw [try_cons m x next z l hx hz]
    rcases List.mem_cons.1 h with rfl | h
    · rw [hy] at hz
      cases hz
      rw [if_pos ⟨hb, hs⟩]
      obtain ⟨m', e⟩ := hn
      exact ⟨m', by rw [e]; rfl⟩
    · have ih := try_complete hx hy hb hs hn l h (fun y' hy' => hl y' (by simp [hy']))
      split
      · next hc =>
        obtain ⟨o, e⟩ := hzn hc.1
        rw [e]
        cases o with
        | none => exact ih
        | some m' => exact ⟨m', rfl⟩
      · exact ih

/-- The candidates refer to known blank nodes. -/
def Ready (kind : R → Option K) (a b : OrdMap R (BlankSignature R)) (cs : List (R × OrdSet R)) :
    Prop :=
  ∀ x l, (x, l) ∈ cs → (∃ sig, a.get x = some sig) ∧ kind x = none ∧
    ∀ y ∈ l, (∃ sig', b.get y = some sig') ∧ kind y = none

theorem get_forward_insert {m : Bijection R} (h : Good kind m) (x y x' : R) :
    (m.insert x y).forward.get x' = if x' = x then some y else m.forward.get x' :=
  OrdMap.get_insert _ _ _ h.sorted

theorem find_spec : ∀ (cs : List (R × OrdSet R)) (m : Bijection R), Ready kind a b cs →
    (cs.map Prod.fst).Nodup → Good kind m → (∀ x l, (x, l) ∈ cs → m.forward.get x = none) →
    ∃ o, Bijection.findFromCandidates i a b cs m = .ok o ∧ ∀ m', o = some m' → Good kind m' ∧
      (∀ x y, m.forward.get x = some y → m'.forward.get x = some y) ∧
      (∀ x l, (x, l) ∈ cs → ∃ y ∈ l, m'.forward.get x = some y) ∧
      ∀ x y, m'.forward.get x = some y → m.forward.get x = some y ∨ ∃ l, (x, l) ∈ cs ∧ y ∈ l
  | [], m, _, _, hm, _ => ⟨some m, rfl, fun m' h => by
      cases h
      exact ⟨hm, fun _ _ h => h, fun x l h => by simp at h, fun x y h => Or.inl h⟩⟩
  | (x, l) :: cs, m, hr, hn, hm, hf => by
    obtain ⟨⟨sig, hx⟩, hkx, hl⟩ := hr x l (by simp)
    have hfx := hf x l (by simp)
    rw [List.map_cons, List.nodup_cons] at hn
    have := try_spec (i := i) (b := b) (m := m) hx
      (next := Bijection.findFromCandidates i a b cs)
      (Q := fun y m' => Good kind m' ∧
        (∀ x' y', (m.insert x y).forward.get x' = some y' → m'.forward.get x' = some y') ∧
        (∀ x l, (x, l) ∈ cs → ∃ y ∈ l, m'.forward.get x = some y) ∧
        ∀ x' y', m'.forward.get x' = some y' →
          (m.insert x y).forward.get x' = some y' ∨ ∃ l, (x', l) ∈ cs ∧ y' ∈ l) l ?_
    · obtain ⟨o, e, ho⟩ := this
      refine ⟨o, e, fun m' hm' => ?_⟩
      obtain ⟨y, hy, hyb, h1, h2, h3, h4⟩ := ho m' hm'
      refine ⟨h1, fun x' y' h' => h2 x' y' ?_, fun x' l' h' => ?_, fun x' y' h' => ?_⟩
      · rw [get_forward_insert hm]
        split
        · next e =>
          rw [e, hfx] at h'
          cases h'
        · exact h'
      · rcases List.mem_cons.1 h' with e' | h'
        · cases e'
          exact ⟨y, hy, h2 x y (by rw [get_forward_insert hm, if_pos rfl])⟩
        · exact h3 x' l' h'
      · rcases h4 x' y' h' with h5 | ⟨l', h5, h6⟩
        · rw [get_forward_insert hm] at h5
          split at h5
          · next e' =>
            cases h5
            exact Or.inr ⟨l, by simp [e'], hy⟩
          · exact Or.inl h5
        · exact Or.inr ⟨l', by simp [h5], h6⟩
    · intro y hy
      refine ⟨(hl y hy).1, fun hyb => ?_⟩
      refine find_spec cs (m.insert x y) (fun x' l' h => hr x' l' (by simp [h])) hn.2
        (hm.insert hkx (hl y hy).2 hfx hyb) (fun x' l' h => ?_)
      rw [get_forward_insert hm, if_neg]
      · exact hf x' l' (by simp [h])
      · rintro rfl
        exact hn.1 (List.mem_map.2 ⟨(x', l'), h, rfl⟩)

/-- If some function on the blank nodes fits, the search succeeds. -/
theorem find_complete (τ : R → R) (D : R → Prop)
    (hinj : ∀ x x', D x → D x' → τ x = τ x' → x = x')
    (hfit : ∀ m x sig sig', Good kind m → (∀ x y, m.forward.get x = some y → D x ∧ y = τ x) →
      m.forward.get x = some (τ x) → a.get x = some sig → b.get (τ x) = some sig' →
      m.signatureMatchesWith i sig sig' = true) :
    ∀ (cs : List (R × OrdSet R)) (m : Bijection R), Ready kind a b cs →
    (cs.map Prod.fst).Nodup → Good kind m → (∀ x l, (x, l) ∈ cs → m.forward.get x = none) →
    (∀ x l, (x, l) ∈ cs → D x ∧ τ x ∈ l) → (∀ x y, m.forward.get x = some y → D x ∧ y = τ x) →
    ∃ m', Bijection.findFromCandidates i a b cs m = .ok (some m')
  | [], m, _, _, _, _, _, _ => ⟨m, rfl⟩
  | (x, l) :: cs, m, hr, hn, hm, hf, hc, hτ => by
    obtain ⟨⟨sig, hx⟩, hkx, hl⟩ := hr x l (by simp)
    have hfx := hf x l (by simp)
    obtain ⟨hD, hmem⟩ := hc x l (by simp)
    obtain ⟨⟨sig', hy⟩, hky⟩ := hl _ hmem
    rw [List.map_cons, List.nodup_cons] at hn
    have hb : m.backward.get (τ x) = none := by
      cases e : m.backward.get (τ x) with
      | none => rfl
      | some z =>
        have h1 := (hm.inverse _ _).2 e
        obtain ⟨h2, h3⟩ := hτ _ _ h1
        rw [← hinj x z hD h2 h3, hfx] at h1
        cases h1
    have step : ∀ y ∈ l, m.backward.get y = none → Good kind (m.insert x y) ∧
        ∀ x' l', (x', l') ∈ cs → (m.insert x y).forward.get x' = none := by
      intro y hy' hyb
      refine ⟨hm.insert hkx (hl y hy').2 hfx hyb, fun x' l' h => ?_⟩
      rw [get_forward_insert hm, if_neg]
      · exact hf x' l' (by simp [h])
      · rintro rfl
        exact hn.1 (List.mem_map.2 ⟨(x', l'), h, rfl⟩)
    have hr' : Ready kind a b cs := fun x' l' h => hr x' l' (by simp [h])
    have hτ' : ∀ x' y, (m.insert x (τ x)).forward.get x' = some y → D x' ∧ y = τ x' := by
      intro x' y h
      rw [get_forward_insert hm] at h
      split at h
      · next e =>
        cases h
        exact ⟨e ▸ hD, by rw [e]⟩
      · exact hτ _ _ h
    obtain ⟨hg, hf'⟩ := step _ hmem hb
    refine try_complete hx hy hb ?_ ?_ l hmem ?_
    · exact hfit _ x sig sig' hg hτ' (by rw [get_forward_insert hm, if_pos rfl]) hx hy
    · exact find_complete τ D hinj hfit cs _ hr' hn.2 hg hf'
        (fun x' l' h => hc x' l' (by simp [h])) hτ'
    · intro y hy'
      refine ⟨(hl y hy').1, fun hyb => ?_⟩
      obtain ⟨hg, hf'⟩ := step y hy' hyb
      obtain ⟨o, e, -⟩ := find_spec (i := i) cs (m.insert x y) hr' hn.2 hg hf'
      exact ⟨o, e⟩

end search

/-! ## The whole function -/

section whole

variable [Std.TransOrd R] [Std.LawfulEqOrd R] {i : ReverseInterpretation R I L} {K : Type}
  {kind : R → Option K}

/-- The conditions checked before looking for candidates. -/
def Comparable (i : ReverseInterpretation R I L) (a b : List (Quad R)) : Prop :=
  a.length = b.length ∧
  a.foldl (fun c q => c + blankCount i q) 0 = b.foldl (fun c q => c + blankCount i q) 0 ∧
  (collectSignatures i a).length = (collectSignatures i b).length ∧
  (splitBySize (collectSignatures i a)).length = (splitBySize (collectSignatures i b)).length ∧
  (splitBySize (collectSignatures i a)).all
    (fun (n, _) => (splitBySize (collectSignatures i b)).contains n) = true

theorem findBijectionWith_eq (a b : List (Quad R)) :
    (Comparable i a b ∧ findBijectionWith i a b =
      (allCandidates i (splitBySize (collectSignatures i b)) (splitBySize (collectSignatures i a))
        []).bind fun
        | none => .ok none
        | some c => Bijection.findFromCandidates i (collectSignatures i a) (collectSignatures i b) c {})
    ∨ (¬ Comparable i a b ∧ findBijectionWith i a b = .ok none) := by
  unfold findBijectionWith Comparable
  by_cases h1 : a.length = b.length
  · by_cases h2 : a.foldl (fun c q => c + blankCount i q) 0 = b.foldl (fun c q => c + blankCount i q) 0
    · by_cases h3 : (collectSignatures i a).length = (collectSignatures i b).length
      · by_cases h4 : (splitBySize (collectSignatures i a)).length =
            (splitBySize (collectSignatures i b)).length
        · by_cases h5 : (splitBySize (collectSignatures i a)).all
            (fun (n, _) => (splitBySize (collectSignatures i b)).contains n) = true
          · left
            refine ⟨⟨h1, h2, h3, h4, h5⟩, ?_⟩
            simp only [h1, h2, h3, h4, h5]
            simp
            rfl
          · right
            exact ⟨fun h => h5 h.2.2.2.2, by simp only [h1, h2, h3, h4, h5]; simp⟩
        · right
          exact ⟨fun h => h4 h.2.2.2.1, by simp only [h1, h2, h3, h4]; simp; intro h; exact absurd h h4⟩
      · right
        exact ⟨fun h => h3 h.2.2.1, by simp only [h1, h2, h3]; simp; intro h; exact absurd h h3⟩
    · right
      exact ⟨fun h => h2 h.2.1, by simp only [h1, h2]; simp; intro h; exact absurd h h2⟩
  · right
    exact ⟨fun h => h1 h.1, by simp only [h1]; simp; intro h; exact absurd h h1⟩

/-- Blank nodes of a dataset. -/
def Occurs (i : ReverseInterpretation R I L) (ds : List (Quad R)) (x : R) : Prop :=
  i.isAnonymous x = true ∧ ∃ q ∈ ds, x ∈ positions q

theorem get_ne_none (ds : List (Quad R)) (x : R) :
    (collectSignatures i ds).get x ≠ none ↔ Occurs i ds x := by
  rw [Option.ne_none_iff_exists', get_signature]
  rfl

theorem ready_of_found (hk : ∀ r, i.isAnonymous r = true ↔ kind r = none) {a b : List (Quad R)} {c : OrdMap R (OrdSet R)}
    (h : Found i (collectSignatures i a) (collectSignatures i b) c) :
    Ready kind (collectSignatures i a) (collectSignatures i b) c := by
  intro x l hxl
  obtain ⟨h1, -, h3⟩ := h.get x l (OrdMap.get_of_mem h.sorted hxl)
  refine ⟨Option.ne_none_iff_exists'.1 h1, (hk x).1 ((get_ne_none a x).1 h1).1, fun y hy => ?_⟩
  obtain ⟨sig, sig', -, e, -⟩ := (h3 y).1 hy
  exact ⟨⟨sig', e⟩, (hk y).1 ((get_ne_none b y).1 (by simp [e])).1⟩

/-- The function does not panic, and what it returns is a bijection between blank
nodes with matching signatures. -/
theorem findBijectionWith_maps (hk : ∀ r, i.isAnonymous r = true ↔ kind r = none)
    (a b : List (Quad R)) :
    ∃ o, findBijectionWith i a b = .ok o ∧ ∀ m, o = some m → Good kind m ∧
      (∀ x, Occurs i a x ↔ ∃ y, m.forward.get x = some y) ∧
      (∀ y, Occurs i b y ↔ ∃ x, m.backward.get y = some x) ∧
      ∀ x y, m.forward.get x = some y →
        IsCandidate i (collectSignatures i a) (collectSignatures i b) x y := by
  have ha := collectSignatures_sorted i a
  have hb := collectSignatures_sorted i b
  rcases findBijectionWith_eq (i := i) a b with ⟨hc, e⟩ | ⟨-, e⟩
  rotate_left
  · exact ⟨none, e, fun m h => by cases h⟩
  rw [e]
  rcases allCandidates_spec i _ _ ha hb hc.2.2.2.2 with ⟨c, e1, hf, hdom⟩ | ⟨e1, -⟩
  rotate_left
  · exact ⟨none, by rw [e1]; rfl, fun m h => by cases h⟩
  rw [e1]
  obtain ⟨o, e2, ho⟩ := find_spec (i := i) c {} (ready_of_found hk hf) (OrdMap.nodup_keys hf.sorted)
    (Good.empty (kind := kind)) (fun _ _ _ => rfl)
  refine ⟨o, e2, fun m hm => ?_⟩
  obtain ⟨h1, -, h3, h4⟩ := ho m hm
  have cand : ∀ x y, m.forward.get x = some y →
      IsCandidate i (collectSignatures i a) (collectSignatures i b) x y := by
    intro x y hxy
    rcases h4 x y hxy with h | ⟨l, hl, hy⟩
    · simp [OrdMap.get] at h
    · exact ((hf.get x l (OrdMap.get_of_mem hf.sorted hl)).2.2 y).1 hy
  have fdom : ∀ x, Occurs i a x ↔ ∃ y, m.forward.get x = some y := by
    intro x
    rw [← get_ne_none, ← hdom]
    constructor
    · intro h
      obtain ⟨l, hl⟩ := Option.ne_none_iff_exists'.1 h
      obtain ⟨y, -, hy⟩ := h3 x l (OrdMap.mem_of_get hl)
      exact ⟨y, hy⟩
    · rintro ⟨y, hy⟩
      obtain ⟨sig, sig', e3, -⟩ := cand x y hy
      rw [hdom, e3]
      simp
  refine ⟨h1, fdom, fun y => ⟨fun hy => ?_, ?_⟩, cand⟩
  · -- all blank nodes of the second dataset are reached, by counting
    have n1 := OrdMap.nodup_keys h1.sorted
    have n2 := OrdMap.nodup_keys h1.sorted'
    have k1 : (m.forward.map Prod.fst).length = ((collectSignatures i a).map Prod.fst).length := by
      refine nodup_length_eq n1 (OrdMap.nodup_keys ha) fun x => ?_
      rw [OrdMap.mem_keys h1.sorted, OrdMap.mem_keys ha, ← fdom, get_signature]
      rfl
    have k2 : (m.forward.map Prod.fst).length ≤ (m.backward.map Prod.fst).length := by
      have : (m.forward.map Prod.snd).length ≤ (m.backward.map Prod.fst).length := by
        refine nodup_length_le ?_ ?_
        · rw [List.nodup_iff_pairwise_ne, List.pairwise_map]
          have hs := h1.sorted
          have hinj : ∀ p ∈ m.forward, ∀ p' ∈ m.forward, p.2 = p'.2 → p.1 = p'.1 := by
            intro p hp p' hp' e3
            have q1 := (h1.inverse p.1 p.2).1 (OrdMap.get_of_mem h1.sorted hp)
            have q2 := (h1.inverse p'.1 p'.2).1 (OrdMap.get_of_mem h1.sorted hp')
            rw [e3, q2] at q1
            exact (Option.some.inj q1).symm
          have : m.forward.Pairwise (fun p p' => p.1 ≠ p'.1) := by
            rwa [List.nodup_iff_pairwise_ne, List.pairwise_map] at n1
          exact this.imp_of_mem (fun hp hp' hne e3 => hne (hinj _ hp _ hp' e3))
        · intro y hy
          obtain ⟨p, hp, rfl⟩ := List.mem_map.1 hy
          rw [OrdMap.mem_keys h1.sorted']
          exact ⟨p.1, (h1.inverse _ _).1 (OrdMap.get_of_mem h1.sorted hp)⟩
      simpa using this
    have hsub : ∀ y ∈ m.backward.map Prod.fst, y ∈ (collectSignatures i b).map Prod.fst := by
      intro y hy
      rw [OrdMap.mem_keys h1.sorted'] at hy
      obtain ⟨x, hx⟩ := hy
      obtain ⟨sig, sig', -, e3, -⟩ := cand x y ((h1.inverse _ _).2 hx)
      rw [OrdMap.mem_keys hb]
      exact ⟨sig', e3⟩
    have := mem_of_nodup_length n2 hsub (by
      have := hc.2.2.1
      simp only [List.length_map] at k1 k2 ⊢
      omega) y (by
        rw [OrdMap.mem_keys hb, get_signature]
        exact hy)
    exact (OrdMap.mem_keys h1.sorted' y).1 this
  · rintro ⟨x, hx⟩
    obtain ⟨sig, sig', -, e3, -⟩ := cand x y ((h1.inverse _ _).2 hx)
    exact (get_ne_none b y).1 (by simp [e3])

/-- The same when resources have at most one name. -/
theorem findBijectionWith_spec (hk : Kinds i kind) (a b : List (Quad R)) :
    ∃ o, findBijectionWith i a b = .ok o ∧ ∀ m, o = some m → Good kind m ∧
      (∀ x, Occurs i a x ↔ ∃ y, m.forward.get x = some y) ∧
      (∀ y, Occurs i b y ↔ ∃ x, m.backward.get y = some x) ∧
      ∀ x y, m.forward.get x = some y →
        ((sigOf i a x).map (·.map kind)).Perm ((sigOf i b y).map (·.map kind)) := by
  obtain ⟨o, e, ho⟩ := findBijectionWith_maps hk.anonymous a b
  refine ⟨o, e, fun m hm => ?_⟩
  obtain ⟨h1, h2, h3, cand⟩ := ho m hm
  refine ⟨h1, h2, h3, fun x y hxy => ?_⟩
  · obtain ⟨sig, sig', e3, e4, -, hm⟩ := cand x y hxy
    have := (hk.matches_ sig sig').1 hm
    exact ((signature i e3).symm.map _).trans (this.trans ((signature i e4).map _))

/-! ## Isomorphic datasets are recognised -/

theorem map_congr_positions {S : Type} {f g : R → S} {q : Quad R}
    (h : ∀ r ∈ positions q, f r = g r) : q.map f = q.map g := by
  rw [← quad_map_eq]
  refine ⟨h _ (by simp [positions]), h _ (by simp [positions]), h _ (by simp [positions]), ?_⟩
  cases e : q.g with
  | none => rfl
  | some x =>
    have := h x (by simp [positions, e])
    simp [this]

theorem positions_map {S : Type} (f : R → S) (q : Quad R) :
    positions (q.map f) = (positions q).map f := by
  cases e : q.g <;> simp [positions, Quad.map, e]

theorem isAnonymous_map (hk : Kinds i kind) {τ : R → R} (hkind : ∀ x, kind (τ x) = kind x) (x : R) :
    i.isAnonymous (τ x) = i.isAnonymous x := by
  have h1 := hk.anonymous (τ x)
  have h2 := hk.anonymous x
  rw [hkind] at h1
  exact Bool.eq_iff_iff.2 (h1.trans h2.symm)

theorem blanksOf_map (hk : Kinds i kind) {τ : R → R} (hkind : ∀ x, kind (τ x) = kind x)
    (q : Quad R) : blanksOf i (q.map τ) = (blanksOf i q).map τ := by
  unfold blanksOf
  rw [positions_map, List.filter_map]
  congr 1
  exact List.filter_congr fun x _ => isAnonymous_map hk hkind x

theorem mem_blanksOf {q : Quad R} {x : R} :
    x ∈ blanksOf i q ↔ x ∈ positions q ∧ i.isAnonymous x = true := by
  simp [blanksOf]

theorem sigOf_map (hk : Kinds i kind) {τ : R → R} (hkind : ∀ x, kind (τ x) = kind x)
    {a : List (Quad R)} (hinj : ∀ x x', Occurs i a x → Occurs i a x' → τ x = τ x' → x = x')
    {x : R} (hx : Occurs i a x) :
    ∀ (l : List (Quad R)), (∀ q ∈ l, q ∈ a) →
      sigOf i (l.map (·.map τ)) (τ x) = (sigOf i l x).map (·.map τ)
  | [], _ => rfl
  | q :: l, hl => by
    have ih := sigOf_map hk hkind hinj hx l (fun q' h => hl q' (by simp [h]))
    unfold sigOf at ih ⊢
    rw [List.map_cons, List.flatMap_cons, List.flatMap_cons, List.map_append, ih,
      blanksOf_map hk hkind, List.filter_map, List.map_map, List.map_map]
    congr 2
    refine List.filter_congr fun z hz => ?_
    have hz' : Occurs i a z := ⟨(mem_blanksOf.1 hz).2, q, hl q (by simp), (mem_blanksOf.1 hz).1⟩
    simp only [Function.comp_apply, decide_eq_decide]
    exact ⟨hinj z x hz' hx, fun h => by rw [h]⟩

theorem perm_sigOf {l l' : List (Quad R)} (h : l.Perm l') (x : R) :
    (sigOf i l x).Perm (sigOf i l' x) := h.flatMap_right _

theorem blankCount_sum (l : List (Quad R)) :
    l.foldl (fun c q => c + blankCount i q) 0 = (l.flatMap (blanksOf i)).length := by
  have : ∀ (l : List (Quad R)) (n : Nat),
      l.foldl (fun c q => c + blankCount i q) n = n + (l.flatMap (blanksOf i)).length := by
    intro l
    induction l with
    | nil => simp
    | cons q l ih =>
      intro n
      rw [List.foldl_cons, ih, List.flatMap_cons, List.length_append, blankCount_eq]
      omega
  rw [this, Nat.zero_add]

theorem occurs_map (hk : Kinds i kind) {τ : R → R} (hkind : ∀ x, kind (τ x) = kind x)
    {a b : List (Quad R)} (hp : b.Perm (a.map (·.map τ))) (y : R) :
    Occurs i b y ↔ ∃ x, Occurs i a x ∧ τ x = y := by
  constructor
  · rintro ⟨h1, q, hq, hy⟩
    obtain ⟨q0, hq0, rfl⟩ := List.mem_map.1 (hp.mem_iff.1 hq)
    rw [positions_map] at hy
    obtain ⟨x, hx, rfl⟩ := List.mem_map.1 hy
    exact ⟨x, ⟨by rwa [isAnonymous_map hk hkind] at h1, q0, hq0, hx⟩, rfl⟩
  · rintro ⟨x, ⟨h1, q, hq, hx⟩, rfl⟩
    refine ⟨by rwa [isAnonymous_map hk hkind], q.map τ, hp.mem_iff.2 (List.mem_map.2 ⟨q, hq, rfl⟩), ?_⟩
    rw [positions_map]
    exact List.mem_map.2 ⟨x, hx, rfl⟩

theorem mem_sizes_iff (ds : List (Quad R)) (n : Nat) :
    n ∈ (splitBySize (collectSignatures i ds)).map Prod.fst ↔
      ∃ x, Occurs i ds x ∧ (sigOf i ds x).length = n := by
  rw [mem_sizes]
  constructor
  · rintro ⟨⟨x, sig⟩, h, hn⟩
    have hg := OrdMap.get_of_mem (collectSignatures_sorted i ds) h
    exact ⟨x, (get_ne_none ds x).1 (by simp [hg]), by rw [← (signature i hg).length_eq]; exact hn⟩
  · rintro ⟨x, hx, hn⟩
    obtain ⟨sig, hg⟩ := Option.ne_none_iff_exists'.1 ((get_ne_none ds x).2 hx)
    exact ⟨(x, sig), OrdMap.mem_of_get hg, by rw [← hn, ← (signature i hg).length_eq]⟩

/-- Two datasets that differ by a renaming of their blank nodes are recognised. -/
theorem findBijectionWith_complete (hk : Kinds i kind) {τ : R → R}
    (hkind : ∀ x, kind (τ x) = kind x) {a b : List (Quad R)}
    (hinj : ∀ x x', Occurs i a x → Occurs i a x' → τ x = τ x' → x = x')
    (hp : b.Perm (a.map (·.map τ))) : ∃ m, findBijectionWith i a b = .ok (some m) := by
  have ha := collectSignatures_sorted i a
  have hb := collectSignatures_sorted i b
  have hsig : ∀ x, Occurs i a x → (sigOf i b (τ x)).Perm ((sigOf i a x).map (·.map τ)) := by
    intro x hx
    rw [← sigOf_map hk hkind hinj hx a (fun _ h => h)]
    exact perm_sigOf hp _
  have hsizes : ∀ n, n ∈ (splitBySize (collectSignatures i a)).map Prod.fst ↔
      n ∈ (splitBySize (collectSignatures i b)).map Prod.fst := by
    intro n
    rw [mem_sizes_iff, mem_sizes_iff]
    constructor
    · rintro ⟨x, hx, hn⟩
      exact ⟨τ x, (occurs_map hk hkind hp _).2 ⟨x, hx, rfl⟩, by
        rw [(hsig x hx).length_eq, List.length_map, hn]⟩
    · rintro ⟨y, hy, hn⟩
      obtain ⟨x, hx, rfl⟩ := (occurs_map hk hkind hp _).1 hy
      exact ⟨x, hx, by rw [(hsig x hx).length_eq, List.length_map] at hn; exact hn⟩
  have hcomp : Comparable i a b := by
    refine ⟨?_, ?_, ?_, ?_, ?_⟩
    · rw [hp.length_eq, List.length_map]
    · rw [blankCount_sum, blankCount_sum, (hp.flatMap_right _).length_eq]
      have : ∀ l : List (Quad R), (l.flatMap (blanksOf i)).length =
          ((l.map (·.map τ)).flatMap (blanksOf i)).length := by
        intro l
        induction l with
        | nil => rfl
        | cons q l ih =>
          rw [List.map_cons, List.flatMap_cons, List.flatMap_cons, List.length_append,
            List.length_append, ih, blanksOf_map hk hkind, List.length_map]
      exact this a
    · have h1 : (((collectSignatures i a).map Prod.fst).map τ).length =
          ((collectSignatures i b).map Prod.fst).length := by
        refine nodup_length_eq ?_ (OrdMap.nodup_keys hb) fun y => ?_
        · rw [List.nodup_iff_pairwise_ne, List.pairwise_map]
          have := OrdMap.nodup_keys ha
          rw [List.nodup_iff_pairwise_ne] at this
          refine this.imp_of_mem fun {x x'} hx hx' hne e => hne (hinj x x' ?_ ?_ e)
          · exact (get_signature i a x).1 ((OrdMap.mem_keys ha x).1 hx)
          · exact (get_signature i a x').1 ((OrdMap.mem_keys ha x').1 hx')
        · rw [OrdMap.mem_keys hb, get_signature, List.mem_map]
          have := occurs_map hk hkind hp y
          unfold Occurs at this
          rw [this]
          refine exists_congr fun x => and_congr ?_ Iff.rfl
          rw [OrdMap.mem_keys ha, get_signature]
      simpa using h1
    · have := nodup_length_eq (OrdMap.nodup_keys (groups (collectSignatures i a)).sorted)
        (OrdMap.nodup_keys (groups (collectSignatures i b)).sorted) hsizes
      simpa using this
    · rw [List.all_eq_true]
      rintro ⟨n, g⟩ h
      have := (hsizes n).1 (List.mem_map.2 ⟨_, h, rfl⟩)
      rw [OrdMap.mem_keys (groups _).sorted] at this
      obtain ⟨g', hg'⟩ := this
      simp [OrdMap.contains, hg']
  have hcand : ∀ x, Occurs i a x →
      IsCandidate i (collectSignatures i a) (collectSignatures i b) x (τ x) := by
    intro x hx
    obtain ⟨sig, e1⟩ := Option.ne_none_iff_exists'.1 ((get_ne_none a x).2 hx)
    obtain ⟨sig', e2⟩ := Option.ne_none_iff_exists'.1 ((get_ne_none b (τ x)).2
      ((occurs_map hk hkind hp _).2 ⟨x, hx, rfl⟩))
    have p1 := signature i e1
    have p2 := (signature i e2).trans (hsig x hx)
    refine ⟨sig, sig', e1, e2, ?_, (hk.matches_ _ _).2 ?_⟩
    · rw [p1.length_eq, p2.length_eq, List.length_map]
    · refine (p1.map _).trans (List.Perm.symm ((p2.map _).trans ?_))
      rw [List.map_map]
      refine List.Perm.of_eq (List.map_congr_left fun q _ => ?_)
      simp only [Function.comp_apply]
      cases q with
      | mk s p o g => cases g <;> simp [Quad.map, hkind]
  rcases findBijectionWith_eq (i := i) a b with ⟨-, e⟩ | ⟨h, -⟩
  rotate_left
  · exact absurd hcomp h
  rw [e]
  rcases allCandidates_spec i _ _ ha hb hcomp.2.2.2.2 with ⟨c, e1, hf, hdom⟩ | ⟨-, x, hx, hno⟩
  rotate_left
  · exact absurd (hcand x ((get_ne_none a x).1 hx)) (hno _)
  rw [e1]
  refine find_complete (i := i) τ (Occurs i a) hinj ?_ c {} (ready_of_found hk.anonymous hf)
    (OrdMap.nodup_keys hf.sorted) (Good.empty (kind := kind)) (fun _ _ _ => rfl) ?_
    (fun x y h => by simp [OrdMap.get] at h)
  · intro m x sig sig' hg hτ hx e2 e3
    have ho : Occurs i a x := (get_ne_none a x).1 (by simp [e2])
    rw [hg.signatureMatchesWith hk]
    refine ((signature i e2).map _).trans (List.Perm.symm ((((signature i e3).trans
      (hsig x ho)).map _).trans ?_))
    rw [List.map_map]
    refine List.Perm.of_eq (List.map_congr_left fun q hq => ?_)
    have hqa : q ∈ a := by
      simp only [sigOf, List.mem_flatMap, List.mem_map] at hq
      obtain ⟨q', h1, _, _, rfl⟩ := hq
      exact h1
    have key : ∀ r ∈ positions q, leftKey m r = rightKey m (τ r) := by
      intro r hr
      unfold leftKey rightKey
      cases e4 : m.forward.get r with
      | some y =>
        obtain ⟨-, rfl⟩ := hτ _ _ e4
        rw [(hg.inverse _ _).1 e4]
        rfl
      | none =>
        cases e5 : m.backward.get (τ r) with
        | none => rfl
        | some z =>
          have h1 := (hg.inverse _ _).2 e5
          obtain ⟨h2, h3⟩ := hτ _ _ h1
          have h4 : kind r = none := by rw [← hkind, (hg.blank _ _ h1).2]
          have := hinj r z ⟨(hk.anonymous r).2 h4, q, hqa, hr⟩ h2 h3
          rw [this, h1] at e4
          cases e4
    have : q.map (leftKey m) = q.map (fun r => rightKey m (τ r)) := map_congr_positions key
    simp only [Function.comp_apply]
    rw [this]
    cases q with
    | mk s p o g => cases g <;> rfl
  · intro x l hxl
    obtain ⟨h1, -, h3⟩ := hf.get x l (OrdMap.get_of_mem hf.sorted hxl)
    have ho := (get_ne_none a x).1 h1
    exact ⟨ho, (h3 _).2 (hcand x ho)⟩

end whole

/-! ## Lexical terms -/

section terms

variable {B I L : Type} [Ord B] [Ord I] [Ord L] [DecidableEq B] [DecidableEq I] [DecidableEq L]

theorem kinds_lexical : Kinds (lexical B I L) Spec.erase where
  anonymous r := by
    rcases r with b | (x | x) <;>
      simp [ReverseInterpretation.isAnonymous, ReverseInterpretation.termsOf, lexical, Spec.erase]
  same a b := by
    rcases a with a | (a | a) <;> rcases b with b | (b | b) <;> simp [lexical, Spec.erase]

theorem occurs_lexical (ds : List (Quad (LocalTerm B I L))) (x : LocalTerm B I L) :
    Occurs (lexical B I L) ds x ↔ Spec.BlankIn ds x := by
  unfold Occurs Spec.BlankIn
  rw [kinds_lexical.anonymous]
  rcases x with b | t <;> simp [Spec.erase]

theorem surroundings_eq {ds : List (Quad (LocalTerm B I L))} {x : LocalTerm B I L}
    (hx : Spec.erase x = none) :
    (sigOf (lexical B I L) ds x).map (·.map Spec.erase) = Spec.surroundings ds x := by
  unfold sigOf Spec.surroundings
  rw [List.map_flatMap]
  congr 1
  funext q
  rw [List.map_map]
  have : (blanksOf (lexical B I L) q).filter (· = x) = (positions q).filter (· = x) := by
    unfold blanksOf
    rw [List.filter_filter]
    refine List.filter_congr fun r _ => ?_
    by_cases e : r = x
    · rw [e, (kinds_lexical.anonymous x).2 hx]
      simp
    · simp [e]
  rw [this]
  rfl

theorem length_surroundings (ds : List (Quad (LocalTerm B I L))) (x : LocalTerm B I L) :
    (Spec.surroundings ds x).length = Spec.occurrences ds x := by
  unfold Spec.surroundings Spec.occurrences
  induction ds with
  | nil => rfl
  | cons q ds ih =>
    rw [List.flatMap_cons, List.flatMap_cons, List.length_append, ih, List.count_append,
      List.length_map]
    congr 1
    rw [List.count, List.countP_eq_length_filter]
    rfl

theorem relabel_inj {f : B → B} {ds : List (Quad (LocalTerm B I L))}
    (hf : ∀ b b', Spec.BlankIn ds (.anonymous b) → Spec.BlankIn ds (.anonymous b') → f b = f b' →
      b = b') {q q' : Quad (LocalTerm B I L)} (hq : q ∈ ds) (hq' : q' ∈ ds)
    (h : q.map (Spec.relabel f) = q'.map (Spec.relabel f)) : q = q' := by
  have key : ∀ x y, x ∈ positions q → y ∈ positions q' → Spec.relabel f x = Spec.relabel f y →
      x = y := by
    intro x y hx hy e
    rcases x with b | t <;> rcases y with b' | t' <;> simp [Spec.relabel] at e
    · rw [hf b b' ⟨⟨b, rfl⟩, q, hq, hx⟩ ⟨⟨b', rfl⟩, q', hq', hy⟩ e]
    · rw [e]
  rw [← quad_map_eq] at h
  obtain ⟨h1, h2, h3, h4⟩ := h
  rcases q with ⟨s, p, o, g⟩
  rcases q' with ⟨s', p', o', g'⟩
  have e1 := key s s' (by simp [positions]) (by simp [positions]) h1
  have e2 := key p p' (by simp [positions]) (by simp [positions]) h2
  have e3 := key o o' (by simp [positions]) (by simp [positions]) h3
  have e4 : g = g' := by
    cases g <;> cases g' <;> simp at h4
    · rfl
    · next x y => rw [key x y (by simp [positions]) (by simp [positions]) h4]
  rw [e1, e2, e3, e4]

theorem perm_of_related {f : B → B} {a b : List (Quad (LocalTerm B I L))} (ha : a.Nodup)
    (hb : b.Nodup) (h : Spec.RelatedBy f a b) : b.Perm (a.map (·.map (Spec.relabel f))) := by
  refine (List.perm_ext_iff_of_nodup hb ?_).2 fun q => ?_
  · rw [List.nodup_iff_pairwise_ne, List.pairwise_map]
    rw [List.nodup_iff_pairwise_ne] at ha
    exact ha.imp_of_mem fun hq hq' hne e => hne (relabel_inj h.1 hq hq' e)
  · rw [h.2, List.mem_map]
    exact exists_congr fun q₀ => and_congr Iff.rfl eq_comm

variable [Std.TransOrd B] [Std.LawfulEqOrd B] [Std.TransOrd I] [Std.LawfulEqOrd I] [Std.TransOrd L]
  [Std.LawfulEqOrd L]

theorem findBijection_perm {a b : List (Quad (LocalTerm B I L))} {f : B → B}
    (hf : ∀ x y, Spec.BlankIn a (.anonymous x) → Spec.BlankIn a (.anonymous y) → f x = f y → x = y)
    (h : b.Perm (a.map (·.map (Spec.relabel f)))) : ∃ m, findBijection a b = .ok (some m) := by
  refine findBijectionWith_complete kinds_lexical (τ := Spec.relabel f) ?_ ?_ h
  · rintro (b | t) <;> rfl
  · intro x x' hx hx' e
    rw [occurs_lexical] at hx hx'
    obtain ⟨⟨y, rfl⟩, -⟩ := id hx
    obtain ⟨⟨y', rfl⟩, -⟩ := id hx'
    simp only [Spec.relabel, LocalTerm.anonymous.injEq] at e
    rw [hf _ _ hx hx' e]

theorem findBijection_complete {a b : List (Quad (LocalTerm B I L))} (ha : a.Nodup) (hb : b.Nodup)
    (h : Spec.Isomorphic a b) : ∃ m, findBijection a b = .ok (some m) := by
  obtain ⟨f, hf⟩ := h
  exact findBijection_perm hf.1 (perm_of_related ha hb hf)

theorem findBijection_spec (a b : List (Quad (LocalTerm B I L))) :
    ∃ o, findBijection a b = .ok o ∧ ∀ m, o = some m →
      Spec.InverseMaps m.forward m.backward (Spec.BlankIn a) (Spec.BlankIn b) ∧
      ∀ x y, (x, y) ∈ m.forward → (Spec.surroundings a x).Perm (Spec.surroundings b y) := by
  obtain ⟨o, e, ho⟩ := findBijectionWith_spec kinds_lexical a b
  refine ⟨o, e, fun m hm => ?_⟩
  obtain ⟨h1, h2, h3, h4⟩ := ho m hm
  have hf : ∀ x y, (x, y) ∈ m.forward ↔ m.forward.get x = some y := fun x y =>
    ⟨OrdMap.get_of_mem h1.sorted, OrdMap.mem_of_get⟩
  have hb : ∀ x y, (x, y) ∈ m.backward ↔ m.backward.get x = some y := fun x y =>
    ⟨OrdMap.get_of_mem h1.sorted', OrdMap.mem_of_get⟩
  refine ⟨⟨fun x y => ?_, fun x y y' hy hy' => ?_, fun y x x' hx hx' => ?_, fun x => ?_,
    fun y => ?_⟩, fun x y hxy => ?_⟩
  · rw [hf, hb]
    exact h1.inverse x y
  · rw [hf] at hy hy'
    exact Option.some.inj (hy.symm.trans hy')
  · rw [hb] at hx hx'
    exact Option.some.inj (hx.symm.trans hx')
  · rw [← occurs_lexical, h2]
    exact exists_congr fun y => (hf x y).symm
  · rw [← occurs_lexical, h3]
    exact exists_congr fun x => (hb y x).symm
  · rw [hf] at hxy
    have := h4 x y hxy
    rwa [surroundings_eq (h1.blank x y hxy).1, surroundings_eq (h1.blank x y hxy).2] at this

/-- With one blank node in each quad, the quads with blank nodes are renamed into each
other. -/
theorem one_blank {a b : List (Quad (LocalTerm B I L))} (ha : Spec.OneBlankEach a)
    (hb : Spec.OneBlankEach b) {fw bw : List (LocalTerm B I L × LocalTerm B I L)}
    (hm : Spec.InverseMaps fw bw (Spec.BlankIn a) (Spec.BlankIn b))
    (hs : ∀ x y, (x, y) ∈ fw → (Spec.surroundings a x).Perm (Spec.surroundings b y)) :
    ∃ f : B → B,
      (∀ x y, Spec.BlankIn a (.anonymous x) → ((.anonymous x, .anonymous y) ∈ fw ↔ f x = y)) ∧
      (∀ x x', Spec.BlankIn a (.anonymous x) → Spec.BlankIn a (.anonymous x') → f x = f x' →
        x = x') ∧
      ∀ q, ¬ Spec.Ground q → (q ∈ b ↔ ∃ q₀ ∈ a, q = q₀.map (Spec.relabel f)) := by
  obtain ⟨m1, m2, m3, m4, m5⟩ := hm
  have hex : ∀ x, ∃ y, Spec.BlankIn a (.anonymous x) →
      ((LocalTerm.anonymous x : LocalTerm B I L), LocalTerm.anonymous y) ∈ fw := by
    intro x
    by_cases h : Spec.BlankIn a (.anonymous x)
    · obtain ⟨y, hy⟩ := (m4 _).1 h
      obtain ⟨⟨y', rfl⟩, -⟩ := (m5 y).2 ⟨_, (m1 _ _).1 hy⟩
      exact ⟨y', fun _ => hy⟩
    · exact ⟨x, fun h' => absurd h' h⟩
  have ⟨f, hf⟩ := Classical.axiomOfChoice hex
  have hf' : ∀ x y, Spec.BlankIn a (.anonymous x) →
      (((LocalTerm.anonymous x : LocalTerm B I L), LocalTerm.anonymous y) ∈ fw ↔ f x = y) := by
    intro x y hx
    constructor
    · intro h
      exact LocalTerm.anonymous.inj (m2 _ _ _ (hf x hx) h)
    · rintro rfl
      exact hf x hx
  refine ⟨f, hf', fun x x' hx hx' e => ?_, fun q hq => ?_⟩
  · have h1 := (m1 _ _).1 (hf x hx)
    have h2 := (m1 _ _).1 (hf x' hx')
    rw [← e] at h2
    exact LocalTerm.anonymous.inj (m3 _ _ _ h1 h2)
  · -- two quads with the same shape around mapped blank nodes are renamed into each other
    have key : ∀ (x : B) (q₀ q : Quad (LocalTerm B I L)), q₀ ∈ a → q ∈ b →
        Spec.BlankIn a (.anonymous x) →
        LocalTerm.anonymous x ∈ positions q₀ → LocalTerm.anonymous (f x) ∈ positions q →
        q₀.map Spec.erase = q.map Spec.erase → q = q₀.map (Spec.relabel f) := by
      intro x q₀ q h1 h2 hx h3 h4 h5
      have step : ∀ r ∈ positions q₀, ∀ r' ∈ positions q, Spec.erase r = Spec.erase r' →
          r' = Spec.relabel f r := by
        intro r hr r' hr' e
        rcases r with z | t <;> rcases r' with z' | t' <;> simp [Spec.erase] at e
        · rw [ha q₀ h1 z x hr h3, hb q h2 z' (f x) hr' h4]
          rfl
        · rw [e]
          rfl
      rw [← quad_map_eq] at h5
      obtain ⟨e1, e2, e3, e4⟩ := h5
      rcases q₀ with ⟨s, p, o, g⟩
      rcases q with ⟨s', p', o', g'⟩
      have e1 := step s (by simp [positions]) s' (by simp [positions]) e1
      have e2 := step p (by simp [positions]) p' (by simp [positions]) e2
      have e3 := step o (by simp [positions]) o' (by simp [positions]) e3
      have e4 : g' = g.map (Spec.relabel f) := by
        cases g <;> cases g' <;> simp at e4
        · rfl
        · next x y => rw [step x (by simp [positions]) y (by simp [positions]) e4]; rfl
      rw [e1, e2, e3, e4]
      rfl
    have mem_sur : ∀ (ds : List (Quad (LocalTerm B I L))) x k,
        k ∈ Spec.surroundings ds x ↔ ∃ q ∈ ds, x ∈ positions q ∧ k = q.map Spec.erase := by
      intro ds x k
      simp only [Spec.surroundings, List.mem_flatMap, List.mem_map, List.mem_filter,
        decide_eq_true_eq]
      constructor
      · rintro ⟨q, h1, _, ⟨h2, rfl⟩, rfl⟩
        exact ⟨q, h1, h2, rfl⟩
      · rintro ⟨q, h1, h2, rfl⟩
        exact ⟨q, h1, x, ⟨h2, rfl⟩, rfl⟩
    have hq' : ∃ y, LocalTerm.anonymous y ∈ positions q := by
      simpa [Spec.Ground] using hq
    obtain ⟨y, hy⟩ := hq'
    constructor
    · intro hqb
      obtain ⟨x, hx⟩ := (m5 (.anonymous y)).1 ⟨⟨y, rfl⟩, q, hqb, hy⟩
      have hx' := (m1 _ _).2 hx
      have hxa := (m4 x).2 ⟨_, hx'⟩
      obtain ⟨⟨x, rfl⟩, -⟩ := id hxa
      obtain ⟨q₀, h1, h2, h3⟩ := (mem_sur a _ _).1 ((hs _ _ hx').mem_iff.2 ((mem_sur b _ _).2
        ⟨q, hqb, hy, rfl⟩))
      exact ⟨q₀, h1, key x q₀ q h1 hqb hxa h2 ((hf' x y hxa).1 hx' ▸ hy) h3.symm⟩
    · rintro ⟨q₀, h1, rfl⟩
      rw [positions_map] at hy
      obtain ⟨r, hr, e⟩ := List.mem_map.1 hy
      rcases r with x | t
      · have hxa : Spec.BlankIn a (.anonymous x) := ⟨⟨x, rfl⟩, q₀, h1, hr⟩
        obtain ⟨q, h2, h3, h4⟩ := (mem_sur b _ _).1 ((hs _ _ (hf x hxa)).mem_iff.1 ((mem_sur a _ _).2
          ⟨q₀, h1, hr, rfl⟩))
        rw [← key x q₀ q h1 h2 hxa hr h3 h4]
        exact h2
      · simp [Spec.relabel] at e

end terms

end RdfTypes.Isomorphism
