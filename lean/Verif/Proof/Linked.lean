import Verif.Spec.Linked

/-!
# Proofs about the slab as a linked list
-/

namespace RdfTypes

variable {α β : Type}

/-- The content of an entry. -/
def SlabEntry.content : SlabEntry α → Option α
  | .vacant _ => none
  | .occupied v => some v

namespace LinkedSlab

/-- The list of vacant keys from `n` on is `ks`. -/
def Chain (e : List (SlabEntry α)) : Nat → List Nat → Prop
  | n, [] => n = e.length
  | n, k :: ks => n = k ∧ ∃ n', e[k]? = some (.vacant n') ∧ Chain e n' ks

theorem Chain.set {e : List (SlabEntry α)} {n : Nat} {ks : List Nat} (h : Chain e n ks) {k : Nat}
    (hk : k ∉ ks) (x : SlabEntry α) : Chain (e.set k x) n ks := by
  induction ks generalizing n with
  | nil => simpa [Chain] using h
  | cons j ks ih =>
    obtain ⟨rfl, n', e', h'⟩ := h
    simp only [List.mem_cons, not_or] at hk
    exact ⟨rfl, n', by rw [List.getElem?_set_ne hk.1]; exact e', ih h' hk.2⟩

/-- The slab `t` keeps what `s` says. -/
structure Keeps (t : LinkedSlab α) (s : Slab α) : Prop where
  wf : s.WF
  entries : t.entries.map SlabEntry.content = s.entries
  chain : Chain t.entries t.next s.free
  len : t.len = s.len

theorem Keeps.length {t : LinkedSlab α} {s : Slab α} (h : Keeps t s) :
    t.entries.length = s.entries.length := by rw [← h.entries, List.length_map]

theorem Keeps.get {t : LinkedSlab α} {s : Slab α} (h : Keeps t s) (k : Nat) :
    s.get k = (t.entries[k]?).bind SlabEntry.content := by
  unfold Slab.get
  rw [← h.entries, List.getElem?_map]
  cases t.entries[k]? <;> rfl

theorem keeps_empty : Keeps (empty : LinkedSlab α) Slab.empty :=
  ⟨Slab.wf_empty, rfl, rfl, rfl⟩

theorem Keeps.next {t : LinkedSlab α} {s : Slab α} (h : Keeps t s) : t.next = s.vacantKey := by
  have hc := h.chain
  unfold Slab.vacantKey
  cases hf : s.free with
  | nil => rw [hf] at hc; rw [← h.length]; exact hc
  | cons k ks => rw [hf] at hc; exact hc.1

theorem countP_set_some {l : List (Option α)} {k : Nat} {v : α} (h : l[k]? = some none) :
    (l.set k (some v)).countP (·.isSome) = l.countP (·.isSome) + 1 := by
  induction l generalizing k with
  | nil => simp at h
  | cons a l ih =>
    cases k with
    | zero =>
      simp only [List.getElem?_cons_zero, Option.some.injEq] at h
      subst h
      simp
    | succ k =>
      simp only [List.getElem?_cons_succ] at h
      simp only [List.set_cons_succ, List.countP_cons, ih h]
      omega

theorem countP_set_none {l : List (Option α)} {k : Nat} {v : α} (h : l[k]? = some (some v)) :
    (l.set k none).countP (·.isSome) + 1 = l.countP (·.isSome) := by
  induction l generalizing k with
  | nil => simp at h
  | cons a l ih =>
    cases k with
    | zero =>
      simp only [List.getElem?_cons_zero, Option.some.injEq] at h
      subst h
      simp
    | succ k =>
      simp only [List.getElem?_cons_succ] at h
      simp only [List.set_cons_succ, List.countP_cons]
      have := ih h
      omega

theorem countP_set_keep {l : List (Option α)} {k : Nat} {v w : α} (h : l[k]? = some (some v)) :
    (l.set k (some w)).countP (·.isSome) = l.countP (·.isSome) := by
  induction l generalizing k with
  | nil => simp at h
  | cons a l ih =>
    cases k with
    | zero =>
      simp only [List.getElem?_cons_zero, Option.some.injEq] at h
      subst h
      simp
    | succ k =>
      simp only [List.getElem?_cons_succ] at h
      simp only [List.set_cons_succ, List.countP_cons, ih h]

theorem Keeps.insert {t : LinkedSlab α} {s : Slab α} (h : Keeps t s) (v : α) :
    ∃ t', t.insert v = .ok t' ∧ Keeps t' (s.insert v) := by
  have hw := Slab.wf_insert h.wf v
  have hc := h.chain
  have hn := h.wf.nodup
  have hm := h.wf.mem_free
  cases hf : s.free with
  | nil =>
    rw [hf] at hc
    have hc : t.next = t.entries.length := hc
    refine ⟨⟨t.entries ++ [.occupied v], t.len + 1, t.next + 1⟩, by simp [LinkedSlab.insert, hc],
      hw, ?_, ?_, ?_⟩
    · simp [Slab.insert, hf, h.entries, SlabEntry.content]
    · simp [Slab.insert, hf, Chain, hc]
    · simp [Slab.insert, hf, Slab.len, h.len, List.countP_append]
  | cons k ks =>
    rw [hf] at hc hn
    obtain ⟨hk, n', e, hc'⟩ := hc
    have hl : k < t.entries.length := (List.getElem?_eq_some_iff.1 e).1
    refine ⟨⟨t.entries.set k (.occupied v), t.len + 1, n'⟩, ?_, hw, ?_, ?_, ?_⟩
    · unfold LinkedSlab.insert
      rw [if_neg (by omega), hk, e]
    · simp [Slab.insert, hf, ← h.entries, List.map_set, SlabEntry.content]
    · simp only [Slab.insert, hf]
      exact hc'.set (List.nodup_cons.1 hn).1 _
    · simp only [Slab.insert, hf, Slab.len, h.len]
      rw [countP_set_some]
      rw [← h.entries, List.getElem?_map, e]
      rfl

theorem Keeps.index {t : LinkedSlab α} {s : Slab α} (h : Keeps t s) (k : Nat) :
    t.index k = s.index k := by
  unfold LinkedSlab.index Slab.index
  rw [h.get]
  rcases e : t.entries[k]? with _ | (n | v) <;> rfl

theorem Keeps.remove {t : LinkedSlab α} {s : Slab α} (h : Keeps t s) (k : Nat) :
    (∃ t' s' v, t.remove k = .ok (t', v) ∧ s.remove k = .ok (s', v) ∧ Keeps t' s') ∨
      t.remove k = .error .invalidKey ∧ s.remove k = .error .invalidKey := by
  have hg := h.get k
  rcases e : t.entries[k]? with _ | (n | v)
  · exact .inr ⟨by simp [LinkedSlab.remove, e], by simp [Slab.remove, hg, e]⟩
  · exact .inr ⟨by simp [LinkedSlab.remove, e], by simp [Slab.remove, hg, e, SlabEntry.content]⟩
  · have hg : s.get k = some v := by rw [hg, e]; rfl
    have hl : k < t.entries.length := (List.getElem?_eq_some_iff.1 e).1
    have hk : k ∉ s.free := by
      intro hm
      rw [h.wf.mem_free] at hm
      rw [hg] at hm
      cases hm.2
    refine .inl ⟨⟨t.entries.set k (.vacant t.next), t.len - 1, k⟩, s.erase k, v,
      by simp [LinkedSlab.remove, e], Slab.remove_ok hg, Slab.wf_erase h.wf hg, ?_, ?_, ?_⟩
    · simp [Slab.erase, ← h.entries, List.map_set, SlabEntry.content]
    · exact ⟨rfl, t.next, by simp [hl], h.chain.set hk _⟩
    · have := countP_set_none (Slab.get_eq_some_iff.1 hg)
      simp only [Slab.erase, Slab.len, h.len] at this ⊢
      omega

theorem Keeps.modify {t : LinkedSlab α} {s : Slab α} (h : Keeps t s) (k : Nat) (f : α → α) :
    (∃ t' s', t.modify k f = .ok t' ∧ s.modify k (fun v => .ok (f v)) = .ok s' ∧ Keeps t' s') ∨
      (∃ e, t.modify k f = .error e) ∧ ∃ e, s.modify k (fun v => .ok (f v)) = .error e := by
  have hg := h.get k
  rcases e : t.entries[k]? with _ | (n | v)
  · exact .inr ⟨⟨.invalidKey, by simp only [LinkedSlab.modify, e]⟩, .invalidKey, by
      simp [Slab.modify, Slab.index, hg, e, bind, Except.bind]⟩
  · exact .inr ⟨⟨.invalidKey, by simp only [LinkedSlab.modify, e]⟩, .invalidKey, by
      simp [Slab.modify, Slab.index, hg, e, bind, Except.bind, SlabEntry.content]⟩
  · have hg : s.get k = some v := by rw [hg, e]; rfl
    have hk : k ∉ s.free := by
      intro hm
      rw [h.wf.mem_free] at hm
      rw [hg] at hm
      cases hm.2
    refine .inl ⟨⟨t.entries.set k (.occupied (f v)), t.len, t.next⟩, s.put k (f v),
      by simp only [LinkedSlab.modify, e], Slab.modify_ok hg rfl, Slab.wf_put h.wf hg, ?_, ?_, ?_⟩
    · simp [Slab.put, ← h.entries, List.map_set, SlabEntry.content]
    · exact h.chain.set hk _
    · simp only [Slab.put, Slab.len, h.len]
      rw [countP_set_keep (Slab.get_eq_some_iff.1 hg)]

/-- Calls are answered alike, and keep the slabs so. -/
theorem Keeps.ask {t : LinkedSlab α} {s : Slab α} (h : Keeps t s) (c : Spec.SlabCall α) :
    (Spec.askLinked t c).1 = (Spec.askStack s c).1 ∧
      Keeps (Spec.askLinked t c).2 (Spec.askStack s c).2 := by
  cases c with
  | insert v =>
    obtain ⟨t', e, h'⟩ := h.insert v
    simp only [Spec.askLinked, Spec.askStack, e, h.next]
    exact ⟨trivial, h'⟩
  | remove k =>
    rcases h.remove k with ⟨t', s', v, e, e', h'⟩ | ⟨e, e'⟩
    · simp only [Spec.askLinked, Spec.askStack, e, e']
      exact ⟨trivial, h'⟩
    · simp only [Spec.askLinked, Spec.askStack, e, e']
      exact ⟨trivial, h⟩
  | index k =>
    simp only [Spec.askLinked, Spec.askStack, h.index]
    cases s.index k <;> exact ⟨rfl, h⟩
  | modify k f =>
    rcases h.modify k f with ⟨t', s', e, e', h'⟩ | ⟨⟨x, e⟩, y, e'⟩
    · simp only [Spec.askLinked, Spec.askStack, e, e']
      exact ⟨trivial, h'⟩
    · simp only [Spec.askLinked, Spec.askStack, e, e']
      exact ⟨trivial, h⟩
  | vacantKey => exact ⟨by simp only [Spec.askLinked, Spec.askStack, vacantKey, h.next], h⟩
  | len => exact ⟨by simp only [Spec.askLinked, Spec.askStack, h.len], h⟩

theorem Keeps.askAll {t : LinkedSlab α} {s : Slab α} (h : Keeps t s) (l : List (Spec.SlabCall α)) :
    (Spec.askAll Spec.askLinked t l).1 = (Spec.askAll Spec.askStack s l).1 ∧
      Keeps (Spec.askAll Spec.askLinked t l).2 (Spec.askAll Spec.askStack s l).2 := by
  induction l generalizing t s with
  | nil => exact ⟨rfl, h⟩
  | cons c l ih =>
    obtain ⟨e, h'⟩ := h.ask c
    obtain ⟨es, h''⟩ := ih h'
    simp only [Spec.askAll]
    exact ⟨by rw [e, es], h''⟩

/-! ## Collecting -/

/-- The holes of a list of entries, the last first. -/
def holes (l : List (Option α)) : List Nat :=
  ((List.range l.length).filter (fun k => ((l[k]?).join).isNone)).reverse

theorem holes_concat (l : List (Option α)) (o : Option α) :
    holes (l ++ [o]) = if o.isNone then l.length :: holes l else holes l := by
  unfold holes
  rw [List.length_append, List.length_singleton, List.range_succ, List.filter_append]
  have e : (List.range l.length).filter (fun k => (((l ++ [o])[k]?).join).isNone) =
      (List.range l.length).filter (fun k => ((l[k]?).join).isNone) := by
    refine List.filter_congr fun k hk => ?_
    rw [List.getElem?_append_left (List.mem_range.1 hk)]
  rw [e]
  cases o <;> simp

/-- The list of vacant keys from `n` on is `ks`, then `i`, whose next key does not matter. -/
def ChainTo (e : List (SlabEntry α)) (i : Nat) : Nat → List Nat → Prop
  | n, [] => n = i ∧ ∃ n', e[i]? = some (.vacant n')
  | n, k :: ks => n = k ∧ ∃ n', e[k]? = some (.vacant n') ∧ ChainTo e i n' ks

theorem ChainTo.append {e : List (SlabEntry α)} {i n : Nat} {ks : List Nat}
    (h : ChainTo e i n ks) (x : SlabEntry α) : ChainTo (e ++ [x]) i n ks := by
  have key : ∀ {k : Nat} {y : SlabEntry α}, e[k]? = some y → (e ++ [x])[k]? = some y := by
    intro k y hk
    rw [List.getElem?_append_left (List.getElem?_eq_some_iff.1 hk).1]
    exact hk
  induction ks generalizing n with
  | nil => exact ⟨h.1, h.2.imp fun _ => key⟩
  | cons k ks ih =>
    obtain ⟨rfl, n', e', h'⟩ := h
    exact ⟨rfl, n', key e', ih h'⟩

theorem ChainTo.close {e : List (SlabEntry α)} {i n : Nat} {ks : List Nat} (h : ChainTo e i n ks)
    (hi : i ∉ ks) : Chain (e.set i (.vacant e.length)) n (ks ++ [i]) := by
  induction ks generalizing n with
  | nil =>
    obtain ⟨rfl, n', e'⟩ := h
    exact ⟨rfl, e.length, by simp [(List.getElem?_eq_some_iff.1 e').1], by simp [Chain]⟩
  | cons k ks ih =>
    obtain ⟨rfl, n', e', h'⟩ := h
    simp only [List.mem_cons, not_or] at hi
    exact ⟨rfl, n', by rw [List.getElem?_set_ne hi.1]; exact e', ih h' hi.2⟩

/-- The entries of a slab under construction are `l`. -/
structure Building (b : Builder α) (l : List (Option α)) : Prop where
  entries : b.slab.entries.map SlabEntry.content = l
  len : b.slab.len = l.countP (·.isSome)
  full : b.firstVacant = none → holes l = []
  links : ∀ i, b.firstVacant = some i → ∃ ks, holes l = ks ++ [i] ∧
    ChainTo b.slab.entries i b.slab.next ks

theorem Building.length {b : Builder α} {l : List (Option α)} (h : Building b l) :
    b.slab.entries.length = l.length := by rw [← h.entries, List.length_map]

theorem building_empty : Building (⟨empty, none⟩ : Builder α) [] :=
  ⟨rfl, rfl, fun _ => rfl, fun _ e => by cases e⟩

theorem Building.fill {t : LinkedSlab α} {i : Nat} {l : List (Option α)} (n : Nat)
    (h : Building ⟨t, some i⟩ l) :
    Building ⟨fill t n, some i⟩ (l ++ List.replicate n none) := by
  induction n generalizing t l with
  | zero => simpa [LinkedSlab.fill] using h
  | succ n ih =>
    rw [List.replicate_succ, ← List.singleton_append, ← List.append_assoc]
    refine ih ⟨?_, ?_, fun e => (by cases e), fun j ej => ?_⟩
    · have := h.entries
      simp only at this
      simp [this, SlabEntry.content]
    · have := h.len
      simp only at this
      simp [this, List.countP_append]
    · cases ej
      obtain ⟨ks, hk, hc⟩ := h.links i rfl
      have hl := h.length
      simp only at hl hc
      refine ⟨l.length :: ks, by rw [holes_concat]; simp [hk], ?_⟩
      refine ⟨hl, t.next, ?_, hc.append _⟩
      simp [← hl]

theorem Building.begin {t : LinkedSlab α} {l : List (Option α)} (n : Nat)
    (h : Building ⟨t, none⟩ l) :
    Building ⟨LinkedSlab.fill t (n + 1), some t.entries.length⟩
      (l ++ List.replicate (n + 1) none) := by
  have hl := h.length
  simp only at hl
  rw [List.replicate_succ, ← List.singleton_append, ← List.append_assoc]
  refine Building.fill n ⟨?_, ?_, fun e => (by cases e), fun j ej => ?_⟩
  · have := h.entries
    simp only at this
    simp [this, SlabEntry.content]
  · have := h.len
    simp only at this
    simp [this, List.countP_append]
  · cases ej
    exact ⟨[], by rw [holes_concat, h.full rfl]; simp [hl], rfl, t.next, by simp⟩

theorem Building.push {b : Builder α} {l : List (Option α)} (h : Building b l) (v : α) :
    Building ⟨⟨b.slab.entries ++ [.occupied v], b.slab.len + 1, b.slab.next⟩, b.firstVacant⟩
      (l ++ [some v]) := by
  refine ⟨by simp [h.entries, SlabEntry.content], by simp [h.len, List.countP_append],
    fun e => ?_, fun i e => ?_⟩
  · rw [holes_concat, h.full e]; rfl
  · obtain ⟨ks, hk, hc⟩ := h.links i e
    exact ⟨ks, by rw [holes_concat, hk]; rfl, hc.append _⟩

theorem Building.pair {b : Builder α} {l : List (Option α)} (h : Building b l) {k : Nat}
    (hk : l.length ≤ k) (v : α) : ∃ b', b.pair (k, v) = .ok b' ∧
      Building b' (l ++ List.replicate (k - l.length) none ++ [some v]) := by
  have hl := h.length
  unfold Builder.pair
  rw [if_neg (by simp only; omega)]
  refine ⟨_, rfl, ?_⟩
  obtain ⟨t, fv⟩ := b
  simp only at hl ⊢
  rw [hl]
  cases fv with
  | some i =>
    have := (h.fill (k - l.length)).push v
    simpa using this
  | none =>
    cases e : k - l.length with
    | zero =>
      have hn : ¬ l.length < k := by omega
      have := h.push v
      simpa [hn, LinkedSlab.fill] using this
    | succ n =>
      have hn : l.length < k := by omega
      have := (h.begin n).push v
      rw [hl] at this
      simpa [hn] using this

theorem trim_concat_none (l : List (Option α)) : Slab.trim (l ++ [none]) = Slab.trim l := by
  simp [Slab.trim]

theorem trim_concat_some (l : List (Option α)) (v : α) :
    Slab.trim (l ++ [some v]) = l ++ [some v] := by
  simp [Slab.trim]

theorem trim_fill (l : List (Option α)) : (Slab.trim l).length ≤ l.length ∧
    Slab.trim l ++ List.replicate (l.length - (Slab.trim l).length) none = l := by
  suffices key : ∀ r : List (Option α), (Slab.trim r.reverse).length ≤ r.length ∧
      Slab.trim r.reverse ++ List.replicate (r.length - (Slab.trim r.reverse).length) none =
        r.reverse by
    simpa using key l.reverse
  intro r
  induction r with
  | nil => simp [Slab.trim]
  | cons o r ih =>
    rw [List.reverse_cons]
    cases o with
    | some v => simp [trim_concat_some]
    | none =>
      rw [trim_concat_none]
      refine ⟨by simp only [List.length_cons]; omega, ?_⟩
      have e : (none :: r : List (Option α)).length - (Slab.trim r.reverse).length =
          (r.length - (Slab.trim r.reverse).length) + 1 := by
        simp only [List.length_cons]; omega
      rw [e, List.replicate_succ', ← List.append_assoc, ih.2]

/-- The pairs of a list of entries. -/
def pairsOf (f : α → β) (e : List (SlabEntry α)) : List (Nat × β) :=
  (e.zipIdx.filterMap (fun e =>
    match e.1 with
    | .occupied v => some (e.2, v)
    | .vacant _ => none)).map (fun x => (x.1, f x.2))

theorem pairsOf_concat (f : α → β) (e : List (SlabEntry α)) (x : SlabEntry α) :
    pairsOf f (e ++ [x]) = match x with
      | .occupied v => pairsOf f e ++ [(e.length, f v)]
      | .vacant _ => pairsOf f e := by
  unfold pairsOf
  rw [List.zipIdx_append, List.filterMap_append, List.map_append]
  cases x <;> simp

theorem foldlM_concat {σ X : Type} (step : σ → X → Res σ) (s : σ) (l : List X) (x : X) {s' s'' : σ}
    (e : l.foldlM step s = .ok s') (e' : step s' x = .ok s'') :
    (l ++ [x]).foldlM step s = .ok s'' := by
  rw [List.foldlM_append, e]
  simp [bind, Except.bind, e', pure, Except.pure]

theorem collects (f : α → β) (e : List (SlabEntry α)) :
    ∃ b, (pairsOf f e).foldlM Builder.pair ⟨empty, none⟩ = .ok b ∧
      Building b (Slab.trim ((e.map SlabEntry.content).map (Option.map f))) := by
  suffices key : ∀ r : List (SlabEntry α),
      ∃ b, (pairsOf f r.reverse).foldlM Builder.pair ⟨empty, none⟩ = .ok b ∧
        Building b (Slab.trim ((r.reverse.map SlabEntry.content).map (Option.map f))) by
    simpa using key e.reverse
  intro r
  induction r with
  | nil => exact ⟨_, rfl, building_empty⟩
  | cons x r ih =>
    obtain ⟨b, e, h⟩ := ih
    rw [List.reverse_cons, pairsOf_concat, List.map_append, List.map_append]
    cases x with
    | vacant n =>
      refine ⟨b, e, ?_⟩
      show Building b (Slab.trim (_ ++ [none]))
      rw [trim_concat_none]
      exact h
    | occupied v =>
      obtain ⟨hl, ht⟩ := trim_fill ((r.reverse.map SlabEntry.content).map (Option.map f))
      have hn : ((r.reverse.map SlabEntry.content).map (Option.map f)).length =
          r.reverse.length := by simp
      rw [hn] at hl ht
      obtain ⟨b', e', h'⟩ := h.pair hl (f v)
      rw [ht] at h'
      refine ⟨b', foldlM_concat _ _ _ _ e e', ?_⟩
      show Building b' (Slab.trim (_ ++ [some (f v)]))
      rw [trim_concat_some]
      exact h'

theorem countP_full {l : List (Option α)} (h : holes l = []) :
    l.countP (·.isSome) = l.length := by
  rw [List.countP_eq_length]
  intro o ho
  obtain ⟨k, hk, e⟩ := List.mem_iff_getElem.1 ho
  cases o with
  | some v => rfl
  | none =>
    have hm : k ∈ holes l := by simp [holes, hk, e]
    rw [h] at hm
    cases hm

theorem countP_hole {l : List (Option α)} {k : Nat} (h : k ∈ holes l) :
    l.countP (·.isSome) ≠ l.length := by
  intro hc
  rw [List.countP_eq_length] at hc
  simp only [holes, List.mem_reverse, List.mem_filter, List.mem_range] at h
  have := hc l[k] (List.getElem_mem h.1)
  rw [List.getElem?_eq_getElem h.1] at h
  cases e : l[k] <;> simp_all

theorem Building.build {b : Builder α} {l : List (Option α)} (h : Building b l) :
    ∃ t, b.build = .ok t ∧ t.entries.map SlabEntry.content = l ∧
      t.len = l.countP (·.isSome) ∧ Chain t.entries t.next (holes l) := by
  have hl := h.length
  unfold Builder.build
  cases hf : b.firstVacant with
  | none =>
    have hh := h.full hf
    simp only
    rw [if_pos (by rw [h.len, countP_full hh, hl])]
    exact ⟨_, rfl, h.entries, h.len, by rw [hh]; rfl⟩
  | some i =>
    obtain ⟨ks, hk, hc⟩ := h.links i hf
    have hi : i ∈ holes l := by simp [hk]
    have hnd : (holes l).Nodup := by
      unfold holes
      exact List.pairwise_reverse.2 ((List.Pairwise.filter _ List.nodup_range).imp Ne.symm)
    have hik : i ∉ ks := by
      rw [hk] at hnd
      intro hm
      exact (List.nodup_append.1 hnd).2.2 i hm i (by simp) rfl
    simp only
    rw [if_neg (by rw [h.len, hl]; exact countP_hole hi)]
    have hv : ∃ n, b.slab.entries[i]? = some (.vacant n) := by
      have : ((l[i]?).join).isNone ∧ i < l.length := by
        simp only [holes, List.mem_reverse, List.mem_filter, List.mem_range] at hi
        exact ⟨hi.2, hi.1⟩
      have hlt : i < b.slab.entries.length := by omega
      rw [List.getElem?_eq_getElem hlt]
      cases e : b.slab.entries[i] with
      | vacant n => exact ⟨n, rfl⟩
      | occupied v =>
        have : l[i]? = some (some v) := by
          rw [← h.entries, List.getElem?_map, List.getElem?_eq_getElem hlt, e]; rfl
        simp_all
    obtain ⟨n, hv⟩ := hv
    rw [hv]
    refine ⟨_, rfl, ?_, h.len, ?_⟩
    · rw [List.map_set, h.entries]
      have : l[i]? = some none := by rw [← h.entries, List.getElem?_map, hv]; rfl
      exact List.ext_getElem? fun j => by
        rw [List.getElem?_set]
        split
        · subst_vars; simp [this, SlabEntry.content]; exact (List.getElem?_eq_some_iff.1 this).1
        · rfl
    · rw [hk]
      exact hc.close hik

theorem Keeps.mapCollect {t : LinkedSlab α} {s : Slab α} (h : Keeps t s) (f : α → β) :
    ∃ t', t.mapCollect f = .ok t' ∧ Keeps t' (s.mapCollect f) := by
  obtain ⟨b, e, hb⟩ := collects f t.entries
  obtain ⟨t', e', h1, h2, h3⟩ := hb.build
  rw [h.entries] at h1 h2 h3
  refine ⟨t', ?_, Slab.wf_mapCollect f s, h1, h3, h2⟩
  unfold LinkedSlab.mapCollect
  show ((pairsOf f t.entries).foldlM Builder.pair ⟨empty, none⟩ >>= _) = _
  rw [e]
  exact e'

/-! ## Iterating -/

theorem mem_pairs {t : LinkedSlab α} {k : Nat} {v : α} :
    (k, v) ∈ t.pairs ↔ t.entries[k]? = some (.occupied v) := by
  unfold pairs
  simp only [List.mem_filterMap]
  constructor
  · rintro ⟨⟨x, j⟩, hm, e⟩
    have hx := (List.mem_zipIdx_iff_getElem?).1 hm
    cases x with
    | vacant n => cases e
    | occupied w => cases e; exact hx
  · intro h
    exact ⟨(.occupied v, k), List.mem_zipIdx_iff_getElem?.2 h, rfl⟩

theorem pairs_ascending (t : LinkedSlab α) : t.pairs.Pairwise (fun x y => x.1 < y.1) := by
  have key : ∀ (e : List (SlabEntry α)) (n : Nat),
      (∀ x ∈ (e.zipIdx n).filterMap (fun e =>
        match e.1 with
        | .occupied v => some (e.2, v)
        | .vacant _ => none), n ≤ x.1) ∧
      ((e.zipIdx n).filterMap (fun e =>
        match e.1 with
        | .occupied v => some (e.2, v)
        | .vacant _ => none)).Pairwise (fun x y => x.1 < y.1) := by
    intro e
    induction e with
    | nil => intro n; exact ⟨by simp, by simp⟩
    | cons x e ih =>
      intro n
      obtain ⟨h1, h2⟩ := ih (n + 1)
      rw [List.zipIdx_cons]
      cases x with
      | vacant m =>
        refine ⟨fun y hy => ?_, h2⟩
        have := h1 y hy
        omega
      | occupied v =>
        refine ⟨fun y hy => ?_, List.Pairwise.cons (fun y hy => h1 y hy) h2⟩
        rcases List.mem_cons.1 hy with rfl | hy
        · exact Nat.le_refl _
        · have := h1 y hy
          omega
  exact (key t.entries 0).2

theorem Keeps.mem_pairs {t : LinkedSlab α} {s : Slab α} (h : Keeps t s) {k : Nat} {v : α} :
    (k, v) ∈ t.pairs ↔ s.index k = .ok v := by
  rw [LinkedSlab.mem_pairs, Slab.index_eq_ok, h.get]
  rcases t.entries[k]? with _ | (n | w) <;> simp [SlabEntry.content]

end LinkedSlab

end RdfTypes
