import Verif.Spec.Steps
import Verif.Proof.BookClaims

/-!
# Proofs about iterators used call by call
-/

namespace RdfTypes.Spec

variable {I J X Y : Type} {next : StepOf I X}

theorem GoesThrough.nil {it : I} (h : next it = (.ok none, it)) : GoesThrough next it [] := by
  have hs : ∀ k, afterCalls next k it = it := by
    intro k
    induction k with
    | zero => rfl
    | succ k ih => simp only [afterCalls, h, ih]
  refine ⟨fun k x e => by simp at e, fun k e => by simp at e, fun k _ => by rw [hs, h]⟩

theorem GoesThrough.cons {it it' : I} {o : Option X} {l : List (Option X)} {out : Res (Option X)}
    (e : next it = (out, it'))
    (ho : out = match o with | some x => .ok (some x) | none => .error .invalidKey)
    (h : GoesThrough next it' l) : GoesThrough next it (o :: l) := by
  have hs : ∀ k, afterCalls next (k + 1) it = afterCalls next k it' := by
    intro k; simp only [afterCalls, e]
  refine ⟨fun k x he => ?_, fun k he => ?_, fun k hk => ?_⟩
  · cases k with
    | zero =>
      simp only [List.getElem?_cons_zero, Option.some.injEq] at he
      subst he
      simp only [afterCalls, e, ho]
    | succ k => rw [hs]; exact h.1 k x (by simpa using he)
  · cases k with
    | zero =>
      simp only [List.getElem?_cons_zero, Option.some.injEq] at he
      subst he
      simp only [afterCalls, e, ho]
    | succ k => rw [hs]; exact h.2.1 k (by simpa using he)
  · cases k with
    | zero => simp at hk
    | succ k => rw [hs]; exact h.2.2 k (by simpa using hk)

/-- What the call number `k` does. -/
theorem GoesThrough.at {it : I} {l : List (Option X)} (h : GoesThrough next it l) (k : Nat) :
    (next (afterCalls next k it)).1 = match l[k]? with
      | some (some x) => .ok (some x)
      | some none => .error .invalidKey
      | none => .ok none := by
  cases e : l[k]? with
  | none => exact h.2.2 k (List.getElem?_eq_none_iff.1 e)
  | some o =>
    cases o with
    | none => exact h.2.1 k e
    | some x => exact h.1 k x e

theorem GoesThrough.of_at {it : I} {l : List (Option X)}
    (h : ∀ k : Nat, (next (afterCalls next k it)).1 = match l[k]? with
      | some (some x) => .ok (some x)
      | some none => .error .invalidKey
      | none => .ok none) : GoesThrough next it l :=
  ⟨fun k x e => by rw [h, e], fun k e => by rw [h, e],
    fun k hk => by rw [h, List.getElem?_eq_none hk]⟩

theorem afterCalls_map (f : X → Y) (k : Nat) (it : I) :
    afterCalls (mapStep f next) k it = afterCalls next k it := by
  induction k generalizing it with
  | zero => rfl
  | succ k ih => simp only [afterCalls, mapStep, ih]

theorem GoesThrough.map {it : I} {l : List (Option X)} (f : X → Y) (h : GoesThrough next it l) :
    GoesThrough (mapStep f next) it (l.map (Option.map f)) := by
  refine .of_at fun k => ?_
  rw [afterCalls_map]
  have := h.at k
  simp only [mapStep, List.getElem?_map]
  rw [this]
  cases l[k]? with
  | none => rfl
  | some o => cases o <;> rfl

theorem afterCalls_option (k : Nat) (it : I) :
    afterCalls (optionStep next) k (some it) = some (afterCalls next k it) := by
  induction k generalizing it with
  | zero => rfl
  | succ k ih => simp only [afterCalls, optionStep, ih]

theorem GoesThrough.option {it : I} {l : List (Option X)} (h : GoesThrough next it l) :
    GoesThrough (optionStep next) (some it) l := by
  refine .of_at fun k => ?_
  rw [afterCalls_option]
  exact h.at k

theorem GoesThrough.no_option : GoesThrough (optionStep next) none [] := .nil rfl

variable {R ρ : Type} {ops : ResOps R ρ}

theorem steps_quads {res : Slab ρ} {quads : Slab (Quad Nat)} {idx : List Nat} {xs : List (Quad R)}
    (e : idx.mapM (ops.readQuad res quads) = .ok xs) :
    GoesOver ops.nextQuad ⟨res, quads, idx⟩ xs := by
  induction idx generalizing xs with
  | nil => cases e; exact .nil rfl
  | cons i l ih =>
    rw [List.mapM_cons] at e
    obtain ⟨x, ex, e⟩ := bind_eq_ok e
    obtain ⟨ys, ey, e⟩ := bind_eq_ok e
    cases e
    exact .cons rfl (by simp only [ex]; rfl) (ih ey)

theorem steps_triples {res : Slab ρ} {triples : Slab (Triple Nat)} {idx : List Nat}
    {xs : List (Triple R)} (e : idx.mapM (ops.readTriple res triples) = .ok xs) :
    GoesOver ops.nextTriple ⟨res, triples, idx⟩ xs := by
  induction idx generalizing xs with
  | nil => cases e; exact .nil rfl
  | cons i l ih =>
    rw [List.mapM_cons] at e
    obtain ⟨x, ex, e⟩ := bind_eq_ok e
    obtain ⟨ys, ey, e⟩ := bind_eq_ok e
    cases e
    exact .cons rfl (by simp only [ex]; rfl) (ih ey)

theorem steps_owned_quads {res : Slab ρ} {idx : List Nat} {quads : Slab (Quad Nat)}
    {xs : List (Quad R)} (e : ops.drainQuads res quads idx = .ok xs) :
    GoesOver ops.nextOwnedQuad ⟨res, quads, idx⟩ xs := by
  induction idx generalizing quads xs with
  | nil => cases e; exact .nil rfl
  | cons i l ih =>
    unfold ResOps.drainQuads at e
    obtain ⟨⟨quads', q⟩, er, e⟩ := bind_eq_ok e
    obtain ⟨x, ex, e⟩ := bind_eq_ok e
    obtain ⟨ys, ey, e⟩ := bind_eq_ok e
    cases e
    have hn : ops.nextOwnedQuad ⟨res, quads, i :: l⟩ = (.ok (some x), ⟨res, quads', l⟩) := by
      simp only [ResOps.nextOwnedQuad, er, ex]
      rfl
    exact GoesThrough.cons hn rfl (ih ey)

theorem steps_owned_triples {res : Slab ρ} {idx : List Nat} {triples : Slab (Triple Nat)}
    {xs : List (Triple R)} (e : ops.drainTriples res triples idx = .ok xs) :
    GoesOver ops.nextOwnedTriple ⟨res, triples, idx⟩ xs := by
  induction idx generalizing triples xs with
  | nil => cases e; exact .nil rfl
  | cons i l ih =>
    unfold ResOps.drainTriples at e
    obtain ⟨⟨triples', q⟩, er, e⟩ := bind_eq_ok e
    obtain ⟨x, ex, e⟩ := bind_eq_ok e
    obtain ⟨ys, ey, e⟩ := bind_eq_ok e
    cases e
    have hn : ops.nextOwnedTriple ⟨res, triples, i :: l⟩ = (.ok (some x), ⟨res, triples', l⟩) := by
      simp only [ResOps.nextOwnedTriple, er, ex]
      rfl
    exact GoesThrough.cons hn rfl (ih ey)

theorem steps_places {res : Slab ρ} {idx : List Nat} :
    GoesThrough ops.nextResource ⟨res, idx⟩ (idx.map (ops.val res)) := by
  induction idx with
  | nil => exact .nil rfl
  | cons i l ih =>
    refine .cons rfl ?_ ih
    simp only [Slab.index, ResOps.val]
    cases res.get i <;> rfl

theorem steps_resources {res : Slab ρ} {idx : List Nat} {rs : List R}
    (e : ops.readResources res idx = .ok rs) : GoesOver ops.nextResource ⟨res, idx⟩ rs := by
  induction idx generalizing rs with
  | nil => cases e; exact .nil rfl
  | cons i l ih =>
    unfold ResOps.readResources at e
    rw [List.mapM_cons] at e
    obtain ⟨x, ex, e⟩ := bind_eq_ok e
    obtain ⟨ys, ey, e⟩ := bind_eq_ok e
    cases e
    refine .cons rfl ?_ (ih ey)
    obtain ⟨v, ev, ex⟩ := bind_eq_ok ex
    cases ex
    simp only [ev]
    rfl

end RdfTypes.Spec
