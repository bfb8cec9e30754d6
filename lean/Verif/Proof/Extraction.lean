import Verif.Proof.Shelf

/-! # Extraction takes out what the search would yield -/

set_option linter.unusedSectionVars false
set_option linter.unusedSimpArgs false

namespace RdfTypes

open Spec

namespace Matcher

variable {F σ : Type} {filter : Nat → σ → F → F × Except (Option Nat) Unit} {Good : F → Prop}
  {Allows : F → Nat → σ → Prop}

/-- The loop looks at no key before the cursor. -/
theorem loop_congr (L : FilterLaws filter Good Allows) {get get' : Nat → Option σ} {cap : Nat} :
    ∀ (fuel : Nat) (m : Matcher F), m.Ok Good → (∀ k, m.i ≤ k → get' k = get k) →
    m.loop get' filter cap fuel = m.loop get filter cap fuel := by
  intro fuel
  induction fuel with
  | zero => intro m _ _; rfl
  | succ fuel ih =>
    intro m hm hg
    rw [loop, loop]
    by_cases hi : m.i < cap
    · simp only [hi, if_true]
      obtain ⟨s1, s2, s3⟩ := SubjectConstraints.next_spec hm.1 m.i
      generalize m.subject.next m.i = S at *
      obtain ⟨s, o⟩ := S
      cases o with
      | none => rfl
      | some i =>
        obtain ⟨hle, -, -⟩ := s3
        simp only at s1
        simp only [hg i hle]
        cases hq : get i with
        | none => rfl
        | some q =>
          simp only
          obtain ⟨f1, -⟩ := L.good (i := i) (q := q) hm.2
          have f3 := L.answers (i := i) (q := q) hm.2 hq
          cases hF : filter i q m.filter with
          | mk f r =>
          simp only [hF] at f1 f3
          rcases r with j | u
          · cases j with
            | none => rfl
            | some j => exact ih ⟨s, f, j⟩ ⟨s1, f1⟩ fun k hk => hg k (by
                have := f3.1
                simp only at hk
                omega)
          · rfl
    · simp [hi]

end Matcher

namespace IndexedBTreeDataset

variable {R : Type} [Ord R] [Std.TransOrd R] [Std.LawfulEqOrd R]

theorem extractLoop_prefix {cap : Nat} {d₀ : IndexedBTreeDataset R} (w₀ : d₀.WF)
    (hcap : d₀.quads.entries.length ≤ cap) (fuel : Nat) :
    ∀ (n : Nat) {d : IndexedBTreeDataset R} {m : Matcher QuadFilter} {ys : List (Quad R)}, d.WF →
    m.Ok QuadFilter.Good →
    (∀ k, m.i ≤ k → d.quads.get k = d₀.quads.get k ∧ d.sval k = d₀.sval k) →
    collectAll (d₀.matchNext cap) fuel m = .ok ys →
    ∃ d' ended, extractLoop cap n d m = .ok (d', ys.take n, ended) ∧
      (ended = true ↔ ys.length < n) := by
  induction fuel with
  | zero => intro n d m ys _ _ _ e; cases e
  | succ fuel ih =>
    intro n d m ys w hm hs e
    cases n with
    | zero => exact ⟨d, false, rfl, by simp⟩
    | succ n =>
      obtain ⟨⟨o, m'⟩, e₀, hsp⟩ := Matcher.loop_spec QuadFilter.laws (get := d₀.quads.get)
        (cap := cap) (fun n q hq => Nat.lt_of_lt_of_le (Slab.lt_of_get hq) hcap) cap m hm (by omega)
      have e₁ : m.loop d.quads.get QuadFilter.next cap cap = .ok (o, m') :=
        (Matcher.loop_congr QuadFilter.laws cap m hm fun k hk => (hs k hk).1).trans e₀
      cases o with
      | none =>
        simp [collectAll, matchNext, e₀, bind, Except.bind, pure, Except.pure] at e
        subst e
        exact ⟨d, true, by simp [extractLoop, extractNext, e₁, bind, Except.bind, pure,
          Except.pure], by simp⟩
      | some iq =>
        obtain ⟨i, q⟩ := iq
        obtain ⟨hle, hq, hacc, hi', hlater, hskip⟩ := hsp
        obtain ⟨x, hr, hx⟩ := read_ok w₀ i q hq
        obtain ⟨x', hr', hx'⟩ := read_ok w i q (by rw [(hs i hle).1]; exact hq)
        have : x' = x := by
          rw [(hs i hle).2, hx] at hx'
          exact (Option.some.inj hx').symm
        subst this
        obtain ⟨q', d1, e1, r⟩ := removeByIndex_spec w hx'
        simp only [collectAll, matchNext, e₀, hr, bind, Except.bind, pure, Except.pure] at e
        cases e2 : collectAll (d₀.matchNext cap) fuel m' with
        | error p =>
          rw [e2] at e
          cases e
        | ok zs =>
          rw [e2] at e
          cases e
          obtain ⟨d', ended, h1, h2⟩ := ih n (d := d1) r.wf hlater.ok (by
            intro k hk
            have hki : k ≠ i := by omega
            have hmk : m.i ≤ k := by omega
            rw [r.quads, Slab.get_erase, r.sval, ← (hs k hmk).1, ← (hs k hmk).2]
            simp [hki]) e2
          exact ⟨d', ended, by simp [extractLoop, extractNext, e₁, hr', e1, h1, bind, Except.bind,
            pure, Except.pure], by simpa using h2⟩

theorem extract_prefix {d : IndexedBTreeDataset R} (w : d.WF) {cap : Nat}
    (hcap : d.quads.entries.length ≤ cap) (pat : CanonicalQuadPattern R) (n : Nat)
    {ys : List (Quad R)} (e : d.patternMatching cap pat = .ok ys) :
    ∃ d' ended, d.extractPatternMatching cap pat n = .ok (d', ys.take n, ended) ∧
      (ended = true ↔ ys.length < n) := by
  obtain ⟨m, em, -, hm⟩ := matcher_spec w pat
  simp only [patternMatching, em, bind, Except.bind] at e
  obtain ⟨d', ended, h1, h2⟩ := extractLoop_prefix w hcap (cap + 1) n w hm.ok
    (fun k _ => ⟨rfl, rfl⟩) e
  exact ⟨d', ended, by simp [extractPatternMatching, em, h1, bind, Except.bind], h2⟩

end IndexedBTreeDataset

end RdfTypes
