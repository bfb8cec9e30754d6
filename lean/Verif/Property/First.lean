import Verif.Property.Frames
import Verif.Property.Nameless
import Verif.Proof.First

/-!
# C78: which mapping between isomorphic datasets is returned
-/

set_option linter.unusedSectionVars false

namespace RdfTypes.Property

open Spec Isomorphism

section resources

variable {R I L : Type} [Ord R] [DecidableEq R] [DecidableEq I] [DecidableEq L]
  [Std.TransOrd R] [Std.LawfulEqOrd R] {i : ReverseInterpretation R I L}

/-- Among the renamings that keep what is compared, the mapping returned is the first one: it has
the lesser value at the least nameless resource at which it differs from another one. -/
theorem C78_first (hn : NamesAgree i) {ds ds' : List (Quad R)} {m : Bijection R}
    (h : findBijectionWith i ds ds' = .ok (some m)) :
    ∃ f, ConsistentWith i f ds ds' ∧
      (∀ x y, (x, y) ∈ m.forward ↔ NamelessIn i ds x ∧ f x = y) ∧
      ∀ g, ConsistentWith i g ds ds' → NotAfter (NamelessIn i ds) f g := by
  obtain ⟨f, hf, hm⟩ := Nameless.consistent_of_found hn h
  obtain ⟨o, e, -, ho⟩ := C75_bijection i ds ds'
  rw [h] at e
  cases e
  have hd := (ho m rfl).1
  refine ⟨f, hf, fun x y => ⟨fun hxy => ?_, fun hxy => (hm x y hxy.1).2 hxy.2⟩, fun g hg => ?_⟩
  · have hx := (hd.2.2.2.1 x).2 ⟨y, hxy⟩
    exact ⟨hx, (hm x y hx).1 hxy⟩
  · rcases first_resources hn h hg with h1 | ⟨x, y, h1, h2, h3, h4⟩
    · exact Or.inl fun z hz => (hm z _ hz).1 (OrdMap.mem_of_get (h1 z hz))
    · refine Or.inr ⟨x, h1, ?_, fun z hz hlt => (hm z _ hz).1 (OrdMap.mem_of_get (h4 z hz hlt))⟩
      rw [(hm x y h1).1 (OrdMap.mem_of_get h2)]
      exact h3

/-- The order in which the quads are listed makes no difference, whatever the interpretation:
the same mapping is returned, or none. -/
theorem C78_order (i : ReverseInterpretation R I L) {ds₁ ds₂ ds₁' ds₂' : List (Quad R)}
    (h : ds₁.Perm ds₂) (h' : ds₁'.Perm ds₂') :
    findBijectionWith i ds₁ ds₁' = findBijectionWith i ds₂ ds₂' :=
  findBijectionWith_perm h h'

/-- There is only one first renaming. -/
theorem C78_one {D : R → Prop} {f g : R → R} (h : NotAfter D f g) (h' : NotAfter D g f) :
    ∀ x, D x → f x = g x := by
  rcases h with h | ⟨x, hx, hlt, hb⟩
  · exact h
  · rcases h' with h' | ⟨x', hx', hlt', hb'⟩
    · exact fun x hx => (h' x hx).symm
    · exfalso
      cases e : compare x x' with
      | lt =>
        rw [hb' x hx e] at hlt
        simp [Std.ReflCmp.compare_self] at hlt
      | eq =>
        have := Std.LawfulEqOrd.compare_eq_iff_eq.1 e
        subst this
        have := Std.TransCmp.lt_trans hlt hlt'
        simp [Std.ReflCmp.compare_self] at this
      | gt =>
        rw [hb x' hx' (Std.OrientedCmp.lt_of_gt e)] at hlt'
        simp [Std.ReflCmp.compare_self] at hlt'

/-- The mapping of a dataset to the same quads in another order is the identity. -/
theorem C78_identity (hn : NamesAgree i) {ds ds' : List (Quad R)} (h : ds.Perm ds') :
    ∃ m, findBijectionWith i ds ds' = .ok (some m) ∧
      ∀ x y, (x, y) ∈ m.forward ↔ NamelessIn i ds x ∧ x = y := by
  have hid : ConsistentWith i id ds ds := Nameless.consistent_refl hn ds
  obtain ⟨m, hm⟩ := Nameless.found_of_consistent hn hid
  refine ⟨m, (C78_order i (.refl ds) h).symm.trans hm, ?_⟩
  obtain ⟨f, hf, hfm, hmin⟩ := C78_first hn hm
  have hrange := Nameless.range_of_places hf.places
  have hsame : ∀ x, NamelessIn i ds x → f x = x := by
    rcases hmin id hid with h | ⟨x, hx, hlt, hb⟩
    · exact h
    · exfalso
      have hfx := (hrange (f x)).2 ⟨x, hx, rfl⟩
      have e := hf.injective _ _ hfx hx (hb (f x) hfx hlt)
      rw [e] at hlt
      simp [Std.ReflCmp.compare_self] at hlt
  intro x y
  rw [hfm]
  exact and_congr_right fun hx => by rw [hsame x hx]

end resources

section terms

variable {B I L : Type} [Ord B] [Ord I] [Ord L] [DecidableEq B] [DecidableEq I] [DecidableEq L]
  [Std.TransOrd B] [Std.LawfulEqOrd B] [Std.TransOrd I] [Std.LawfulEqOrd I] [Std.TransOrd L]
  [Std.LawfulEqOrd L]

/-- The same for lexical terms. -/
theorem C78_first_terms {ds ds' : List (Quad (LocalTerm B I L))} {m : Bijection (LocalTerm B I L)}
    (h : findBijection ds ds' = .ok (some m)) :
    ∃ f, Consistent f ds ds' ∧
      (∀ x y, BlankIn ds (.anonymous x) → ((.anonymous x, .anonymous y) ∈ m.forward ↔ f x = y)) ∧
      ∀ g, Consistent g ds ds' → NotAfter (fun b => BlankIn ds (.anonymous b)) f g := by
  obtain ⟨f, hf, hm⟩ := (C74_exact ds ds').2 m h
  refine ⟨f, hf, hm, fun g hg => ?_⟩
  rcases first_terms h (Frames.accepted_iff.2 hg) with h1 | ⟨x, y, h1, h2, h3, h4⟩
  · exact Or.inl fun z hz => (hm z _ hz).1 (OrdMap.mem_of_get (h1 z hz))
  · refine Or.inr ⟨x, h1, ?_, fun z hz hlt => (hm z _ hz).1 (OrdMap.mem_of_get (h4 z hz hlt))⟩
    obtain ⟨o, e, ho⟩ := findBijectionWith_spec kinds_lexical ds ds'
    unfold findBijection at h
    rw [h] at e
    cases e
    have hb := ((ho m rfl).1.blank _ _ h2).2
    rcases y with y | t
    · rw [(hm x y h1).1 (OrdMap.mem_of_get h2)]
      exact h3
    · simp [Spec.erase] at hb

/-- The same for lexical terms. -/
theorem C78_order_terms {ds₁ ds₂ ds₁' ds₂' : List (Quad (LocalTerm B I L))}
    (h : ds₁.Perm ds₂) (h' : ds₁'.Perm ds₂') : findBijection ds₁ ds₁' = findBijection ds₂ ds₂' :=
  C78_order _ h h'

end terms

/-! ## Cases -/

private abbrev b (n : Nat) : LocalTerm Nat Nat Nat := .anonymous n
private abbrev u (n : Nat) : LocalTerm Nat Nat Nat := .named (.iri n)
private abbrev Q := List (Quad (LocalTerm Nat Nat Nat))

/-- Three ways to turn a cycle of three blank nodes; the one that maps `0` to `3` is returned,
whichever quads come first, -/
example :
    findBijection ([⟨b 0, u 1, b 1, none⟩, ⟨b 1, u 1, b 2, none⟩, ⟨b 2, u 1, b 0, none⟩] : Q)
      [⟨b 3, u 1, b 5, none⟩, ⟨b 5, u 1, b 4, none⟩, ⟨b 4, u 1, b 3, none⟩] =
    .ok (some ⟨[(b 0, b 3), (b 1, b 5), (b 2, b 4)], [(b 3, b 0), (b 4, b 2), (b 5, b 1)]⟩) ∧
    findBijection ([⟨b 2, u 1, b 0, none⟩, ⟨b 0, u 1, b 1, none⟩, ⟨b 1, u 1, b 2, none⟩] : Q)
      [⟨b 4, u 1, b 3, none⟩, ⟨b 5, u 1, b 4, none⟩, ⟨b 3, u 1, b 5, none⟩] =
    .ok (some ⟨[(b 0, b 3), (b 1, b 5), (b 2, b 4)], [(b 3, b 0), (b 4, b 2), (b 5, b 1)]⟩) := by
  decide

/-- another one being after it. -/
example : NotAfter (fun x => x < 3) (fun x => if x = 0 then 3 else if x = 1 then 5 else 4)
    (fun x => if x = 0 then 4 else if x = 1 then 3 else 5) :=
  Or.inr ⟨0, by decide, by decide, fun z _ h => absurd h (by
    rw [Nat.compare_eq_lt]
    omega)⟩

/-- Resources of the examples: even ones are nameless. -/
private def even : ReverseInterpretation Nat Nat Nat where
  irisOf n := if n % 2 = 0 then [] else [n]
  literalsOf _ := []

private theorem evenAgree : NamesAgree even := by
  intro x y z h h'
  unfold SharesTerm even at *
  grind

/-- Two pairs of nameless resources, with a quad after each that tells them apart, -/
private abbrev pairs : List (Quad Nat) :=
  [⟨0, 1, 2, none⟩, ⟨2, 3, 5, none⟩, ⟨4, 1, 6, none⟩, ⟨6, 5, 5, none⟩]

/-- and the other way round. -/
private abbrev pairs' : List (Quad Nat) :=
  [⟨0, 1, 2, none⟩, ⟨2, 5, 5, none⟩, ⟨4, 1, 6, none⟩, ⟨6, 3, 5, none⟩]

/-- A choice that has to be given up: by the quads around it `0` could be `0`, but then `2` could
not be `6`. -/
private theorem pairsFound : findBijectionWith even pairs pairs' =
    .ok (some ⟨[(0, 4), (2, 6), (4, 0), (6, 2)], [(0, 4), (2, 6), (4, 0), (6, 2)]⟩) := by
  decide

example : ∃ f, ConsistentWith even f pairs pairs' ∧ f 0 = 4 ∧
    ∀ g, ConsistentWith even g pairs pairs' → NotAfter (NamelessIn even pairs) f g := by
  obtain ⟨f, h1, h2, h3⟩ := C78_first evenAgree pairsFound
  exact ⟨f, h1, ((h2 0 4).1 (by simp)).2, h3⟩

/-- A symmetric dataset is mapped to itself without a swap. -/
example : ∃ m, findBijectionWith even [⟨0, 1, 2, none⟩, ⟨2, 1, 0, none⟩]
      [⟨2, 1, 0, none⟩, ⟨0, 1, 2, none⟩] = .ok (some m) ∧
    ∀ x y, (x, y) ∈ m.forward ↔
      NamelessIn even [⟨0, 1, 2, none⟩, ⟨2, 1, 0, none⟩] x ∧ x = y :=
  C78_identity evenAgree (.swap ..)

/-- The mapping of the cycle does not come after any other. -/
example : ∃ m, findBijection
      ([⟨b 0, u 1, b 1, none⟩, ⟨b 1, u 1, b 2, none⟩, ⟨b 2, u 1, b 0, none⟩] : Q)
      [⟨b 3, u 1, b 5, none⟩, ⟨b 5, u 1, b 4, none⟩, ⟨b 4, u 1, b 3, none⟩] = .ok (some m) ∧
    ∃ f, Consistent f
      ([⟨b 0, u 1, b 1, none⟩, ⟨b 1, u 1, b 2, none⟩, ⟨b 2, u 1, b 0, none⟩] : Q)
      [⟨b 3, u 1, b 5, none⟩, ⟨b 5, u 1, b 4, none⟩, ⟨b 4, u 1, b 3, none⟩] := by
  refine ⟨⟨[(b 0, b 3), (b 1, b 5), (b 2, b 4)], [(b 3, b 0), (b 4, b 2), (b 5, b 1)]⟩, by decide, ?_⟩
  obtain ⟨f, h, -⟩ := C78_first_terms
    (ds := ([⟨b 0, u 1, b 1, none⟩, ⟨b 1, u 1, b 2, none⟩, ⟨b 2, u 1, b 0, none⟩] : Q))
    (ds' := [⟨b 3, u 1, b 5, none⟩, ⟨b 5, u 1, b 4, none⟩, ⟨b 4, u 1, b 3, none⟩])
    (m := ⟨[(b 0, b 3), (b 1, b 5), (b 2, b 4)], [(b 3, b 0), (b 4, b 2), (b 5, b 1)]⟩) (by decide)
  exact ⟨f, h⟩

/-- The order of the quads of `pairs` does not matter. -/
example : findBijectionWith even pairs.reverse pairs' =
    .ok (some ⟨[(0, 4), (2, 6), (4, 0), (6, 2)], [(0, 4), (2, 6), (4, 0), (6, 2)]⟩) :=
  (C78_order even (List.reverse_perm _) (.refl _)).trans pairsFound

end RdfTypes.Property
