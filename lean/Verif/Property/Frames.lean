import Verif.Property.Isomorphism
import Verif.Proof.Frames

/-!
# C74: what the test for isomorphism decides is an equivalence
-/

set_option linter.unusedSectionVars false

namespace RdfTypes.Property

open Spec

variable {B I L : Type} [Ord B] [Ord I] [Ord L] [DecidableEq B] [DecidableEq I] [DecidableEq L]
  [Std.TransOrd B] [Std.LawfulEqOrd B] [Std.TransOrd I] [Std.LawfulEqOrd I] [Std.TransOrd L]
  [Std.LawfulEqOrd L]

private abbrev b (n : Nat) : LocalTerm Nat Nat Nat := .anonymous n
private abbrev u (n : Nat) : LocalTerm Nat Nat Nat := .named (.iri n)
private abbrev Q := List (Quad (LocalTerm Nat Nat Nat))

/-- Datasets are taken for isomorphic exactly when some renaming keeps the places of the blank
nodes and, separately, the quads around each of them. The returned mapping is such a
renaming. -/
theorem C74_exact (ds ds' : List (Quad (LocalTerm B I L))) :
    (areIsomorphic ds ds' = .ok true ↔ ∃ f, Consistent f ds ds') ∧
    ∀ m, findBijection ds ds' = .ok (some m) → ∃ f, Consistent f ds ds' ∧
      ∀ x y, BlankIn ds (.anonymous x) → ((.anonymous x, .anonymous y) ∈ m.forward ↔ f x = y) := by
  obtain ⟨h1, h2⟩ := C62_exact ds ds'
  refine ⟨h1.trans (exists_congr fun f => Frames.accepted_iff), fun m hm => ?_⟩
  obtain ⟨f, h3, h4⟩ := h2 m hm
  exact ⟨f, Frames.accepted_iff.1 h3, h4⟩

/-- Consistent though not isomorphic: the predicates between the blank nodes differ. -/
example : ∃ f : Nat → Nat, Consistent f
      ([⟨b 0, u 1, b 0, none⟩, ⟨b 0, u 1, b 1, none⟩, ⟨b 1, u 2, b 0, none⟩] : Q)
      [⟨b 0, u 1, b 0, none⟩, ⟨b 0, u 2, b 1, none⟩, ⟨b 1, u 1, b 0, none⟩] :=
  (C74_exact _ _).1.1 (by decide)

/-- A cycle of four blank nodes and two cycles of two: each blank node has the same quads
around it, the places differ. -/
example : ¬ ∃ f : Nat → Nat, Consistent f
      ([⟨b 0, u 1, b 1, none⟩, ⟨b 1, u 1, b 2, none⟩, ⟨b 2, u 1, b 3, none⟩, ⟨b 3, u 1, b 0, none⟩] : Q)
      [⟨b 0, u 1, b 1, none⟩, ⟨b 1, u 1, b 0, none⟩, ⟨b 2, u 1, b 3, none⟩, ⟨b 3, u 1, b 2, none⟩] := by
  rw [← (C74_exact _ _).1]
  decide

private theorem result (ds ds' : List (Quad (LocalTerm B I L))) : ∃ r, areIsomorphic ds ds' = .ok r := by
  obtain ⟨o, -, h, -⟩ := C40_bijection ds ds'
  exact ⟨_, h⟩

/-- Results that are true together are equal, as there is no panic. -/
private theorem same {x y : Res Bool} (hx : ∃ r, x = .ok r) (hy : ∃ r, y = .ok r)
    (h : x = .ok true ↔ y = .ok true) : x = y := by
  obtain ⟨r, rfl⟩ := hx
  obtain ⟨r', rfl⟩ := hy
  cases r <;> cases r' <;> simp at h ⊢

/-- The test is reflexive, symmetric and transitive. -/
theorem C74_equivalence :
    (∀ ds : List (Quad (LocalTerm B I L)), areIsomorphic ds ds = .ok true) ∧
    (∀ ds ds' : List (Quad (LocalTerm B I L)), areIsomorphic ds ds' = areIsomorphic ds' ds) ∧
    ∀ ds ds' ds'' : List (Quad (LocalTerm B I L)), areIsomorphic ds ds' = .ok true →
      areIsomorphic ds' ds'' = .ok true → areIsomorphic ds ds'' = .ok true := by
  refine ⟨fun ds => (C74_exact ds ds).1.2 ⟨id, Frames.consistent_refl ds⟩, fun ds ds' => ?_,
    fun ds ds' ds'' h h' => ?_⟩
  · refine same (result _ _) (result _ _) ?_
    rw [(C74_exact ds ds').1, (C74_exact ds' ds).1]
    constructor
    · exact fun ⟨f, h⟩ => Frames.Consistent.symm h
    · exact fun ⟨f, h⟩ => Frames.Consistent.symm h
  · obtain ⟨f, h⟩ := (C74_exact ds ds').1.1 h
    obtain ⟨f', h'⟩ := (C74_exact ds' ds'').1.1 h'
    exact (C74_exact ds ds'').1.2 ⟨_, Frames.Consistent.trans h h'⟩

/-- Three datasets that are taken for isomorphic, of which no two are. -/
example : areIsomorphic ([⟨b 0, u 1, b 1, none⟩, ⟨u 1, u 1, u 1, none⟩] : Q)
      [⟨b 3, u 1, b 2, none⟩, ⟨u 2, u 2, u 2, none⟩] = .ok true ∧
    areIsomorphic ([⟨b 3, u 1, b 2, none⟩, ⟨u 2, u 2, u 2, none⟩] : Q)
      [⟨u 3, u 3, u 3, none⟩, ⟨b 1, u 1, b 0, none⟩] = .ok true := by decide

/-- Neither the order of the quads nor the names of the blank nodes matter, in either
dataset. -/
theorem C74_renaming {f : B → B} {ds ds' : List (Quad (LocalTerm B I L))}
    (hf : ∀ b b', BlankIn ds (.anonymous b) → BlankIn ds (.anonymous b') → f b = f b' → b = b')
    (h : (ds.map (·.map (relabel f))).Perm ds') (other : List (Quad (LocalTerm B I L))) :
    areIsomorphic ds other = areIsomorphic ds' other ∧
      areIsomorphic other ds = areIsomorphic other ds' := by
  have hc : areIsomorphic ds ds' = .ok true :=
    (C74_exact ds ds').1.2 ⟨f, Frames.consistent_relabel hf h⟩
  obtain ⟨-, hs, ht⟩ := C74_equivalence (B := B) (I := I) (L := L)
  have key : areIsomorphic ds other = areIsomorphic ds' other := by
    refine same (result _ _) (result _ _) ⟨fun h1 => ?_, fun h1 => ?_⟩
    · exact ht ds' ds other (hs ds ds' ▸ hc) h1
    · exact ht ds ds' other hc h1
  exact ⟨key, by rw [hs other ds, hs other ds', key]⟩

/-- Blank nodes exchanged, quads reversed. -/
example (other : Q) :
    areIsomorphic ([⟨b 0, u 1, b 1, none⟩, ⟨b 1, u 2, u 3, some (b 0)⟩] : Q) other =
      areIsomorphic [⟨b 0, u 2, u 3, some (b 1)⟩, ⟨b 1, u 1, b 0, none⟩] other :=
  (C74_renaming (f := fun n => 1 - n) (by
    rintro x y ⟨-, q, hq, hx⟩ ⟨-, q', hq', hy⟩ h
    simp only [List.mem_cons, List.not_mem_nil, or_false] at hq hq'
    replace h : 1 - x = 1 - y := h
    rcases hq with rfl | rfl <;> rcases hq' with rfl | rfl <;>
      simp [positions] at hx hy <;> omega) (by decide) other).1

omit [Ord B] [Ord I] [Ord L] [Std.TransOrd B] [Std.LawfulEqOrd B] [Std.TransOrd I]
  [Std.LawfulEqOrd I] [Std.TransOrd L] [Std.LawfulEqOrd L] in
/-- The order on terms, by which the blank nodes are tried, does not matter. -/
theorem C74_order (oB oB' : Ord B) (oI oI' : Ord I) (oL oL' : Ord L)
    [@Std.TransOrd B oB] [@Std.LawfulEqOrd B oB] [@Std.TransOrd I oI] [@Std.LawfulEqOrd I oI]
    [@Std.TransOrd L oL] [@Std.LawfulEqOrd L oL]
    [@Std.TransOrd B oB'] [@Std.LawfulEqOrd B oB'] [@Std.TransOrd I oI'] [@Std.LawfulEqOrd I oI']
    [@Std.TransOrd L oL'] [@Std.LawfulEqOrd L oL'] (ds ds' : List (Quad (LocalTerm B I L))) :
    @areIsomorphic B I L oB oI oL _ _ _ ds ds' = @areIsomorphic B I L oB' oI' oL' _ _ _ ds ds' := by
  refine same ?_ ?_ ?_
  · exact @result B I L oB oI oL _ _ _ _ _ _ _ _ _ ds ds'
  · exact @result B I L oB' oI' oL' _ _ _ _ _ _ _ _ _ ds ds'
  · rw [(@C74_exact B I L oB oI oL _ _ _ _ _ _ _ _ _ ds ds').1,
      (@C74_exact B I L oB' oI' oL' _ _ _ _ _ _ _ _ _ ds ds').1]

/-- The order of the numbers and its opposite give the same answer, -/
example (ds ds' : Q) :
    areIsomorphic ds ds' =
      @areIsomorphic Nat Nat Nat instOrdNat.opposite instOrdNat instOrdNat _ _ _ ds ds' :=
  C74_order instOrdNat instOrdNat.opposite instOrdNat instOrdNat instOrdNat instOrdNat ds ds'

/-- though other mappings of one cycle to another. -/
example :
    let ds : Q := [⟨b 0, u 1, b 1, none⟩, ⟨b 1, u 1, b 2, none⟩, ⟨b 2, u 1, b 0, none⟩]
    let ds' : Q := [⟨b 3, u 1, b 5, none⟩, ⟨b 5, u 1, b 4, none⟩, ⟨b 4, u 1, b 3, none⟩]
    findBijection ds ds' = .ok (some ⟨[(b 0, b 3), (b 1, b 5), (b 2, b 4)],
      [(b 3, b 0), (b 4, b 2), (b 5, b 1)]⟩) ∧
    @findBijection Nat Nat Nat instOrdNat.opposite instOrdNat instOrdNat _ _ _ ds ds' =
      .ok (some ⟨[(b 2, b 5), (b 1, b 3), (b 0, b 4)], [(b 5, b 2), (b 4, b 0), (b 3, b 1)]⟩) := by
  decide

end RdfTypes.Property
