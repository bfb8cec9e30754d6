import Verif.Spec.Mapping
import Verif.Spec.Pattern
import Verif.Proof.Mapping

/-!
# C89: mapping with a function that has a state

The functions given to `map`, `map2` and `map_all` may keep a state and may panic. They
are called once on each term, from the subject to the graph, and each result is put in
the place of its argument.
-/

namespace RdfTypes.Property

open Spec

variable {m : Type → Type} [Monad m] [LawfulMonad m] {T U V : Type}

/-- The sample pattern of this file: the object is the subject, predicate and graph are
given. -/
def mappingSample : CanonicalQuadPattern Nat :=
  .anySubject (.givenPredicate 7 (.sameAsSubject (.givenGraph (some 4))))

/-- A function with a state: each term is given the number of its call. -/
def numbering (t : Nat) : StateM Nat (Nat × Nat) := fun n => ((t, n), n + 1)

/-- C89: the places of a pattern are what it demands of a quad, and all there is in it. -/
theorem C89_places (x : CanonicalQuadPattern T) :
    (∃ a b c d, patternSlots x = [a, b, c, d] ∧ ∀ q, matchesQuad x q ↔
      a.allows q q.s ∧ b.allows q q.p ∧ c.allows q q.o ∧ d.allowsGraph q) ∧
    ∀ y, patternSlots x = patternSlots y → x = y :=
  ⟨Proof.Mapping.pattern_places x, fun y => (Proof.Mapping.CanonicalQuadPattern_inj x y).mp⟩

example : patternSlots mappingSample =
    [.any, .given 7, .sameAs .subject, .given 4] := rfl

/-- C89: `map` on a canonical pattern calls the function once on each given term, from the
subject to the graph, puts each result in the place of its argument, and changes nothing
else; whatever the effects of the function are. -/
theorem C89_map (f : T → m U) (x : CanonicalQuadPattern T) :
    patternSlots <$> x.mapM f = visitAll f (patternSlots x) :=
  Proof.Mapping.CanonicalQuadPattern_map f x

example : mappingSample.mapM numbering 10 =
    (.anySubject (.givenPredicate (7, 10) (.sameAsSubject (.givenGraph (some (4, 11))))), 12) :=
  rfl

/-- C89: `map2` calls the function in the same way, and its two results are put in the
same place of two patterns. -/
theorem C89_map2 (f : T → m (U × V)) (x : CanonicalQuadPattern T) :
    (fun y => (patternSlots y.1, patternSlots y.2)) <$> x.map2M f =
      (fun l => (l.map Slot.first, l.map Slot.second)) <$> visitAll f (patternSlots x) :=
  Proof.Mapping.CanonicalQuadPattern_map2 f x

example : mappingSample.map2M numbering 10 =
    ((mappingSample, .anySubject (.givenPredicate 10 (.sameAsSubject (.givenGraph (some 11))))),
      12) := rfl

/-- C89: `map` on quads and triples. -/
theorem C89_statements (f : T → m U) (q : Quad T) (t : Triple T) :
    quadSlots <$> q.mapM f = visitAll f (quadSlots q) ∧
    tripleSlots <$> t.mapM f = visitAll f (tripleSlots t) ∧
    (∀ p, quadSlots q = quadSlots p → q = p) ∧ ∀ u, tripleSlots t = tripleSlots u → t = u :=
  ⟨Proof.Mapping.quad_map f q, Proof.Mapping.triple_map f t, fun p => (Proof.Mapping.quadSlots_inj q p).mp,
    fun u => (Proof.Mapping.tripleSlots_inj t u).mp⟩

example : (⟨5, 6, 5, some 8⟩ : Quad Nat).mapM numbering 0 =
    (⟨(5, 0), (6, 1), (5, 2), some (8, 3)⟩, 4) := rfl

/-- C89: `map_all` calls its functions one after the other, from the subject to the graph;
it is the four functions that map one place, in this order. -/
theorem C89_map_all {S P O G S' P' O' G' : Type} (q : Quad S P O G) (t : Triple T)
    (fs : S → m S') (fp : P → m P') (fo : O → m O') (fg : Option G → m (Option G'))
    (f : T → m U) :
    (q.mapAllM fs fp fo fg = do
      let q ← q.mapSubjectM fs
      let q ← q.mapPredicateM fp
      let q ← q.mapObjectM fo
      q.mapGraphM fg) ∧
    (t.mapM f = do
      let t ← t.mapSubjectM f
      let t ← t.mapPredicateM f
      t.mapObjectM f) := by
  constructor <;>
    simp [Quad.mapAllM, Quad.mapSubjectM, Quad.mapPredicateM, Quad.mapObjectM, Quad.mapGraphM,
      Triple.mapM, Triple.mapSubjectM, Triple.mapPredicateM, Triple.mapObjectM]

example : (⟨5, 6, 5, none⟩ : Quad Nat).mapAllM numbering (fun t => do return (← numbering t).2)
    (fun t => pure t) (fun _ => do return some (← numbering 9)) 0 =
      (⟨(5, 0), 1, 5, some (9, 2)⟩, 3) := rfl

/-- C89: with a function without effects these are the functions of C36. -/
theorem C89_pure (f : T → U) (h : T → U × V) (x : CanonicalQuadPattern T) (q : Quad T)
    (t : Triple T) :
    x.mapM (m := m) (fun t => pure (f t)) = pure (x.map f) ∧
    x.map2M (m := m) (fun t => pure (h t)) = pure (x.map2 h) ∧
    q.mapM (m := m) (fun t => pure (f t)) = pure (q.map f) ∧
    t.mapM (m := m) (fun t => pure (f t)) = pure (t.map f) :=
  ⟨Proof.Mapping.CanonicalQuadPattern_pure f x, Proof.Mapping.CanonicalQuadPattern_pure2 h x, Proof.Mapping.quad_pure f q, Proof.Mapping.triple_pure f t⟩

example : mappingSample.mapM (m := StateM Nat) (fun t => pure (t + 1)) =
    pure (.anySubject (.givenPredicate 8 (.sameAsSubject (.givenGraph (some 5))))) :=
  (C89_pure (V := Nat) (· + 1) (fun t => (t, t)) mappingSample ⟨0, 0, 0, none⟩ ⟨0, 0, 0⟩).1

/-- C89: a function that writes down its arguments and panics on some of them is called on
the given terms up to the first it panics on. The call panics exactly when it panics on one
of them, and otherwise gives the mapped pattern or statement. -/
theorem C89_calls (bad : T → Bool) (e : Panic) (f : T → U) (x : CanonicalQuadPattern T)
    (q : Quad T) (t : Triple T) (log : List T) :
    x.mapM (recording bad e f) log =
      recorded bad e (givenTerms (patternSlots x)) (x.map f) log ∧
    q.mapM (recording bad e f) log =
      recorded bad e ([q.s, q.p, q.o] ++ q.g.toList) (q.map f) log ∧
    t.mapM (recording bad e f) log = recorded bad e [t.s, t.p, t.o] (t.map f) log := by
  refine ⟨?_, ?_, ?_⟩
  · exact Proof.Mapping.recorded_of_slots (F := CanonicalQuadPattern) patternSlots Proof.Mapping.CanonicalQuadPattern_inj
      bad e f x (x.map f) _ (Proof.Mapping.CanonicalQuadPattern_map _ x) (Proof.Mapping.pattern_slots_map f x) log
  · have h := Proof.Mapping.recorded_of_slots (F := fun A => Quad A) quadSlots Proof.Mapping.quadSlots_inj
      bad e f q (q.map f) _ (Proof.Mapping.quad_map _ q) (Proof.Mapping.quad_slots_map f q) log
    have hg : givenTerms (quadSlots q) = [q.s, q.p, q.o] ++ q.g.toList := by
      rcases q with ⟨s, p, o, _ | g⟩ <;> rfl
    rw [← hg]
    exact h
  · exact Proof.Mapping.recorded_of_slots (F := fun A => Triple A) tripleSlots Proof.Mapping.tripleSlots_inj
      bad e f t (t.map f) _ (Proof.Mapping.triple_map _ t) (Proof.Mapping.triple_slots_map f t) log

example : (⟨5, 6, 5, some 8⟩ : Quad Nat).mapM (recording (· = 6) .overflow (· + 1)) [1] =
    (.error .overflow, [1, 5, 6]) :=
  (C89_calls (· = 6) .overflow (· + 1) mappingSample ⟨5, 6, 5, some 8⟩ ⟨0, 0, 0⟩ [1]).2.1

end RdfTypes.Property
