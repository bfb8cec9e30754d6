import Verif.Spec.DebugPatterns
import Verif.Spec.Pattern
import Verif.Proof.DebugPatterns
import Verif.Property.PatternForms
import Verif.Property.Debugging

/-!
# C98: `Debug` output of patterns
-/

namespace RdfTypes.Property

open Spec Debugging

variable {R V : Type}

/-- `{:?}` gives one word for each position of a pattern, around the term given there and the
words of the positions after it. -/
theorem C98_one_line (f : R → Printed) (fx : V → Printed) :
    (∀ p : CanonicalQuadPattern R, quadPattern f p false =
      wordsOnLine (f · false)
        [subjectWord p.subject, predicateWord p.predicate, objectWord p.object]
        (lastOnLine (graphOnLine (f · false)) (graphWord p.graph))) ∧
    (∀ p : CanonicalTriplePattern R, triplePattern f p false =
      wordsOnLine (f · false) [subjectWord p.subject, predicateWord p.predicate]
        (lastOnLine (f · false) (objectWord p.object))) ∧
    ∀ x : ResourceOrVar R V, resourceOrVar f fx x false =
      (variableWord (f · false) (fx · false) x).1 ++ ['('] ++
        (variableWord (f · false) (fx · false) x).2 ++ [')'] := by
  refine ⟨fun p => ?_, fun p => ?_, fun x => ?_⟩
  · rw [quadPattern_eq, funext fun g => (option_onLine f g).symm]
    exact node_onLine _ _ _ _ _ (node_onLine _ _ _ _ _ (node_onLine _ _ _ [] _
      (final_onLine _ _)))
  · rw [triplePattern_eq]
    exact node_onLine _ _ _ _ _ (node_onLine _ _ _ [] _ (final_onLine _ _))
  · cases x <;> simp [resourceOrVar, items, variableWord]

/-- `{:#?}` gives each word, and each term given, lines of its own. -/
theorem C98_lines (f : R → Printed) (fx : V → Printed) :
    (∀ p : CanonicalQuadPattern R, linesOf (quadPattern f p true) =
      wordsLines (fun r => linesOf (f r true))
        [subjectWord p.subject, predicateWord p.predicate, objectWord p.object]
        (lastLines (nameLines fun r => linesOf (f r true)) (graphWord p.graph))) ∧
    (∀ p : CanonicalTriplePattern R, linesOf (triplePattern f p true) =
      wordsLines (fun r => linesOf (f r true)) [subjectWord p.subject, predicateWord p.predicate]
        (lastLines (fun r => linesOf (f r true)) (objectWord p.object))) ∧
    ∀ x : ResourceOrVar R V, linesOf (resourceOrVar f fx x true) =
      [(variableWord (f · true) (fx · true) x).1 ++ ['(']] ++
        shifted 4 (closed (linesOf (variableWord (f · true) (fx · true) x).2)) ++ [[')']] := by
  refine ⟨fun p => ?_, fun p => ?_, fun x => ?_⟩
  · rw [quadPattern_eq, funext fun g => (option_own_lines f g).symm]
    exact node_lines _ (subject_slots.line _) _ _ _ (node_lines _ (predicate_slots.line _) _ _ _
      (node_lines _ (object_slots.line _) _ [] _ (final_lines _ (graph_slots.line _))))
  · rw [triplePattern_eq]
    exact node_lines _ (subject_slots.line _) _ _ _ (node_lines _ (predicate_slots.line _) _ [] _
      (final_lines _ (object_slots.line _)))
  · cases x with
    | resource r =>
      exact items_lines (o := ['R', 'e', 's', 'o', 'u', 'r', 'c', 'e']) (by decide) _
    | var x => exact items_lines (o := ['V', 'a', 'r']) (by decide) _

/-- The output tells patterns apart, if the end of the texts of the terms and variables can be
told: canonical patterns, and quads and triples of terms and variables. -/
theorem C98_apart (f : R → Printed) (fx : V → Printed) (alternate : Bool)
    (h : Delimited (f · alternate)) (hx : Delimited (fx · alternate)) :
    (∀ p p' : CanonicalQuadPattern R,
      quadPattern f p alternate = quadPattern f p' alternate → p = p') ∧
    (∀ p p' : CanonicalTriplePattern R,
      triplePattern f p alternate = triplePattern f p' alternate → p = p') ∧
    (∀ p p' : Quad (ResourceOrVar R V),
      quad (resourceOrVar f fx) (resourceOrVar f fx) (resourceOrVar f fx) (resourceOrVar f fx) p
          alternate =
        quad (resourceOrVar f fx) (resourceOrVar f fx) (resourceOrVar f fx) (resourceOrVar f fx) p'
          alternate → p = p') ∧
    ∀ p p' : Triple (ResourceOrVar R V),
      triple (resourceOrVar f fx) (resourceOrVar f fx) (resourceOrVar f fx) p alternate =
        triple (resourceOrVar f fx) (resourceOrVar f fx) (resourceOrVar f fx) p' alternate →
      p = p' := by
  have hv := (resourceOrVar_readable h hx).delimited
  exact ⟨fun p p' e => (quadPattern_readable h p p' [] [] (congrArg (· ++ []) e)).1,
    fun p p' e => (triplePattern_readable h p p' [] [] (congrArg (· ++ []) e)).1,
    fun p p' e => (quad_readable hv p p' [] [] (congrArg (· ++ []) e)).1,
    fun p p' e => (triple_readable hv p p' [] [] (congrArg (· ++ []) e)).1⟩

/-- So the outputs of two canonical patterns are the same exactly if they match the same
statements, and those of the canonical forms of two patterns exactly if these have the same
instances, if there are two terms. -/
theorem C98_matches [DecidableEq V] (f : R → Printed) (alternate : Bool)
    (h : Delimited (f · alternate)) {u v : R} (huv : u ≠ v) :
    (∀ p p' : CanonicalQuadPattern R, quadPattern f p alternate = quadPattern f p' alternate ↔
      ∀ q, matchesQuad p q ↔ matchesQuad p' q) ∧
    (∀ p p' : CanonicalTriplePattern R,
      triplePattern f p alternate = triplePattern f p' alternate ↔
      ∀ t, matchesTriple p t ↔ matchesTriple p' t) ∧
    (∀ a b : QuadPattern R V, quadPattern f (.fromPattern a) alternate =
        quadPattern f (.fromPattern b) alternate ↔ ∀ q, instanceOfQuad a q ↔ instanceOfQuad b q) ∧
    ∀ a b : TriplePattern R V, triplePattern f (.fromPattern a) alternate =
        triplePattern f (.fromPattern b) alternate ↔
      ∀ t, instanceOfTriple a t ↔ instanceOfTriple b t := by
  obtain ⟨h1, h2, -⟩ := C98_apart f f alternate h h
  obtain ⟨k1, k2, k3, k4⟩ := C69_same_statements (X := V) huv
  exact ⟨fun p p' => ⟨fun e q => by rw [h1 p p' e], fun e => by rw [k2 p p' e]⟩,
    fun p p' => ⟨fun e q => by rw [h2 p p' e], fun e => by rw [k1 p p' e]⟩,
    fun a b => ⟨fun e => (k4 a b).1 (h1 _ _ e), fun e => by rw [(k4 a b).2 e]⟩,
    fun a b => ⟨fun e => (k3 a b).1 (h2 _ _ e), fun e => by rw [(k3 a b).2 e]⟩⟩

/-- The pattern `?0 1 ?0 ?1` in canonical form, and as it is written. -/
example :
    let f : Nat → Printed := fun n _ => decimal n
    let pat : QuadPattern Nat Nat := ⟨.var 0, .resource 1, .var 0, some (.var 1)⟩
    quadPattern f (.fromPattern pat) false =
      "AnySubject(GivenPredicate(1, SameAsSubject(AnyGraph)))".toList ∧
    quad (resourceOrVar f f) (resourceOrVar f f) (resourceOrVar f f) (resourceOrVar f f) pat
      false = "Quad(Var(0), Resource(1), Var(0), Some(Var(1)))".toList := by
  decide +kernel

/-- A given graph on lines of its own. -/
example : quadPattern (fun n _ => decimal n) (.fromPattern
    (⟨.resource 12, .var 0, .var 1, some (.resource 3)⟩ : QuadPattern Nat Nat)) true =
    "GivenSubject(
    12,
    AnyPredicate(
        AnyObject(
            GivenGraph(
                Some(
                    3,
                ),
            ),
        ),
    ),\n)".toList := by
  decide +kernel

/-- The hypotheses hold of numbers. -/
example : Delimited (fun n : Nat => (fun m _ => decimal m : Nat → Printed) n true) ∧
    (0 : Nat) ≠ 1 :=
  ⟨C95_numbers, by decide⟩

/-- Variables and terms of the same text are told apart; without an end, terms are not. -/
example :
    let f : Nat → Printed := fun n _ => decimal n
    resourceOrVar f f (.resource 1) false ≠ resourceOrVar f f (.var 1) false ∧
    (let f : Nat → Printed := fun n _ => if n = 0 then ['a'] else ['a', ')']
     ¬ Delimited (f · false)) := by
  refine ⟨by decide +kernel, fun h => ?_⟩
  have := h 0 1 ')' ')' [')'] [] (.inr rfl) (.inr rfl) (by decide +kernel)
  cases this

end RdfTypes.Property
