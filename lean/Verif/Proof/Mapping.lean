import Verif.Spec.Mapping
import Verif.Spec.Pattern

/-!
# Proofs about mapping with effects
-/

namespace RdfTypes.Proof.Mapping

open Spec QPat

variable {m : Type → Type} [Monad m] [LawfulMonad m] {T U V : Type}

/-- The places of the two results of `map2`. -/
def both (l : List (Slot (U × V))) : List (Slot U) × List (Slot V) :=
  (l.map Slot.first, l.map Slot.second)

theorem graph_visit (f : T → m U) (g : Option T) :
    (fun g => [graphSlot g]) <$> optionMapM f g = visitAll f [graphSlot g] := by
  cases g <;> simp [optionMapM, graphSlot, visitAll, Slot.visit]

theorem graph_visit2 (f : T → m (U × V)) (g : Option T) :
    (fun g => ([graphSlot g.1], [graphSlot g.2])) <$> optionMap2M f g =
      both <$> visitAll f [graphSlot g] := by
  cases g <;> simp [optionMap2M, graphSlot, visitAll, Slot.visit, both, Slot.first, Slot.second]

theorem visit_any (f : T → m U) (l : List (Slot T)) :
    visitAll f (.any :: l) = (.any :: ·) <$> visitAll f l := by
  simp [visitAll, Slot.visit]

theorem visit_sameAs (f : T → m U) (p : Place) (l : List (Slot T)) :
    visitAll f (.sameAs p :: l) = (.sameAs p :: ·) <$> visitAll f l := by
  simp [visitAll, Slot.visit]

theorem visit_given (f : T → m U) (t : T) (l : List (Slot T)) :
    visitAll f (.given t :: l) = f t >>= fun u => (.given u :: ·) <$> visitAll f l := by
  simp [visitAll, Slot.visit]

theorem both_any (f : T → m (U × V)) (l : List (Slot T)) :
    both <$> visitAll f (.any :: l) =
      (fun y => (.any :: y.1, .any :: y.2)) <$> (both <$> visitAll f l) := by
  simp [visit_any, both, Slot.first, Slot.second]

theorem both_sameAs (f : T → m (U × V)) (p : Place) (l : List (Slot T)) :
    both <$> visitAll f (.sameAs p :: l) =
      (fun y => (.sameAs p :: y.1, .sameAs p :: y.2)) <$> (both <$> visitAll f l) := by
  simp [visit_sameAs, both, Slot.first, Slot.second]

theorem both_given (f : T → m (U × V)) (t : T) (l : List (Slot T)) :
    both <$> visitAll f (.given t :: l) = f t >>= fun u =>
      (fun y => (.given u.1 :: y.1, .given u.2 :: y.2)) <$> (both <$> visitAll f l) := by
  simp [visit_given, both, Slot.first, Slot.second]

theorem AnySubjectAnyPredicateAnyObject_map (f : T → m U) (x : AnySubjectAnyPredicateAnyObject T) :
    Slots.anySubjectAnyPredicateAnyObject <$> x.mapM f = visitAll f (Slots.anySubjectAnyPredicateAnyObject x) := by
  cases x with
  | givenGraph g =>
    simp [AnySubjectAnyPredicateAnyObject.mapM, Slots.anySubjectAnyPredicateAnyObject, ← graph_visit]
  | _ => simp [AnySubjectAnyPredicateAnyObject.mapM, Slots.anySubjectAnyPredicateAnyObject, visitAll, Slot.visit]

theorem AnySubjectAnyPredicateAnyObject_map2 (f : T → m (U × V)) (x : AnySubjectAnyPredicateAnyObject T) :
    (fun y => (Slots.anySubjectAnyPredicateAnyObject y.1, Slots.anySubjectAnyPredicateAnyObject y.2)) <$> x.map2M f =
      both <$> visitAll f (Slots.anySubjectAnyPredicateAnyObject x) := by
  cases x with
  | givenGraph g =>
    simp [AnySubjectAnyPredicateAnyObject.map2M, Slots.anySubjectAnyPredicateAnyObject, ← graph_visit2]
  | _ => simp [AnySubjectAnyPredicateAnyObject.map2M, Slots.anySubjectAnyPredicateAnyObject, visitAll, Slot.visit, both, Slot.first, Slot.second]

theorem GivenSubjectAnyPredicateAnyObject_map (f : T → m U) (x : GivenSubjectAnyPredicateAnyObject T) :
    Slots.givenSubjectAnyPredicateAnyObject <$> x.mapM f = visitAll f (Slots.givenSubjectAnyPredicateAnyObject x) := by
  cases x with
  | givenGraph g =>
    simp [GivenSubjectAnyPredicateAnyObject.mapM, Slots.givenSubjectAnyPredicateAnyObject, ← graph_visit]
  | _ => simp [GivenSubjectAnyPredicateAnyObject.mapM, Slots.givenSubjectAnyPredicateAnyObject, visitAll, Slot.visit]

theorem GivenSubjectAnyPredicateAnyObject_map2 (f : T → m (U × V)) (x : GivenSubjectAnyPredicateAnyObject T) :
    (fun y => (Slots.givenSubjectAnyPredicateAnyObject y.1, Slots.givenSubjectAnyPredicateAnyObject y.2)) <$> x.map2M f =
      both <$> visitAll f (Slots.givenSubjectAnyPredicateAnyObject x) := by
  cases x with
  | givenGraph g =>
    simp [GivenSubjectAnyPredicateAnyObject.map2M, Slots.givenSubjectAnyPredicateAnyObject, ← graph_visit2]
  | _ => simp [GivenSubjectAnyPredicateAnyObject.map2M, Slots.givenSubjectAnyPredicateAnyObject, visitAll, Slot.visit, both, Slot.first, Slot.second]

theorem AnySubjectGivenPredicateAnyObject_map (f : T → m U) (x : AnySubjectGivenPredicateAnyObject T) :
    Slots.anySubjectGivenPredicateAnyObject <$> x.mapM f = visitAll f (Slots.anySubjectGivenPredicateAnyObject x) := by
  cases x with
  | givenGraph g =>
    simp [AnySubjectGivenPredicateAnyObject.mapM, Slots.anySubjectGivenPredicateAnyObject, ← graph_visit]
  | _ => simp [AnySubjectGivenPredicateAnyObject.mapM, Slots.anySubjectGivenPredicateAnyObject, visitAll, Slot.visit]

theorem AnySubjectGivenPredicateAnyObject_map2 (f : T → m (U × V)) (x : AnySubjectGivenPredicateAnyObject T) :
    (fun y => (Slots.anySubjectGivenPredicateAnyObject y.1, Slots.anySubjectGivenPredicateAnyObject y.2)) <$> x.map2M f =
      both <$> visitAll f (Slots.anySubjectGivenPredicateAnyObject x) := by
  cases x with
  | givenGraph g =>
    simp [AnySubjectGivenPredicateAnyObject.map2M, Slots.anySubjectGivenPredicateAnyObject, ← graph_visit2]
  | _ => simp [AnySubjectGivenPredicateAnyObject.map2M, Slots.anySubjectGivenPredicateAnyObject, visitAll, Slot.visit, both, Slot.first, Slot.second]

theorem AnySubjectAnyPredicateGivenObject_map (f : T → m U) (x : AnySubjectAnyPredicateGivenObject T) :
    Slots.anySubjectAnyPredicateGivenObject <$> x.mapM f = visitAll f (Slots.anySubjectAnyPredicateGivenObject x) := by
  cases x with
  | givenGraph g =>
    simp [AnySubjectAnyPredicateGivenObject.mapM, Slots.anySubjectAnyPredicateGivenObject, ← graph_visit]
  | _ => simp [AnySubjectAnyPredicateGivenObject.mapM, Slots.anySubjectAnyPredicateGivenObject, visitAll, Slot.visit]

theorem AnySubjectAnyPredicateGivenObject_map2 (f : T → m (U × V)) (x : AnySubjectAnyPredicateGivenObject T) :
    (fun y => (Slots.anySubjectAnyPredicateGivenObject y.1, Slots.anySubjectAnyPredicateGivenObject y.2)) <$> x.map2M f =
      both <$> visitAll f (Slots.anySubjectAnyPredicateGivenObject x) := by
  cases x with
  | givenGraph g =>
    simp [AnySubjectAnyPredicateGivenObject.map2M, Slots.anySubjectAnyPredicateGivenObject, ← graph_visit2]
  | _ => simp [AnySubjectAnyPredicateGivenObject.map2M, Slots.anySubjectAnyPredicateGivenObject, visitAll, Slot.visit, both, Slot.first, Slot.second]

theorem AnySubjectGivenPredicateGivenObject_map (f : T → m U) (x : AnySubjectGivenPredicateGivenObject T) :
    Slots.anySubjectGivenPredicateGivenObject <$> x.mapM f = visitAll f (Slots.anySubjectGivenPredicateGivenObject x) := by
  cases x with
  | givenGraph g =>
    simp [AnySubjectGivenPredicateGivenObject.mapM, Slots.anySubjectGivenPredicateGivenObject, ← graph_visit]
  | _ => simp [AnySubjectGivenPredicateGivenObject.mapM, Slots.anySubjectGivenPredicateGivenObject, visitAll, Slot.visit]

theorem AnySubjectGivenPredicateGivenObject_map2 (f : T → m (U × V)) (x : AnySubjectGivenPredicateGivenObject T) :
    (fun y => (Slots.anySubjectGivenPredicateGivenObject y.1, Slots.anySubjectGivenPredicateGivenObject y.2)) <$> x.map2M f =
      both <$> visitAll f (Slots.anySubjectGivenPredicateGivenObject x) := by
  cases x with
  | givenGraph g =>
    simp [AnySubjectGivenPredicateGivenObject.map2M, Slots.anySubjectGivenPredicateGivenObject, ← graph_visit2]
  | _ => simp [AnySubjectGivenPredicateGivenObject.map2M, Slots.anySubjectGivenPredicateGivenObject, visitAll, Slot.visit, both, Slot.first, Slot.second]

theorem GivenSubjectAnyPredicateGivenObject_map (f : T → m U) (x : GivenSubjectAnyPredicateGivenObject T) :
    Slots.givenSubjectAnyPredicateGivenObject <$> x.mapM f = visitAll f (Slots.givenSubjectAnyPredicateGivenObject x) := by
  cases x with
  | givenGraph g =>
    simp [GivenSubjectAnyPredicateGivenObject.mapM, Slots.givenSubjectAnyPredicateGivenObject, ← graph_visit]
  | _ => simp [GivenSubjectAnyPredicateGivenObject.mapM, Slots.givenSubjectAnyPredicateGivenObject, visitAll, Slot.visit]

theorem GivenSubjectAnyPredicateGivenObject_map2 (f : T → m (U × V)) (x : GivenSubjectAnyPredicateGivenObject T) :
    (fun y => (Slots.givenSubjectAnyPredicateGivenObject y.1, Slots.givenSubjectAnyPredicateGivenObject y.2)) <$> x.map2M f =
      both <$> visitAll f (Slots.givenSubjectAnyPredicateGivenObject x) := by
  cases x with
  | givenGraph g =>
    simp [GivenSubjectAnyPredicateGivenObject.map2M, Slots.givenSubjectAnyPredicateGivenObject, ← graph_visit2]
  | _ => simp [GivenSubjectAnyPredicateGivenObject.map2M, Slots.givenSubjectAnyPredicateGivenObject, visitAll, Slot.visit, both, Slot.first, Slot.second]

theorem GivenSubjectGivenPredicateAnyObject_map (f : T → m U) (x : GivenSubjectGivenPredicateAnyObject T) :
    Slots.givenSubjectGivenPredicateAnyObject <$> x.mapM f = visitAll f (Slots.givenSubjectGivenPredicateAnyObject x) := by
  cases x with
  | givenGraph g =>
    simp [GivenSubjectGivenPredicateAnyObject.mapM, Slots.givenSubjectGivenPredicateAnyObject, ← graph_visit]
  | _ => simp [GivenSubjectGivenPredicateAnyObject.mapM, Slots.givenSubjectGivenPredicateAnyObject, visitAll, Slot.visit]

theorem GivenSubjectGivenPredicateAnyObject_map2 (f : T → m (U × V)) (x : GivenSubjectGivenPredicateAnyObject T) :
    (fun y => (Slots.givenSubjectGivenPredicateAnyObject y.1, Slots.givenSubjectGivenPredicateAnyObject y.2)) <$> x.map2M f =
      both <$> visitAll f (Slots.givenSubjectGivenPredicateAnyObject x) := by
  cases x with
  | givenGraph g =>
    simp [GivenSubjectGivenPredicateAnyObject.map2M, Slots.givenSubjectGivenPredicateAnyObject, ← graph_visit2]
  | _ => simp [GivenSubjectGivenPredicateAnyObject.map2M, Slots.givenSubjectGivenPredicateAnyObject, visitAll, Slot.visit, both, Slot.first, Slot.second]

theorem GivenSubjectGivenPredicateGivenObject_map (f : T → m U) (x : GivenSubjectGivenPredicateGivenObject T) :
    Slots.givenSubjectGivenPredicateGivenObject <$> x.mapM f = visitAll f (Slots.givenSubjectGivenPredicateGivenObject x) := by
  cases x with
  | givenGraph g =>
    simp [GivenSubjectGivenPredicateGivenObject.mapM, Slots.givenSubjectGivenPredicateGivenObject, ← graph_visit]
  | _ => simp [GivenSubjectGivenPredicateGivenObject.mapM, Slots.givenSubjectGivenPredicateGivenObject, visitAll, Slot.visit]

theorem GivenSubjectGivenPredicateGivenObject_map2 (f : T → m (U × V)) (x : GivenSubjectGivenPredicateGivenObject T) :
    (fun y => (Slots.givenSubjectGivenPredicateGivenObject y.1, Slots.givenSubjectGivenPredicateGivenObject y.2)) <$> x.map2M f =
      both <$> visitAll f (Slots.givenSubjectGivenPredicateGivenObject x) := by
  cases x with
  | givenGraph g =>
    simp [GivenSubjectGivenPredicateGivenObject.map2M, Slots.givenSubjectGivenPredicateGivenObject, ← graph_visit2]
  | _ => simp [GivenSubjectGivenPredicateGivenObject.map2M, Slots.givenSubjectGivenPredicateGivenObject, visitAll, Slot.visit, both, Slot.first, Slot.second]

theorem AnySubjectAnyPredicate_map (f : T → m U) (x : AnySubjectAnyPredicate T) :
    Slots.anySubjectAnyPredicate <$> x.mapM f = visitAll f (Slots.anySubjectAnyPredicate x) := by
  cases x <;>
    simp [AnySubjectAnyPredicate.mapM, Slots.anySubjectAnyPredicate, visit_any, visit_sameAs, visit_given,
      ← AnySubjectAnyPredicateAnyObject_map, ← AnySubjectAnyPredicateGivenObject_map]

theorem AnySubjectAnyPredicate_map2 (f : T → m (U × V)) (x : AnySubjectAnyPredicate T) :
    (fun y => (Slots.anySubjectAnyPredicate y.1, Slots.anySubjectAnyPredicate y.2)) <$> x.map2M f =
      both <$> visitAll f (Slots.anySubjectAnyPredicate x) := by
  cases x
  case anyObject g =>
    simp only [Slots.anySubjectAnyPredicate, both_any, ← AnySubjectAnyPredicateAnyObject_map2]
    simp [AnySubjectAnyPredicate.map2M]
  case sameAsSubject g =>
    simp only [Slots.anySubjectAnyPredicate, both_sameAs, ← AnySubjectAnyPredicateGivenObject_map2]
    simp [AnySubjectAnyPredicate.map2M]
  case sameAsPredicate g =>
    simp only [Slots.anySubjectAnyPredicate, both_sameAs, ← AnySubjectAnyPredicateGivenObject_map2]
    simp [AnySubjectAnyPredicate.map2M]
  case givenObject o g =>
    simp only [Slots.anySubjectAnyPredicate, both_given, ← AnySubjectAnyPredicateGivenObject_map2]
    simp [AnySubjectAnyPredicate.map2M]

theorem AnySubjectGivenPredicate_map (f : T → m U) (x : AnySubjectGivenPredicate T) :
    Slots.anySubjectGivenPredicate <$> x.mapM f = visitAll f (Slots.anySubjectGivenPredicate x) := by
  cases x <;>
    simp [AnySubjectGivenPredicate.mapM, Slots.anySubjectGivenPredicate, visit_any, visit_sameAs, visit_given,
      ← AnySubjectGivenPredicateAnyObject_map, ← AnySubjectGivenPredicateGivenObject_map]

theorem AnySubjectGivenPredicate_map2 (f : T → m (U × V)) (x : AnySubjectGivenPredicate T) :
    (fun y => (Slots.anySubjectGivenPredicate y.1, Slots.anySubjectGivenPredicate y.2)) <$> x.map2M f =
      both <$> visitAll f (Slots.anySubjectGivenPredicate x) := by
  cases x
  case anyObject g =>
    simp only [Slots.anySubjectGivenPredicate, both_any, ← AnySubjectGivenPredicateAnyObject_map2]
    simp [AnySubjectGivenPredicate.map2M]
  case sameAsSubject g =>
    simp only [Slots.anySubjectGivenPredicate, both_sameAs, ← AnySubjectGivenPredicateGivenObject_map2]
    simp [AnySubjectGivenPredicate.map2M]
  case givenObject o g =>
    simp only [Slots.anySubjectGivenPredicate, both_given, ← AnySubjectGivenPredicateGivenObject_map2]
    simp [AnySubjectGivenPredicate.map2M]

theorem GivenSubjectAnyPredicate_map (f : T → m U) (x : GivenSubjectAnyPredicate T) :
    Slots.givenSubjectAnyPredicate <$> x.mapM f = visitAll f (Slots.givenSubjectAnyPredicate x) := by
  cases x <;>
    simp [GivenSubjectAnyPredicate.mapM, Slots.givenSubjectAnyPredicate, visit_any, visit_sameAs, visit_given,
      ← GivenSubjectAnyPredicateAnyObject_map, ← GivenSubjectAnyPredicateGivenObject_map]

theorem GivenSubjectAnyPredicate_map2 (f : T → m (U × V)) (x : GivenSubjectAnyPredicate T) :
    (fun y => (Slots.givenSubjectAnyPredicate y.1, Slots.givenSubjectAnyPredicate y.2)) <$> x.map2M f =
      both <$> visitAll f (Slots.givenSubjectAnyPredicate x) := by
  cases x
  case anyObject g =>
    simp only [Slots.givenSubjectAnyPredicate, both_any, ← GivenSubjectAnyPredicateAnyObject_map2]
    simp [GivenSubjectAnyPredicate.map2M]
  case sameAsPredicate g =>
    simp only [Slots.givenSubjectAnyPredicate, both_sameAs, ← GivenSubjectAnyPredicateGivenObject_map2]
    simp [GivenSubjectAnyPredicate.map2M]
  case givenObject o g =>
    simp only [Slots.givenSubjectAnyPredicate, both_given, ← GivenSubjectAnyPredicateGivenObject_map2]
    simp [GivenSubjectAnyPredicate.map2M]

theorem GivenSubjectGivenPredicate_map (f : T → m U) (x : GivenSubjectGivenPredicate T) :
    Slots.givenSubjectGivenPredicate <$> x.mapM f = visitAll f (Slots.givenSubjectGivenPredicate x) := by
  cases x <;>
    simp [GivenSubjectGivenPredicate.mapM, Slots.givenSubjectGivenPredicate, visit_any, visit_given,
      ← GivenSubjectGivenPredicateAnyObject_map, ← GivenSubjectGivenPredicateGivenObject_map]

theorem GivenSubjectGivenPredicate_map2 (f : T → m (U × V)) (x : GivenSubjectGivenPredicate T) :
    (fun y => (Slots.givenSubjectGivenPredicate y.1, Slots.givenSubjectGivenPredicate y.2)) <$> x.map2M f =
      both <$> visitAll f (Slots.givenSubjectGivenPredicate x) := by
  cases x
  case anyObject g =>
    simp only [Slots.givenSubjectGivenPredicate, both_any, ← GivenSubjectGivenPredicateAnyObject_map2]
    simp [GivenSubjectGivenPredicate.map2M]
  case givenObject o g =>
    simp only [Slots.givenSubjectGivenPredicate, both_given, ← GivenSubjectGivenPredicateGivenObject_map2]
    simp [GivenSubjectGivenPredicate.map2M]

theorem AnySubject_map (f : T → m U) (x : AnySubject T) :
    Slots.anySubject <$> x.mapM f = visitAll f (Slots.anySubject x) := by
  cases x <;>
    simp [AnySubject.mapM, Slots.anySubject, visit_any, visit_sameAs, visit_given,
      ← AnySubjectAnyPredicate_map, ← AnySubjectGivenPredicate_map]

theorem AnySubject_map2 (f : T → m (U × V)) (x : AnySubject T) :
    (fun y => (Slots.anySubject y.1, Slots.anySubject y.2)) <$> x.map2M f =
      both <$> visitAll f (Slots.anySubject x) := by
  cases x
  case anyPredicate o =>
    simp only [Slots.anySubject, both_any, ← AnySubjectAnyPredicate_map2]
    simp [AnySubject.map2M]
  case sameAsSubject o =>
    simp only [Slots.anySubject, both_sameAs, ← AnySubjectGivenPredicate_map2]
    simp [AnySubject.map2M]
  case givenPredicate p o =>
    simp only [Slots.anySubject, both_given, ← AnySubjectGivenPredicate_map2]
    simp [AnySubject.map2M]

theorem GivenSubject_map (f : T → m U) (x : GivenSubject T) :
    Slots.givenSubject <$> x.mapM f = visitAll f (Slots.givenSubject x) := by
  cases x <;>
    simp [GivenSubject.mapM, Slots.givenSubject, visit_any, visit_given,
      ← GivenSubjectAnyPredicate_map, ← GivenSubjectGivenPredicate_map]

theorem GivenSubject_map2 (f : T → m (U × V)) (x : GivenSubject T) :
    (fun y => (Slots.givenSubject y.1, Slots.givenSubject y.2)) <$> x.map2M f =
      both <$> visitAll f (Slots.givenSubject x) := by
  cases x
  case anyPredicate o =>
    simp only [Slots.givenSubject, both_any, ← GivenSubjectAnyPredicate_map2]
    simp [GivenSubject.map2M]
  case givenPredicate p o =>
    simp only [Slots.givenSubject, both_given, ← GivenSubjectGivenPredicate_map2]
    simp [GivenSubject.map2M]

theorem CanonicalQuadPattern_map (f : T → m U) (x : CanonicalQuadPattern T) :
    patternSlots <$> x.mapM f = visitAll f (patternSlots x) := by
  cases x <;>
    simp [CanonicalQuadPattern.mapM, patternSlots, visit_any, visit_given,
      ← AnySubject_map, ← GivenSubject_map]

theorem CanonicalQuadPattern_map2 (f : T → m (U × V)) (x : CanonicalQuadPattern T) :
    (fun y => (patternSlots y.1, patternSlots y.2)) <$> x.map2M f =
      both <$> visitAll f (patternSlots x) := by
  cases x
  case anySubject p =>
    simp only [patternSlots, both_any, ← AnySubject_map2]
    simp [CanonicalQuadPattern.map2M]
  case givenSubject s p =>
    simp only [patternSlots, both_given, ← GivenSubject_map2]
    simp [CanonicalQuadPattern.map2M]

theorem graphSlot_inj {a b : Option T} : graphSlot a = graphSlot b ↔ a = b := by
  cases a <;> cases b <;> simp [graphSlot]

theorem graphSlot_any (a : Option T) : graphSlot a ≠ .any := by
  cases a <;> simp [graphSlot]

theorem graphSlot_sameAs (a : Option T) (p : Place) : graphSlot a ≠ .sameAs p := by
  cases a <;> simp [graphSlot]

theorem optionMapM_pure (f : T → U) (g : Option T) :
    optionMapM (m := m) (fun t => pure (f t)) g = pure (g.map f) := by
  cases g <;> simp [optionMapM]

theorem optionMap2M_pure (f : T → U × V) (g : Option T) :
    optionMap2M (m := m) (fun t => pure (f t)) g = pure (optionMap2 f g) := by
  cases g <;> simp [optionMap2M, optionMap2]

theorem AnySubjectAnyPredicateAnyObject_pure (f : T → U) (x : AnySubjectAnyPredicateAnyObject T) :
    x.mapM (m := m) (fun t => pure (f t)) = pure (x.map f) := by
  cases x <;> simp [AnySubjectAnyPredicateAnyObject.mapM, AnySubjectAnyPredicateAnyObject.map, optionMapM_pure]

theorem AnySubjectAnyPredicateAnyObject_pure2 (f : T → U × V) (x : AnySubjectAnyPredicateAnyObject T) :
    x.map2M (m := m) (fun t => pure (f t)) = pure (x.map2 f) := by
  cases x <;> simp [AnySubjectAnyPredicateAnyObject.map2M, AnySubjectAnyPredicateAnyObject.map2, optionMap2M_pure]

theorem AnySubjectAnyPredicateAnyObject_inj (x y : AnySubjectAnyPredicateAnyObject T) : Slots.anySubjectAnyPredicateAnyObject x = Slots.anySubjectAnyPredicateAnyObject y ↔ x = y := by
  cases x <;> cases y <;> simp [Slots.anySubjectAnyPredicateAnyObject, graphSlot_inj, graphSlot_any, (graphSlot_any _).symm, graphSlot_sameAs, (graphSlot_sameAs _ _).symm]

theorem GivenSubjectAnyPredicateAnyObject_pure (f : T → U) (x : GivenSubjectAnyPredicateAnyObject T) :
    x.mapM (m := m) (fun t => pure (f t)) = pure (x.map f) := by
  cases x <;> simp [GivenSubjectAnyPredicateAnyObject.mapM, GivenSubjectAnyPredicateAnyObject.map, optionMapM_pure]

theorem GivenSubjectAnyPredicateAnyObject_pure2 (f : T → U × V) (x : GivenSubjectAnyPredicateAnyObject T) :
    x.map2M (m := m) (fun t => pure (f t)) = pure (x.map2 f) := by
  cases x <;> simp [GivenSubjectAnyPredicateAnyObject.map2M, GivenSubjectAnyPredicateAnyObject.map2, optionMap2M_pure]

theorem GivenSubjectAnyPredicateAnyObject_inj (x y : GivenSubjectAnyPredicateAnyObject T) : Slots.givenSubjectAnyPredicateAnyObject x = Slots.givenSubjectAnyPredicateAnyObject y ↔ x = y := by
  cases x <;> cases y <;> simp [Slots.givenSubjectAnyPredicateAnyObject, graphSlot_inj, graphSlot_any, (graphSlot_any _).symm, graphSlot_sameAs, (graphSlot_sameAs _ _).symm]

theorem AnySubjectGivenPredicateAnyObject_pure (f : T → U) (x : AnySubjectGivenPredicateAnyObject T) :
    x.mapM (m := m) (fun t => pure (f t)) = pure (x.map f) := by
  cases x <;> simp [AnySubjectGivenPredicateAnyObject.mapM, AnySubjectGivenPredicateAnyObject.map, optionMapM_pure]

theorem AnySubjectGivenPredicateAnyObject_pure2 (f : T → U × V) (x : AnySubjectGivenPredicateAnyObject T) :
    x.map2M (m := m) (fun t => pure (f t)) = pure (x.map2 f) := by
  cases x <;> simp [AnySubjectGivenPredicateAnyObject.map2M, AnySubjectGivenPredicateAnyObject.map2, optionMap2M_pure]

theorem AnySubjectGivenPredicateAnyObject_inj (x y : AnySubjectGivenPredicateAnyObject T) : Slots.anySubjectGivenPredicateAnyObject x = Slots.anySubjectGivenPredicateAnyObject y ↔ x = y := by
  cases x <;> cases y <;> simp [Slots.anySubjectGivenPredicateAnyObject, graphSlot_inj, graphSlot_any, (graphSlot_any _).symm, graphSlot_sameAs, (graphSlot_sameAs _ _).symm]

theorem AnySubjectAnyPredicateGivenObject_pure (f : T → U) (x : AnySubjectAnyPredicateGivenObject T) :
    x.mapM (m := m) (fun t => pure (f t)) = pure (x.map f) := by
  cases x <;> simp [AnySubjectAnyPredicateGivenObject.mapM, AnySubjectAnyPredicateGivenObject.map, optionMapM_pure]

theorem AnySubjectAnyPredicateGivenObject_pure2 (f : T → U × V) (x : AnySubjectAnyPredicateGivenObject T) :
    x.map2M (m := m) (fun t => pure (f t)) = pure (x.map2 f) := by
  cases x <;> simp [AnySubjectAnyPredicateGivenObject.map2M, AnySubjectAnyPredicateGivenObject.map2, optionMap2M_pure]

theorem AnySubjectAnyPredicateGivenObject_inj (x y : AnySubjectAnyPredicateGivenObject T) : Slots.anySubjectAnyPredicateGivenObject x = Slots.anySubjectAnyPredicateGivenObject y ↔ x = y := by
  cases x <;> cases y <;> simp [Slots.anySubjectAnyPredicateGivenObject, graphSlot_inj, graphSlot_any, (graphSlot_any _).symm, graphSlot_sameAs, (graphSlot_sameAs _ _).symm]

theorem AnySubjectGivenPredicateGivenObject_pure (f : T → U) (x : AnySubjectGivenPredicateGivenObject T) :
    x.mapM (m := m) (fun t => pure (f t)) = pure (x.map f) := by
  cases x <;> simp [AnySubjectGivenPredicateGivenObject.mapM, AnySubjectGivenPredicateGivenObject.map, optionMapM_pure]

theorem AnySubjectGivenPredicateGivenObject_pure2 (f : T → U × V) (x : AnySubjectGivenPredicateGivenObject T) :
    x.map2M (m := m) (fun t => pure (f t)) = pure (x.map2 f) := by
  cases x <;> simp [AnySubjectGivenPredicateGivenObject.map2M, AnySubjectGivenPredicateGivenObject.map2, optionMap2M_pure]

theorem AnySubjectGivenPredicateGivenObject_inj (x y : AnySubjectGivenPredicateGivenObject T) : Slots.anySubjectGivenPredicateGivenObject x = Slots.anySubjectGivenPredicateGivenObject y ↔ x = y := by
  cases x <;> cases y <;> simp [Slots.anySubjectGivenPredicateGivenObject, graphSlot_inj, graphSlot_any, (graphSlot_any _).symm, graphSlot_sameAs, (graphSlot_sameAs _ _).symm]

theorem GivenSubjectAnyPredicateGivenObject_pure (f : T → U) (x : GivenSubjectAnyPredicateGivenObject T) :
    x.mapM (m := m) (fun t => pure (f t)) = pure (x.map f) := by
  cases x <;> simp [GivenSubjectAnyPredicateGivenObject.mapM, GivenSubjectAnyPredicateGivenObject.map, optionMapM_pure]

theorem GivenSubjectAnyPredicateGivenObject_pure2 (f : T → U × V) (x : GivenSubjectAnyPredicateGivenObject T) :
    x.map2M (m := m) (fun t => pure (f t)) = pure (x.map2 f) := by
  cases x <;> simp [GivenSubjectAnyPredicateGivenObject.map2M, GivenSubjectAnyPredicateGivenObject.map2, optionMap2M_pure]

theorem GivenSubjectAnyPredicateGivenObject_inj (x y : GivenSubjectAnyPredicateGivenObject T) : Slots.givenSubjectAnyPredicateGivenObject x = Slots.givenSubjectAnyPredicateGivenObject y ↔ x = y := by
  cases x <;> cases y <;> simp [Slots.givenSubjectAnyPredicateGivenObject, graphSlot_inj, graphSlot_any, (graphSlot_any _).symm, graphSlot_sameAs, (graphSlot_sameAs _ _).symm]

theorem GivenSubjectGivenPredicateAnyObject_pure (f : T → U) (x : GivenSubjectGivenPredicateAnyObject T) :
    x.mapM (m := m) (fun t => pure (f t)) = pure (x.map f) := by
  cases x <;> simp [GivenSubjectGivenPredicateAnyObject.mapM, GivenSubjectGivenPredicateAnyObject.map, optionMapM_pure]

theorem GivenSubjectGivenPredicateAnyObject_pure2 (f : T → U × V) (x : GivenSubjectGivenPredicateAnyObject T) :
    x.map2M (m := m) (fun t => pure (f t)) = pure (x.map2 f) := by
  cases x <;> simp [GivenSubjectGivenPredicateAnyObject.map2M, GivenSubjectGivenPredicateAnyObject.map2, optionMap2M_pure]

theorem GivenSubjectGivenPredicateAnyObject_inj (x y : GivenSubjectGivenPredicateAnyObject T) : Slots.givenSubjectGivenPredicateAnyObject x = Slots.givenSubjectGivenPredicateAnyObject y ↔ x = y := by
  cases x <;> cases y <;> simp [Slots.givenSubjectGivenPredicateAnyObject, graphSlot_inj, graphSlot_any, (graphSlot_any _).symm, graphSlot_sameAs, (graphSlot_sameAs _ _).symm]

theorem GivenSubjectGivenPredicateGivenObject_pure (f : T → U) (x : GivenSubjectGivenPredicateGivenObject T) :
    x.mapM (m := m) (fun t => pure (f t)) = pure (x.map f) := by
  cases x <;> simp [GivenSubjectGivenPredicateGivenObject.mapM, GivenSubjectGivenPredicateGivenObject.map, optionMapM_pure]

theorem GivenSubjectGivenPredicateGivenObject_pure2 (f : T → U × V) (x : GivenSubjectGivenPredicateGivenObject T) :
    x.map2M (m := m) (fun t => pure (f t)) = pure (x.map2 f) := by
  cases x <;> simp [GivenSubjectGivenPredicateGivenObject.map2M, GivenSubjectGivenPredicateGivenObject.map2, optionMap2M_pure]

theorem GivenSubjectGivenPredicateGivenObject_inj (x y : GivenSubjectGivenPredicateGivenObject T) : Slots.givenSubjectGivenPredicateGivenObject x = Slots.givenSubjectGivenPredicateGivenObject y ↔ x = y := by
  cases x <;> cases y <;> simp [Slots.givenSubjectGivenPredicateGivenObject, graphSlot_inj, graphSlot_any, (graphSlot_any _).symm]

theorem AnySubjectAnyPredicate_pure (f : T → U) (x : AnySubjectAnyPredicate T) :
    x.mapM (m := m) (fun t => pure (f t)) = pure (x.map f) := by
  cases x <;> simp [AnySubjectAnyPredicate.mapM, AnySubjectAnyPredicate.map, AnySubjectAnyPredicateAnyObject_pure, AnySubjectAnyPredicateGivenObject_pure]

theorem AnySubjectAnyPredicate_pure2 (f : T → U × V) (x : AnySubjectAnyPredicate T) :
    x.map2M (m := m) (fun t => pure (f t)) = pure (x.map2 f) := by
  cases x <;> simp [AnySubjectAnyPredicate.map2M, AnySubjectAnyPredicate.map2, AnySubjectAnyPredicateAnyObject_pure2, AnySubjectAnyPredicateGivenObject_pure2]

theorem AnySubjectAnyPredicate_inj (x y : AnySubjectAnyPredicate T) : Slots.anySubjectAnyPredicate x = Slots.anySubjectAnyPredicate y ↔ x = y := by
  cases x <;> cases y <;> simp [Slots.anySubjectAnyPredicate, AnySubjectAnyPredicateAnyObject_inj, AnySubjectAnyPredicateGivenObject_inj]

theorem AnySubjectGivenPredicate_pure (f : T → U) (x : AnySubjectGivenPredicate T) :
    x.mapM (m := m) (fun t => pure (f t)) = pure (x.map f) := by
  cases x <;> simp [AnySubjectGivenPredicate.mapM, AnySubjectGivenPredicate.map, AnySubjectGivenPredicateAnyObject_pure, AnySubjectGivenPredicateGivenObject_pure]

theorem AnySubjectGivenPredicate_pure2 (f : T → U × V) (x : AnySubjectGivenPredicate T) :
    x.map2M (m := m) (fun t => pure (f t)) = pure (x.map2 f) := by
  cases x <;> simp [AnySubjectGivenPredicate.map2M, AnySubjectGivenPredicate.map2, AnySubjectGivenPredicateAnyObject_pure2, AnySubjectGivenPredicateGivenObject_pure2]

theorem AnySubjectGivenPredicate_inj (x y : AnySubjectGivenPredicate T) : Slots.anySubjectGivenPredicate x = Slots.anySubjectGivenPredicate y ↔ x = y := by
  cases x <;> cases y <;> simp [Slots.anySubjectGivenPredicate, AnySubjectGivenPredicateAnyObject_inj, AnySubjectGivenPredicateGivenObject_inj]

theorem GivenSubjectAnyPredicate_pure (f : T → U) (x : GivenSubjectAnyPredicate T) :
    x.mapM (m := m) (fun t => pure (f t)) = pure (x.map f) := by
  cases x <;> simp [GivenSubjectAnyPredicate.mapM, GivenSubjectAnyPredicate.map, GivenSubjectAnyPredicateAnyObject_pure, GivenSubjectAnyPredicateGivenObject_pure]

theorem GivenSubjectAnyPredicate_pure2 (f : T → U × V) (x : GivenSubjectAnyPredicate T) :
    x.map2M (m := m) (fun t => pure (f t)) = pure (x.map2 f) := by
  cases x <;> simp [GivenSubjectAnyPredicate.map2M, GivenSubjectAnyPredicate.map2, GivenSubjectAnyPredicateAnyObject_pure2, GivenSubjectAnyPredicateGivenObject_pure2]

theorem GivenSubjectAnyPredicate_inj (x y : GivenSubjectAnyPredicate T) : Slots.givenSubjectAnyPredicate x = Slots.givenSubjectAnyPredicate y ↔ x = y := by
  cases x <;> cases y <;> simp [Slots.givenSubjectAnyPredicate, GivenSubjectAnyPredicateAnyObject_inj, GivenSubjectAnyPredicateGivenObject_inj]

theorem GivenSubjectGivenPredicate_pure (f : T → U) (x : GivenSubjectGivenPredicate T) :
    x.mapM (m := m) (fun t => pure (f t)) = pure (x.map f) := by
  cases x <;> simp [GivenSubjectGivenPredicate.mapM, GivenSubjectGivenPredicate.map, GivenSubjectGivenPredicateAnyObject_pure, GivenSubjectGivenPredicateGivenObject_pure]

theorem GivenSubjectGivenPredicate_pure2 (f : T → U × V) (x : GivenSubjectGivenPredicate T) :
    x.map2M (m := m) (fun t => pure (f t)) = pure (x.map2 f) := by
  cases x <;> simp [GivenSubjectGivenPredicate.map2M, GivenSubjectGivenPredicate.map2, GivenSubjectGivenPredicateAnyObject_pure2, GivenSubjectGivenPredicateGivenObject_pure2]

theorem GivenSubjectGivenPredicate_inj (x y : GivenSubjectGivenPredicate T) : Slots.givenSubjectGivenPredicate x = Slots.givenSubjectGivenPredicate y ↔ x = y := by
  cases x <;> cases y <;> simp [Slots.givenSubjectGivenPredicate, GivenSubjectGivenPredicateAnyObject_inj, GivenSubjectGivenPredicateGivenObject_inj]

theorem AnySubject_pure (f : T → U) (x : AnySubject T) :
    x.mapM (m := m) (fun t => pure (f t)) = pure (x.map f) := by
  cases x <;> simp [AnySubject.mapM, AnySubject.map, AnySubjectAnyPredicate_pure, AnySubjectGivenPredicate_pure]

theorem AnySubject_pure2 (f : T → U × V) (x : AnySubject T) :
    x.map2M (m := m) (fun t => pure (f t)) = pure (x.map2 f) := by
  cases x <;> simp [AnySubject.map2M, AnySubject.map2, AnySubjectAnyPredicate_pure2, AnySubjectGivenPredicate_pure2]

theorem AnySubject_inj (x y : AnySubject T) : Slots.anySubject x = Slots.anySubject y ↔ x = y := by
  cases x <;> cases y <;> simp [Slots.anySubject, AnySubjectAnyPredicate_inj, AnySubjectGivenPredicate_inj]

theorem GivenSubject_pure (f : T → U) (x : GivenSubject T) :
    x.mapM (m := m) (fun t => pure (f t)) = pure (x.map f) := by
  cases x <;> simp [GivenSubject.mapM, GivenSubject.map, GivenSubjectAnyPredicate_pure, GivenSubjectGivenPredicate_pure]

theorem GivenSubject_pure2 (f : T → U × V) (x : GivenSubject T) :
    x.map2M (m := m) (fun t => pure (f t)) = pure (x.map2 f) := by
  cases x <;> simp [GivenSubject.map2M, GivenSubject.map2, GivenSubjectAnyPredicate_pure2, GivenSubjectGivenPredicate_pure2]

theorem GivenSubject_inj (x y : GivenSubject T) : Slots.givenSubject x = Slots.givenSubject y ↔ x = y := by
  cases x <;> cases y <;> simp [Slots.givenSubject, GivenSubjectAnyPredicate_inj, GivenSubjectGivenPredicate_inj]

theorem CanonicalQuadPattern_pure (f : T → U) (x : CanonicalQuadPattern T) :
    x.mapM (m := m) (fun t => pure (f t)) = pure (x.map f) := by
  cases x <;> simp [CanonicalQuadPattern.mapM, CanonicalQuadPattern.map, AnySubject_pure, GivenSubject_pure]

theorem CanonicalQuadPattern_pure2 (f : T → U × V) (x : CanonicalQuadPattern T) :
    x.map2M (m := m) (fun t => pure (f t)) = pure (x.map2 f) := by
  cases x <;> simp [CanonicalQuadPattern.map2M, CanonicalQuadPattern.map2, AnySubject_pure2, GivenSubject_pure2]

theorem CanonicalQuadPattern_inj (x y : CanonicalQuadPattern T) : patternSlots x = patternSlots y ↔ x = y := by
  cases x <;> cases y <;> simp [patternSlots, AnySubject_inj, GivenSubject_inj]

open QuadMatch in
theorem pattern_places (x : CanonicalQuadPattern T) :
    ∃ a b c d, patternSlots x = [a, b, c, d] ∧ ∀ q, matchesQuad x q ↔
      a.allows q q.s ∧ b.allows q q.p ∧ c.allows q q.o ∧ d.allowsGraph q := by
  have hg : ∀ (g : Option T) (q : Quad T), (graphSlot g).allowsGraph q ↔ q.g = g := by
    intro g q
    cases g <;> simp [graphSlot, Slot.allowsGraph]
  have ha : ∀ q : Quad T, Slot.any.allowsGraph q ↔ True := fun _ => Iff.rfl
  have hs : ∀ (p : Place) (q : Quad T),
      (Slot.sameAs p).allowsGraph q ↔ q.g = some (termAt q p) := fun _ _ => Iff.rfl
  rcases x with (o | o | ⟨p, o⟩) | ⟨s, o | ⟨p, o⟩⟩ <;> cases o <;> rename_i g <;> cases g <;>
    exact ⟨_, _, _, _, rfl, fun q => by
      simp [matchesQuad, Slot.allows, hg, ha, hs, termAt, anyAnyAny, givenAnyAny, anyGivenAny,
        anyAnyGiven, anyGivenGiven, givenAnyGiven, givenGivenAny, givenGivenGiven]⟩

theorem quad_map (f : T → m U) (q : Quad T) :
    quadSlots <$> q.mapM f = visitAll f (quadSlots q) := by
  rcases q with ⟨s, p, o, _ | g⟩ <;>
    simp [Quad.mapM, quadSlots, visitAll, Slot.visit, optionMapM, graphSlot]

theorem triple_map (f : T → m U) (t : Triple T) :
    tripleSlots <$> t.mapM f = visitAll f (tripleSlots t) := by
  simp [Triple.mapM, tripleSlots, visitAll, Slot.visit]

theorem quadSlots_inj (p q : Quad T) : quadSlots p = quadSlots q ↔ p = q := by
  cases p
  cases q
  simp [quadSlots, graphSlot_inj]

theorem tripleSlots_inj (p q : Triple T) : tripleSlots p = tripleSlots q ↔ p = q := by
  cases p
  cases q
  simp [tripleSlots]

theorem quad_pure (f : T → U) (q : Quad T) :
    q.mapM (m := m) (fun t => pure (f t)) = pure (q.map f) := by
  simp [Quad.mapM, Quad.map, optionMapM_pure]

theorem triple_pure (f : T → U) (t : Triple T) :
    t.mapM (m := m) (fun t => pure (f t)) = pure (t.map f) := by
  simp [Triple.mapM, Triple.map]

/-- Running a computation that may panic and writes down terms, and then another one. -/
theorem bind_log {α β : Type} (x : ExceptT Panic (StateM (List T)) α)
    (k : α → ExceptT Panic (StateM (List T)) β) (log : List T) :
    (x >>= k) log = match x log with
      | (.ok a, log) => k a log
      | (.error e, log) => (.error e, log) := by
  show (match x log with | (a, s) => ExceptT.bindCont k a s) = _
  rcases x log with ⟨a | a, s⟩ <;> rfl

theorem map_log {α β : Type} (x : ExceptT Panic (StateM (List T)) α) (k : α → β)
    (log : List T) :
    (k <$> x) log = ((x log).1.map k, (x log).2) := by
  rw [← bind_pure_comp, bind_log]
  rcases x log with ⟨a | a, s⟩ <;> rfl

/-- Visiting all places with a function that writes down its arguments. -/
theorem visit_recording (bad : T → Bool) (e : Panic) (f : T → U) (l : List (Slot T))
    (log : List T) :
    visitAll (recording bad e f) l log =
      recorded bad e (givenTerms l) (visitAll (m := Id) (fun t => f t) l) log := by
  induction l generalizing log with
  | nil => simp [visitAll, recorded, givenTerms, untilBad]; rfl
  | cons x l ih =>
    cases x with
    | given t =>
      rw [visit_given, visit_given, bind_log]
      cases h : bad t
      · simp [recording, h, map_log, ih, recorded, givenTerms, untilBad]
        split <;> rfl
      · simp [recording, h, recorded, givenTerms, untilBad]
    | any =>
      rw [visit_any, visit_any, map_log, ih]
      simp [recorded, givenTerms]
      split <;> rfl
    | sameAs p =>
      rw [visit_sameAs, visit_sameAs, map_log, ih]
      simp [recorded, givenTerms]
      split <;> rfl
    | default =>
      have hd : ∀ {m : Type → Type} [Monad m] [LawfulMonad m] (f : T → m U),
          visitAll f (.default :: l) = (.default :: ·) <$> visitAll f l := by
        intro m _ _ f
        simp [visitAll, Slot.visit]
      rw [hd, hd, map_log, ih]
      simp [recorded, givenTerms]
      split <;> rfl

/-- What follows for anything made of places. -/
theorem recorded_of_slots {F : Type → Type} (slots : ∀ {A : Type}, F A → List (Slot A))
    (inj : ∀ {A : Type} (x y : F A), slots x = slots y ↔ x = y)
    (bad : T → Bool) (e : Panic) (f : T → U) (x : F T) (y : F U)
    (r : ExceptT Panic (StateM (List T)) (F U))
    (hr : slots <$> r = visitAll (recording bad e f) (slots x))
    (hy : slots y = visitAll (m := Id) (fun t => f t) (slots x)) (log : List T) :
    r log = recorded bad e (givenTerms (slots x)) y log := by
  have h := congrFun hr log
  rw [map_log, visit_recording, ← hy] at h
  have h1 := congrArg Prod.fst h
  have h2 := congrArg Prod.snd h
  refine Prod.ext ?_ h2
  simp only [recorded] at h1 ⊢
  clear h h2 hr hy
  cases ha : (givenTerms (slots x)).any bad <;> rcases hrl : (r log).1 with a | a <;>
    rw [ha, hrl] at h1 <;> simp [Except.map, inj] at h1 <;> simp [h1]

theorem pattern_slots_map (f : T → U) (x : CanonicalQuadPattern T) :
    patternSlots (x.map f) = visitAll (m := Id) (fun t => f t) (patternSlots x) := by
  rw [← CanonicalQuadPattern_map]
  exact (congrArg (Functor.map (f := Id) patternSlots)
    (CanonicalQuadPattern_pure (m := Id) f x)).symm

theorem quad_slots_map (f : T → U) (q : Quad T) :
    quadSlots (q.map f) = visitAll (m := Id) (fun t => f t) (quadSlots q) := by
  rw [← quad_map]
  exact (congrArg (Functor.map (f := Id) quadSlots) (quad_pure (m := Id) f q)).symm

theorem triple_slots_map (f : T → U) (t : Triple T) :
    tripleSlots (t.map f) = visitAll (m := Id) (fun t => f t) (tripleSlots t) := by
  rw [← triple_map]
  exact (congrArg (Functor.map (f := Id) tripleSlots) (triple_pure (m := Id) f t)).symm

end RdfTypes.Proof.Mapping
