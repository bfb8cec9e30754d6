import Verif.Model.PatternHash
import Verif.Spec.Container

namespace RdfTypes.Proof

namespace PatternHash

open Spec

set_option linter.unusedSimpArgs false

variable {R X Y : Type} {h : R → List HashWrite} {hx : X → List HashWrite}

theorem option_sd (hh : SelfDelimiting h) : SelfDelimiting (Option.hashWrites h) := by
  intro x y l l' e
  cases x <;> cases y <;> simp only [Option.hashWrites, List.cons_append, List.nil_append,
    List.cons.injEq, HashWrite.isize.injEq, Int.reduceEq, true_and, false_and] at e
  · exact ⟨rfl, e⟩
  · obtain ⟨rfl, e1⟩ := hh _ _ _ _ e
    exact ⟨rfl, e1⟩

theorem option_map (f : Y → R) (g : Option Y) :
    Option.hashWrites h (g.map f) = Option.hashWrites (h ∘ f) g := by
  cases g <;> rfl

theorem quad_sd (hh : SelfDelimiting h) : SelfDelimiting (Quad.hashWrites h) := by
  rintro ⟨s, p, o, g⟩ ⟨s', p', o', g'⟩ l l' e
  simp only [Quad.hashWrites, List.append_assoc] at e
  obtain ⟨rfl, e1⟩ := hh _ _ _ _ e
  obtain ⟨rfl, e2⟩ := hh _ _ _ _ e1
  obtain ⟨rfl, e3⟩ := hh _ _ _ _ e2
  obtain ⟨rfl, e4⟩ := option_sd hh _ _ _ _ e3
  exact ⟨rfl, e4⟩

theorem triple_sd (hh : SelfDelimiting h) : SelfDelimiting (Triple.hashWrites h) := by
  rintro ⟨s, p, o⟩ ⟨s', p', o'⟩ l l' e
  simp only [Triple.hashWrites, List.append_assoc] at e
  obtain ⟨rfl, e1⟩ := hh _ _ _ _ e
  obtain ⟨rfl, e2⟩ := hh _ _ _ _ e1
  obtain ⟨rfl, e3⟩ := hh _ _ _ _ e2
  exact ⟨rfl, e3⟩

theorem resourceOrVar_sd (hh : SelfDelimiting h) (hhx : SelfDelimiting hx) :
    SelfDelimiting (PatHash.resourceOrVar h hx) := by
  intro x y l l' e
  cases x <;> cases y <;> simp only [PatHash.resourceOrVar, List.cons_append,
    List.cons.injEq, HashWrite.isize.injEq, Int.reduceEq, true_and, false_and] at e
  · obtain ⟨rfl, e1⟩ := hh _ _ _ _ e
    exact ⟨rfl, e1⟩
  · obtain ⟨rfl, e1⟩ := hhx _ _ _ _ e
    exact ⟨rfl, e1⟩

theorem subject_sd (hh : SelfDelimiting h) :
    SelfDelimiting (PatHash.subject h) := by
  intro x y l l' e
  cases x <;> cases y <;> simp only [PatHash.subject,
    List.cons_append, List.nil_append, List.append_assoc, List.cons.injEq, HashWrite.isize.injEq,
    Int.reduceEq, true_and, false_and] at e
  · exact ⟨rfl, e⟩
  · obtain ⟨rfl, e1⟩ := hh _ _ _ _ e
    exact ⟨rfl, e1⟩

theorem predicate_sd (hh : SelfDelimiting h) :
    SelfDelimiting (PatHash.predicate h) := by
  intro x y l l' e
  cases x <;> cases y <;> simp only [PatHash.predicate,
    List.cons_append, List.nil_append, List.append_assoc, List.cons.injEq, HashWrite.isize.injEq,
    Int.reduceEq, true_and, false_and] at e
  · exact ⟨rfl, e⟩
  · exact ⟨rfl, e⟩
  · obtain ⟨rfl, e1⟩ := hh _ _ _ _ e
    exact ⟨rfl, e1⟩

theorem object_sd (hh : SelfDelimiting h) :
    SelfDelimiting (PatHash.object h) := by
  intro x y l l' e
  cases x <;> cases y <;> simp only [PatHash.object,
    List.cons_append, List.nil_append, List.append_assoc, List.cons.injEq, HashWrite.isize.injEq,
    Int.reduceEq, true_and, false_and] at e
  · exact ⟨rfl, e⟩
  · exact ⟨rfl, e⟩
  · exact ⟨rfl, e⟩
  · obtain ⟨rfl, e1⟩ := hh _ _ _ _ e
    exact ⟨rfl, e1⟩

theorem tAnySubjectAnyPredicate_sd (hh : SelfDelimiting h) :
    SelfDelimiting (PatHash.tAnySubjectAnyPredicate h) := by
  intro x y l l' e
  cases x <;> cases y <;> simp only [PatHash.tAnySubjectAnyPredicate,
    List.cons_append, List.nil_append, List.append_assoc, List.cons.injEq, HashWrite.isize.injEq,
    Int.reduceEq, true_and, false_and] at e
  · exact ⟨rfl, e⟩
  · exact ⟨rfl, e⟩
  · exact ⟨rfl, e⟩
  · obtain ⟨rfl, e1⟩ := hh _ _ _ _ e
    exact ⟨rfl, e1⟩

theorem tAnySubjectGivenPredicate_sd (hh : SelfDelimiting h) :
    SelfDelimiting (PatHash.tAnySubjectGivenPredicate h) := by
  intro x y l l' e
  cases x <;> cases y <;> simp only [PatHash.tAnySubjectGivenPredicate,
    List.cons_append, List.nil_append, List.append_assoc, List.cons.injEq, HashWrite.isize.injEq,
    Int.reduceEq, true_and, false_and] at e
  · exact ⟨rfl, e⟩
  · exact ⟨rfl, e⟩
  · obtain ⟨rfl, e1⟩ := hh _ _ _ _ e
    exact ⟨rfl, e1⟩

theorem tGivenSubjectAnyPredicate_sd (hh : SelfDelimiting h) :
    SelfDelimiting (PatHash.tGivenSubjectAnyPredicate h) := by
  intro x y l l' e
  cases x <;> cases y <;> simp only [PatHash.tGivenSubjectAnyPredicate,
    List.cons_append, List.nil_append, List.append_assoc, List.cons.injEq, HashWrite.isize.injEq,
    Int.reduceEq, true_and, false_and] at e
  · exact ⟨rfl, e⟩
  · exact ⟨rfl, e⟩
  · obtain ⟨rfl, e1⟩ := hh _ _ _ _ e
    exact ⟨rfl, e1⟩

theorem tGivenSubjectGivenPredicate_sd (hh : SelfDelimiting h) :
    SelfDelimiting (PatHash.tGivenSubjectGivenPredicate h) := by
  intro x y l l' e
  cases x <;> cases y <;> simp only [PatHash.tGivenSubjectGivenPredicate,
    List.cons_append, List.nil_append, List.append_assoc, List.cons.injEq, HashWrite.isize.injEq,
    Int.reduceEq, true_and, false_and] at e
  · exact ⟨rfl, e⟩
  · obtain ⟨rfl, e1⟩ := hh _ _ _ _ e
    exact ⟨rfl, e1⟩

theorem tAnySubject_sd (hh : SelfDelimiting h) :
    SelfDelimiting (PatHash.tAnySubject h) := by
  intro x y l l' e
  cases x <;> cases y <;> simp only [PatHash.tAnySubject,
    List.cons_append, List.nil_append, List.append_assoc, List.cons.injEq, HashWrite.isize.injEq,
    Int.reduceEq, true_and, false_and] at e
  · obtain ⟨rfl, e1⟩ := (tAnySubjectAnyPredicate_sd hh) _ _ _ _ e
    exact ⟨rfl, e1⟩
  · obtain ⟨rfl, e1⟩ := (tAnySubjectGivenPredicate_sd hh) _ _ _ _ e
    exact ⟨rfl, e1⟩
  · obtain ⟨rfl, e1⟩ := hh _ _ _ _ e
    obtain ⟨rfl, e2⟩ := (tAnySubjectGivenPredicate_sd hh) _ _ _ _ e1
    exact ⟨rfl, e2⟩

theorem tGivenSubject_sd (hh : SelfDelimiting h) :
    SelfDelimiting (PatHash.tGivenSubject h) := by
  intro x y l l' e
  cases x <;> cases y <;> simp only [PatHash.tGivenSubject,
    List.cons_append, List.nil_append, List.append_assoc, List.cons.injEq, HashWrite.isize.injEq,
    Int.reduceEq, true_and, false_and] at e
  · obtain ⟨rfl, e1⟩ := (tGivenSubjectAnyPredicate_sd hh) _ _ _ _ e
    exact ⟨rfl, e1⟩
  · obtain ⟨rfl, e1⟩ := hh _ _ _ _ e
    obtain ⟨rfl, e2⟩ := (tGivenSubjectGivenPredicate_sd hh) _ _ _ _ e1
    exact ⟨rfl, e2⟩

theorem triplePattern_sd (hh : SelfDelimiting h) :
    SelfDelimiting (PatHash.triplePattern h) := by
  intro x y l l' e
  cases x <;> cases y <;> simp only [PatHash.triplePattern,
    List.cons_append, List.nil_append, List.append_assoc, List.cons.injEq, HashWrite.isize.injEq,
    Int.reduceEq, true_and, false_and] at e
  · obtain ⟨rfl, e1⟩ := (tAnySubject_sd hh) _ _ _ _ e
    exact ⟨rfl, e1⟩
  · obtain ⟨rfl, e1⟩ := hh _ _ _ _ e
    obtain ⟨rfl, e2⟩ := (tGivenSubject_sd hh) _ _ _ _ e1
    exact ⟨rfl, e2⟩

theorem graph_sd (hh : SelfDelimiting h) :
    SelfDelimiting (PatHash.graph h) := by
  intro x y l l' e
  cases x <;> cases y <;> simp only [PatHash.graph,
    List.cons_append, List.nil_append, List.append_assoc, List.cons.injEq, HashWrite.isize.injEq,
    Int.reduceEq, true_and, false_and] at e
  · exact ⟨rfl, e⟩
  · exact ⟨rfl, e⟩
  · exact ⟨rfl, e⟩
  · exact ⟨rfl, e⟩
  · obtain ⟨rfl, e1⟩ := (option_sd hh) _ _ _ _ e
    exact ⟨rfl, e1⟩

theorem qAnySubjectAnyPredicateAnyObject_sd (hh : SelfDelimiting h) :
    SelfDelimiting (PatHash.qAnySubjectAnyPredicateAnyObject h) := by
  intro x y l l' e
  cases x <;> cases y <;> simp only [PatHash.qAnySubjectAnyPredicateAnyObject,
    List.cons_append, List.nil_append, List.append_assoc, List.cons.injEq, HashWrite.isize.injEq,
    Int.reduceEq, true_and, false_and] at e
  · exact ⟨rfl, e⟩
  · exact ⟨rfl, e⟩
  · exact ⟨rfl, e⟩
  · exact ⟨rfl, e⟩
  · obtain ⟨rfl, e1⟩ := (option_sd hh) _ _ _ _ e
    exact ⟨rfl, e1⟩

theorem qAnySubjectAnyPredicateAnyObject_map (f : Y → R)
    (x : QPat.AnySubjectAnyPredicateAnyObject Y) :
    PatHash.qAnySubjectAnyPredicateAnyObject h (x.map f) =
      PatHash.qAnySubjectAnyPredicateAnyObject (h ∘ f) x := by
  cases x <;> simp [PatHash.qAnySubjectAnyPredicateAnyObject,
    QPat.AnySubjectAnyPredicateAnyObject.map, option_map]

theorem qGivenSubjectAnyPredicateAnyObject_sd (hh : SelfDelimiting h) :
    SelfDelimiting (PatHash.qGivenSubjectAnyPredicateAnyObject h) := by
  intro x y l l' e
  cases x <;> cases y <;> simp only [PatHash.qGivenSubjectAnyPredicateAnyObject,
    List.cons_append, List.nil_append, List.append_assoc, List.cons.injEq, HashWrite.isize.injEq,
    Int.reduceEq, true_and, false_and] at e
  · exact ⟨rfl, e⟩
  · exact ⟨rfl, e⟩
  · exact ⟨rfl, e⟩
  · obtain ⟨rfl, e1⟩ := (option_sd hh) _ _ _ _ e
    exact ⟨rfl, e1⟩

theorem qGivenSubjectAnyPredicateAnyObject_map (f : Y → R)
    (x : QPat.GivenSubjectAnyPredicateAnyObject Y) :
    PatHash.qGivenSubjectAnyPredicateAnyObject h (x.map f) =
      PatHash.qGivenSubjectAnyPredicateAnyObject (h ∘ f) x := by
  cases x <;> simp [PatHash.qGivenSubjectAnyPredicateAnyObject,
    QPat.GivenSubjectAnyPredicateAnyObject.map, option_map]

theorem qAnySubjectGivenPredicateAnyObject_sd (hh : SelfDelimiting h) :
    SelfDelimiting (PatHash.qAnySubjectGivenPredicateAnyObject h) := by
  intro x y l l' e
  cases x <;> cases y <;> simp only [PatHash.qAnySubjectGivenPredicateAnyObject,
    List.cons_append, List.nil_append, List.append_assoc, List.cons.injEq, HashWrite.isize.injEq,
    Int.reduceEq, true_and, false_and] at e
  · exact ⟨rfl, e⟩
  · exact ⟨rfl, e⟩
  · exact ⟨rfl, e⟩
  · obtain ⟨rfl, e1⟩ := (option_sd hh) _ _ _ _ e
    exact ⟨rfl, e1⟩

theorem qAnySubjectGivenPredicateAnyObject_map (f : Y → R)
    (x : QPat.AnySubjectGivenPredicateAnyObject Y) :
    PatHash.qAnySubjectGivenPredicateAnyObject h (x.map f) =
      PatHash.qAnySubjectGivenPredicateAnyObject (h ∘ f) x := by
  cases x <;> simp [PatHash.qAnySubjectGivenPredicateAnyObject,
    QPat.AnySubjectGivenPredicateAnyObject.map, option_map]

theorem qAnySubjectAnyPredicateGivenObject_sd (hh : SelfDelimiting h) :
    SelfDelimiting (PatHash.qAnySubjectAnyPredicateGivenObject h) := by
  intro x y l l' e
  cases x <;> cases y <;> simp only [PatHash.qAnySubjectAnyPredicateGivenObject,
    List.cons_append, List.nil_append, List.append_assoc, List.cons.injEq, HashWrite.isize.injEq,
    Int.reduceEq, true_and, false_and] at e
  · exact ⟨rfl, e⟩
  · exact ⟨rfl, e⟩
  · exact ⟨rfl, e⟩
  · obtain ⟨rfl, e1⟩ := (option_sd hh) _ _ _ _ e
    exact ⟨rfl, e1⟩

theorem qAnySubjectAnyPredicateGivenObject_map (f : Y → R)
    (x : QPat.AnySubjectAnyPredicateGivenObject Y) :
    PatHash.qAnySubjectAnyPredicateGivenObject h (x.map f) =
      PatHash.qAnySubjectAnyPredicateGivenObject (h ∘ f) x := by
  cases x <;> simp [PatHash.qAnySubjectAnyPredicateGivenObject,
    QPat.AnySubjectAnyPredicateGivenObject.map, option_map]

theorem qAnySubjectGivenPredicateGivenObject_sd (hh : SelfDelimiting h) :
    SelfDelimiting (PatHash.qAnySubjectGivenPredicateGivenObject h) := by
  intro x y l l' e
  cases x <;> cases y <;> simp only [PatHash.qAnySubjectGivenPredicateGivenObject,
    List.cons_append, List.nil_append, List.append_assoc, List.cons.injEq, HashWrite.isize.injEq,
    Int.reduceEq, true_and, false_and] at e
  · exact ⟨rfl, e⟩
  · exact ⟨rfl, e⟩
  · obtain ⟨rfl, e1⟩ := (option_sd hh) _ _ _ _ e
    exact ⟨rfl, e1⟩

theorem qAnySubjectGivenPredicateGivenObject_map (f : Y → R)
    (x : QPat.AnySubjectGivenPredicateGivenObject Y) :
    PatHash.qAnySubjectGivenPredicateGivenObject h (x.map f) =
      PatHash.qAnySubjectGivenPredicateGivenObject (h ∘ f) x := by
  cases x <;> simp [PatHash.qAnySubjectGivenPredicateGivenObject,
    QPat.AnySubjectGivenPredicateGivenObject.map, option_map]

theorem qGivenSubjectAnyPredicateGivenObject_sd (hh : SelfDelimiting h) :
    SelfDelimiting (PatHash.qGivenSubjectAnyPredicateGivenObject h) := by
  intro x y l l' e
  cases x <;> cases y <;> simp only [PatHash.qGivenSubjectAnyPredicateGivenObject,
    List.cons_append, List.nil_append, List.append_assoc, List.cons.injEq, HashWrite.isize.injEq,
    Int.reduceEq, true_and, false_and] at e
  · exact ⟨rfl, e⟩
  · exact ⟨rfl, e⟩
  · obtain ⟨rfl, e1⟩ := (option_sd hh) _ _ _ _ e
    exact ⟨rfl, e1⟩

theorem qGivenSubjectAnyPredicateGivenObject_map (f : Y → R)
    (x : QPat.GivenSubjectAnyPredicateGivenObject Y) :
    PatHash.qGivenSubjectAnyPredicateGivenObject h (x.map f) =
      PatHash.qGivenSubjectAnyPredicateGivenObject (h ∘ f) x := by
  cases x <;> simp [PatHash.qGivenSubjectAnyPredicateGivenObject,
    QPat.GivenSubjectAnyPredicateGivenObject.map, option_map]

theorem qGivenSubjectGivenPredicateAnyObject_sd (hh : SelfDelimiting h) :
    SelfDelimiting (PatHash.qGivenSubjectGivenPredicateAnyObject h) := by
  intro x y l l' e
  cases x <;> cases y <;> simp only [PatHash.qGivenSubjectGivenPredicateAnyObject,
    List.cons_append, List.nil_append, List.append_assoc, List.cons.injEq, HashWrite.isize.injEq,
    Int.reduceEq, true_and, false_and] at e
  · exact ⟨rfl, e⟩
  · exact ⟨rfl, e⟩
  · obtain ⟨rfl, e1⟩ := (option_sd hh) _ _ _ _ e
    exact ⟨rfl, e1⟩

theorem qGivenSubjectGivenPredicateAnyObject_map (f : Y → R)
    (x : QPat.GivenSubjectGivenPredicateAnyObject Y) :
    PatHash.qGivenSubjectGivenPredicateAnyObject h (x.map f) =
      PatHash.qGivenSubjectGivenPredicateAnyObject (h ∘ f) x := by
  cases x <;> simp [PatHash.qGivenSubjectGivenPredicateAnyObject,
    QPat.GivenSubjectGivenPredicateAnyObject.map, option_map]

theorem qGivenSubjectGivenPredicateGivenObject_sd (hh : SelfDelimiting h) :
    SelfDelimiting (PatHash.qGivenSubjectGivenPredicateGivenObject h) := by
  intro x y l l' e
  cases x <;> cases y <;> simp only [PatHash.qGivenSubjectGivenPredicateGivenObject,
    List.cons_append, List.nil_append, List.append_assoc, List.cons.injEq, HashWrite.isize.injEq,
    Int.reduceEq, true_and, false_and] at e
  · exact ⟨rfl, e⟩
  · obtain ⟨rfl, e1⟩ := (option_sd hh) _ _ _ _ e
    exact ⟨rfl, e1⟩

theorem qGivenSubjectGivenPredicateGivenObject_map (f : Y → R)
    (x : QPat.GivenSubjectGivenPredicateGivenObject Y) :
    PatHash.qGivenSubjectGivenPredicateGivenObject h (x.map f) =
      PatHash.qGivenSubjectGivenPredicateGivenObject (h ∘ f) x := by
  cases x <;> simp [PatHash.qGivenSubjectGivenPredicateGivenObject,
    QPat.GivenSubjectGivenPredicateGivenObject.map, option_map]

theorem qAnySubjectAnyPredicate_sd (hh : SelfDelimiting h) :
    SelfDelimiting (PatHash.qAnySubjectAnyPredicate h) := by
  intro x y l l' e
  cases x <;> cases y <;> simp only [PatHash.qAnySubjectAnyPredicate,
    List.cons_append, List.nil_append, List.append_assoc, List.cons.injEq, HashWrite.isize.injEq,
    Int.reduceEq, true_and, false_and] at e
  · obtain ⟨rfl, e1⟩ := (qAnySubjectAnyPredicateAnyObject_sd hh) _ _ _ _ e
    exact ⟨rfl, e1⟩
  · obtain ⟨rfl, e1⟩ := (qAnySubjectAnyPredicateGivenObject_sd hh) _ _ _ _ e
    exact ⟨rfl, e1⟩
  · obtain ⟨rfl, e1⟩ := (qAnySubjectAnyPredicateGivenObject_sd hh) _ _ _ _ e
    exact ⟨rfl, e1⟩
  · obtain ⟨rfl, e1⟩ := hh _ _ _ _ e
    obtain ⟨rfl, e2⟩ := (qAnySubjectAnyPredicateGivenObject_sd hh) _ _ _ _ e1
    exact ⟨rfl, e2⟩

theorem qAnySubjectAnyPredicate_map (f : Y → R)
    (x : QPat.AnySubjectAnyPredicate Y) :
    PatHash.qAnySubjectAnyPredicate h (x.map f) =
      PatHash.qAnySubjectAnyPredicate (h ∘ f) x := by
  cases x <;> simp [PatHash.qAnySubjectAnyPredicate,
    QPat.AnySubjectAnyPredicate.map, option_map,
    qAnySubjectAnyPredicateAnyObject_map,
    qAnySubjectAnyPredicateGivenObject_map]

theorem qAnySubjectGivenPredicate_sd (hh : SelfDelimiting h) :
    SelfDelimiting (PatHash.qAnySubjectGivenPredicate h) := by
  intro x y l l' e
  cases x <;> cases y <;> simp only [PatHash.qAnySubjectGivenPredicate,
    List.cons_append, List.nil_append, List.append_assoc, List.cons.injEq, HashWrite.isize.injEq,
    Int.reduceEq, true_and, false_and] at e
  · obtain ⟨rfl, e1⟩ := (qAnySubjectGivenPredicateAnyObject_sd hh) _ _ _ _ e
    exact ⟨rfl, e1⟩
  · obtain ⟨rfl, e1⟩ := (qAnySubjectGivenPredicateGivenObject_sd hh) _ _ _ _ e
    exact ⟨rfl, e1⟩
  · obtain ⟨rfl, e1⟩ := hh _ _ _ _ e
    obtain ⟨rfl, e2⟩ := (qAnySubjectGivenPredicateGivenObject_sd hh) _ _ _ _ e1
    exact ⟨rfl, e2⟩

theorem qAnySubjectGivenPredicate_map (f : Y → R)
    (x : QPat.AnySubjectGivenPredicate Y) :
    PatHash.qAnySubjectGivenPredicate h (x.map f) =
      PatHash.qAnySubjectGivenPredicate (h ∘ f) x := by
  cases x <;> simp [PatHash.qAnySubjectGivenPredicate,
    QPat.AnySubjectGivenPredicate.map, option_map,
    qAnySubjectGivenPredicateAnyObject_map,
    qAnySubjectGivenPredicateGivenObject_map]

theorem qGivenSubjectAnyPredicate_sd (hh : SelfDelimiting h) :
    SelfDelimiting (PatHash.qGivenSubjectAnyPredicate h) := by
  intro x y l l' e
  cases x <;> cases y <;> simp only [PatHash.qGivenSubjectAnyPredicate,
    List.cons_append, List.nil_append, List.append_assoc, List.cons.injEq, HashWrite.isize.injEq,
    Int.reduceEq, true_and, false_and] at e
  · obtain ⟨rfl, e1⟩ := (qGivenSubjectAnyPredicateAnyObject_sd hh) _ _ _ _ e
    exact ⟨rfl, e1⟩
  · obtain ⟨rfl, e1⟩ := (qGivenSubjectAnyPredicateGivenObject_sd hh) _ _ _ _ e
    exact ⟨rfl, e1⟩
  · obtain ⟨rfl, e1⟩ := hh _ _ _ _ e
    obtain ⟨rfl, e2⟩ := (qGivenSubjectAnyPredicateGivenObject_sd hh) _ _ _ _ e1
    exact ⟨rfl, e2⟩

theorem qGivenSubjectAnyPredicate_map (f : Y → R)
    (x : QPat.GivenSubjectAnyPredicate Y) :
    PatHash.qGivenSubjectAnyPredicate h (x.map f) =
      PatHash.qGivenSubjectAnyPredicate (h ∘ f) x := by
  cases x <;> simp [PatHash.qGivenSubjectAnyPredicate,
    QPat.GivenSubjectAnyPredicate.map, option_map,
    qGivenSubjectAnyPredicateAnyObject_map,
    qGivenSubjectAnyPredicateGivenObject_map]

theorem qGivenSubjectGivenPredicate_sd (hh : SelfDelimiting h) :
    SelfDelimiting (PatHash.qGivenSubjectGivenPredicate h) := by
  intro x y l l' e
  cases x <;> cases y <;> simp only [PatHash.qGivenSubjectGivenPredicate,
    List.cons_append, List.nil_append, List.append_assoc, List.cons.injEq, HashWrite.isize.injEq,
    Int.reduceEq, true_and, false_and] at e
  · obtain ⟨rfl, e1⟩ := (qGivenSubjectGivenPredicateAnyObject_sd hh) _ _ _ _ e
    exact ⟨rfl, e1⟩
  · obtain ⟨rfl, e1⟩ := hh _ _ _ _ e
    obtain ⟨rfl, e2⟩ := (qGivenSubjectGivenPredicateGivenObject_sd hh) _ _ _ _ e1
    exact ⟨rfl, e2⟩

theorem qGivenSubjectGivenPredicate_map (f : Y → R)
    (x : QPat.GivenSubjectGivenPredicate Y) :
    PatHash.qGivenSubjectGivenPredicate h (x.map f) =
      PatHash.qGivenSubjectGivenPredicate (h ∘ f) x := by
  cases x <;> simp [PatHash.qGivenSubjectGivenPredicate,
    QPat.GivenSubjectGivenPredicate.map, option_map,
    qGivenSubjectGivenPredicateAnyObject_map,
    qGivenSubjectGivenPredicateGivenObject_map]

theorem qAnySubject_sd (hh : SelfDelimiting h) :
    SelfDelimiting (PatHash.qAnySubject h) := by
  intro x y l l' e
  cases x <;> cases y <;> simp only [PatHash.qAnySubject,
    List.cons_append, List.nil_append, List.append_assoc, List.cons.injEq, HashWrite.isize.injEq,
    Int.reduceEq, true_and, false_and] at e
  · obtain ⟨rfl, e1⟩ := (qAnySubjectAnyPredicate_sd hh) _ _ _ _ e
    exact ⟨rfl, e1⟩
  · obtain ⟨rfl, e1⟩ := (qAnySubjectGivenPredicate_sd hh) _ _ _ _ e
    exact ⟨rfl, e1⟩
  · obtain ⟨rfl, e1⟩ := hh _ _ _ _ e
    obtain ⟨rfl, e2⟩ := (qAnySubjectGivenPredicate_sd hh) _ _ _ _ e1
    exact ⟨rfl, e2⟩

theorem qAnySubject_map (f : Y → R)
    (x : QPat.AnySubject Y) :
    PatHash.qAnySubject h (x.map f) =
      PatHash.qAnySubject (h ∘ f) x := by
  cases x <;> simp [PatHash.qAnySubject,
    QPat.AnySubject.map, option_map,
    qAnySubjectAnyPredicate_map,
    qAnySubjectGivenPredicate_map]

theorem qGivenSubject_sd (hh : SelfDelimiting h) :
    SelfDelimiting (PatHash.qGivenSubject h) := by
  intro x y l l' e
  cases x <;> cases y <;> simp only [PatHash.qGivenSubject,
    List.cons_append, List.nil_append, List.append_assoc, List.cons.injEq, HashWrite.isize.injEq,
    Int.reduceEq, true_and, false_and] at e
  · obtain ⟨rfl, e1⟩ := (qGivenSubjectAnyPredicate_sd hh) _ _ _ _ e
    exact ⟨rfl, e1⟩
  · obtain ⟨rfl, e1⟩ := hh _ _ _ _ e
    obtain ⟨rfl, e2⟩ := (qGivenSubjectGivenPredicate_sd hh) _ _ _ _ e1
    exact ⟨rfl, e2⟩

theorem qGivenSubject_map (f : Y → R)
    (x : QPat.GivenSubject Y) :
    PatHash.qGivenSubject h (x.map f) =
      PatHash.qGivenSubject (h ∘ f) x := by
  cases x <;> simp [PatHash.qGivenSubject,
    QPat.GivenSubject.map, option_map,
    qGivenSubjectAnyPredicate_map,
    qGivenSubjectGivenPredicate_map]

theorem quadPattern_sd (hh : SelfDelimiting h) :
    SelfDelimiting (PatHash.quadPattern h) := by
  intro x y l l' e
  cases x <;> cases y <;> simp only [PatHash.quadPattern,
    List.cons_append, List.nil_append, List.append_assoc, List.cons.injEq, HashWrite.isize.injEq,
    Int.reduceEq, true_and, false_and] at e
  · obtain ⟨rfl, e1⟩ := (qAnySubject_sd hh) _ _ _ _ e
    exact ⟨rfl, e1⟩
  · obtain ⟨rfl, e1⟩ := hh _ _ _ _ e
    obtain ⟨rfl, e2⟩ := (qGivenSubject_sd hh) _ _ _ _ e1
    exact ⟨rfl, e2⟩

theorem quadPattern_map (f : Y → R)
    (x : CanonicalQuadPattern Y) :
    PatHash.quadPattern h (x.map f) =
      PatHash.quadPattern (h ∘ f) x := by
  cases x <;> simp [PatHash.quadPattern,
    CanonicalQuadPattern.map, option_map,
    qAnySubject_map,
    qGivenSubject_map]

end PatternHash

end RdfTypes.Proof
