import Verif.Proof.Concrete
import Verif.Property.Records
import Verif.Proof.Marks

/-!
# C72: what the lists of terms contain, after every history

C63 and C64 say what the lists of subjects, predicates, objects and graph names contain
when a resource is repeated within an inserted statement only if it already occurs. These
theorems say it after every history, from the records of C70.
-/

set_option linter.unusedSectionVars false

namespace RdfTypes.Property

open Container Spec

variable {R : Type} [Ord R] [Std.TransOrd R] [Std.LawfulEqOrd R] [DecidableEq R]

/-- The events of every history split into those before the conversion and those since, so
the theorems below apply to it. -/
theorem C72_every_history (rep : Bool) :
    (∀ (d : IndexedBTreeDataset R) m, DatasetEvents rep d m ↔
      ∃ l₀ l, m = l ++ l₀ ∧ Since (DatasetStart rep) (DatasetCall rep) d l₀ l) ∧
    ∀ (d : IndexedBTreeGraph R) m, GraphEvents rep d m ↔
      ∃ l₀ l, m = l ++ l₀ ∧ Since (GraphStart rep) (GraphCall rep) d l₀ l := by
  refine ⟨fun d m => ⟨IndexedBTreeDataset.events_since, ?_⟩,
    fun d m => ⟨IndexedBTreeGraph.events_since, ?_⟩⟩
  · rintro ⟨l₀, l, rfl, h⟩
    exact IndexedBTreeDataset.since_events h
  · rintro ⟨l₀, l, rfl, h⟩
    exact IndexedBTreeGraph.since_events h

/-- `subjects`, `predicates` and `objects` of a dataset list each resource as often as it
has records listed at that position, and the counts count them. -/
theorem C72_dataset_lists (rep : Bool) {d : IndexedBTreeDataset R} {l₀ l : List (Event (Quad R))}
    (h : Since (DatasetStart rep) (DatasetCall rep) d l₀ l) :
    ListsRecords rep quadAt (fun r => listedAt rep quadAt r l₀ .subj l) (l ++ l₀) d.subjectList
      d.subjectCount ∧
    ListsRecords rep quadAt (fun r => listedAt rep quadAt r l₀ .pred l) (l ++ l₀) d.predicateList
      d.predicateCount ∧
    ListsRecords rep quadAt (fun r => listedAt rep quadAt r l₀ .obj l) (l ++ l₀) d.objectList
      d.objectCount :=
  ⟨IndexedBTreeDataset.since_lists (by simp) h, IndexedBTreeDataset.since_lists (by simp) h,
    IndexedBTreeDataset.since_lists (by simp) h⟩

/-- The same for a graph. -/
theorem C72_graph_lists (rep : Bool) {d : IndexedBTreeGraph R} {l₀ l : List (Event (Triple R))}
    (h : Since (GraphStart rep) (GraphCall rep) d l₀ l) :
    ListsRecords rep tripleAt (fun r => listedAt rep tripleAt r l₀ .subj l) (l ++ l₀) d.subjectList
      d.subjectCount ∧
    ListsRecords rep tripleAt (fun r => listedAt rep tripleAt r l₀ .pred l) (l ++ l₀)
      d.predicateList d.predicateCount ∧
    ListsRecords rep tripleAt (fun r => listedAt rep tripleAt r l₀ .obj l) (l ++ l₀) d.objectList
      d.objectCount :=
  ⟨IndexedBTreeGraph.since_lists (by simp) h, IndexedBTreeGraph.since_lists (by simp) h,
    IndexedBTreeGraph.since_lists (by simp) h⟩

/-- As long as a record listed as a graph name is emptied only as a graph name,
`named_graphs` lists each resource as often as it has records listed as graph name, and
the count counts them. -/
theorem C72_names (rep : Bool) {d : IndexedBTreeDataset R} {l₀ l : List (Event (Quad R))}
    (h : Since (DatasetStart rep) (DatasetCall rep) d l₀ l) (hl : EmptiedAsName rep quadAt l₀ l) :
    ListsRecords rep quadAt (fun r => named rep quadAt r l₀ l) (l ++ l₀) d.namedGraphList
      d.namedGraphCount :=
  IndexedBTreeDataset.since_names h hl

/-- As soon as such a record is emptied otherwise, `named_graphs` panics. -/
theorem C72_names_panic (rep : Bool) {d : IndexedBTreeDataset R} {e : Event (Quad R)}
    {l₀ l : List (Event (Quad R))} (h : Since (DatasetStart rep) (DatasetCall rep) d l₀ (e :: l))
    (hl : EmptiedAsName rep quadAt l₀ l) (ho : EmptiedOtherwise rep quadAt l₀ (e :: l)) :
    d.namedGraphList = .error .invalidKey :=
  IndexedBTreeDataset.since_stale h hl ho

/-- Once `named_graphs` panics it goes on panicking, until a new quad is inserted that has a term
which `contains_resource` denies. -/
theorem C72_panic_stays (rep : Bool) {d d' : IndexedBTreeDataset R} {m : List (Event (Quad R))}
    (h : DatasetEvents rep d m) {p : Panic} (hp : d.namedGraphList = .error p) {e : Event (Quad R)}
    (c : DatasetCall rep d e d')
    (hc : ∀ x, e = .added x → d.contains x = .ok true ∨
      ∀ pos r, quadAt x pos = some r → d.containsResource r = .ok true) :
    d'.namedGraphList = .error .invalidKey := by
  refine IndexedBTreeDataset.panic_stays h hp c fun x hx => (hc x hx).imp (fun hd => ?_)
    fun hr pos r e => ?_
  · obtain ⟨b, hb, hbi⟩ := IndexedBTreeDataset.contains_spec
      (IndexedBTreeDataset.events_follow h).1 x
    rw [hd] at hb
    cases hb
    exact hbi.1 rfl
  · obtain ⟨rs, -, -, hl⟩ := (C70_lists rep).2.2.1 d m h
    have := hr pos r e
    rw [(hl r).2] at this
    exact Except.ok.inj this

/-- After every history, `remove_graph` takes out exactly the quads in the current record
of the graph name. -/
theorem C72_remove_graph (rep : Bool) {d : IndexedBTreeDataset R} {m : List (Event (Quad R))}
    (h : DatasetEvents rep d m) : TakesCurrent rep d m :=
  IndexedBTreeDataset.events_takes h

/-- In the histories of `C72_names`, `remove_graph` returns a graph exactly if the current
record of the graph name is listed as a graph name. -/
theorem C72_remove_graph_some (rep : Bool) {d d' : IndexedBTreeDataset R}
    {l₀ l : List (Event (Quad R))} (h : Since (DatasetStart rep) (DatasetCall rep) d l₀ l)
    (hl : EmptiedAsName rep quadAt l₀ l) (g : R) {out : Option (BTreeGraph R)}
    (e : d.removeGraph rep (some g) = .ok (d', out)) :
    out.isSome = true ↔ (recordsOf rep quadAt g (l ++ l₀)).listed = true ∧
      named rep quadAt g l₀ l (recordsOf rep quadAt g (l ++ l₀)).current = true :=
  IndexedBTreeDataset.since_isSome h hl g e

/-! ## Cases -/

/-- The events of a list of calls. -/
def eventsOf {S : Type} : List (Op S) → List (Event S) → List (Event S)
  | [], l => l
  | .insert x :: ops, l => eventsOf ops (.added x :: l)
  | .remove x :: ops, l => eventsOf ops (.taken [x] :: l)
  | .extend xs :: ops, l => eventsOf ops (xs.foldl (fun l x => .added x :: l) l)

/-- Insertions and removals only. -/
def plainOps {S : Type} : List (Op S) → Bool
  | [] => true
  | .extend _ :: _ => false
  | _ :: ops => plainOps ops

theorem run_since (rep : Bool) {l₀ : List (Event (Quad R))} {ops : List (Op (Quad R))} :
    ∀ {d : IndexedBTreeDataset R} {l : List (Event (Quad R))},
    Since (DatasetStart rep) (DatasetCall rep) d l₀ l → plainOps ops = true →
    ∃ d', (IndexedBTreeDataset.container rep R).run d ops = .ok d' ∧
      Since (DatasetStart rep) (DatasetCall rep) d' l₀ (eventsOf ops l) := by
  induction ops with
  | nil => exact fun h _ => ⟨_, rfl, h⟩
  | cons op ops ih =>
    intro d l h hp
    have hw := (IndexedBTreeDataset.events_follow (IndexedBTreeDataset.since_events h)).1
    cases op with
    | insert x =>
      obtain ⟨d1, b, e, -⟩ := IndexedBTreeDataset.insert_spec rep hw x
      obtain ⟨d2, e2, h2⟩ := ih (.call h (.insert e)) hp
      refine ⟨d2, ?_, h2⟩
      simp only [run, step, IndexedBTreeDataset.container, bind, Except.bind, pure, Except.pure] at e2 ⊢
      rw [e]
      exact e2
    | remove x =>
      obtain ⟨d1, b, e, -⟩ := IndexedBTreeDataset.remove_spec hw x
      obtain ⟨d2, e2, h2⟩ := ih (.call h (.remove e)) hp
      refine ⟨d2, ?_, h2⟩
      simp only [run, step, IndexedBTreeDataset.container, bind, Except.bind, pure, Except.pure] at e2 ⊢
      rw [e]
      exact e2
    | extend x => cases hp

/-- Resource 1 gets two records from the first quad, and the second quad goes to the one
that has no subject yet. -/
def doubleOps : List (Op (Quad Nat)) := [.insert ⟨1, 1, 2, none⟩, .insert ⟨1, 3, 4, none⟩]

/-- After `doubleOps` both records of resource 1 are listed as subjects. After the second
quad is removed again, only one is, and it is not the current one. -/
example : ∃ d d',
    (IndexedBTreeDataset.container true Nat).run IndexedBTreeDataset.new doubleOps = .ok d ∧
    Since (DatasetStart true) (DatasetCall true) d [] (eventsOf doubleOps []) ∧
    recordsOf true quadAt 1 (eventsOf doubleOps []) =
      ⟨true, [[(⟨1, 1, 2, none⟩, .pred), (⟨1, 3, 4, none⟩, .subj)], [(⟨1, 1, 2, none⟩, .subj)]]⟩ ∧
    d.subjectList = .ok [1, 1] ∧
    Since (DatasetStart true) (DatasetCall true) d' []
      (eventsOf (doubleOps ++ [.remove ⟨1, 3, 4, none⟩]) []) ∧
    (∃ rs, d'.subjectList = .ok rs ∧ rs.count 1 = 1) ∧
    listedAt true quadAt 1 [] .subj (eventsOf (doubleOps ++ [.remove ⟨1, 3, 4, none⟩]) [])
      [(⟨1, 1, 2, none⟩, .pred)] = false := by
  obtain ⟨d, e, h⟩ := run_since true (.start (.new (R := Nat))) (ops := doubleOps) rfl
  obtain ⟨d', e', h'⟩ := run_since true (.start (.new (R := Nat)))
    (ops := doubleOps ++ [.remove ⟨1, 3, 4, none⟩]) rfl
  have hl : ((IndexedBTreeDataset.container true Nat).run IndexedBTreeDataset.new doubleOps).bind
      (·.subjectList) = .ok [1, 1] := by decide
  rw [e] at hl
  obtain ⟨⟨rs, e1, -, hc⟩, -⟩ := C72_dataset_lists true h'
  exact ⟨d, d', e, h, by decide, hl, h', ⟨rs, e1, by rw [hc]; decide⟩, by decide⟩

/-- After `dropOps` the record of resource 1 is not listed as a subject; had the same calls
been made on a `BTreeDataset` and this been converted, it would be. -/
example : (∃ d, Since (DatasetStart true) (DatasetCall true) d [] (eventsOf dropOps []) ∧
      ∃ rs, d.subjectList = .ok rs ∧ rs.count 1 = 0) ∧
    ∃ d, Since (DatasetStart true) (DatasetCall true) d (eventsOf dropOps []) [] ∧
      ∃ rs, d.subjectList = .ok rs ∧ rs.count 1 = 1 := by
  obtain ⟨d, e, h⟩ := run_since true (.start (.new (R := Nat))) (ops := dropOps) rfl
  obtain ⟨⟨rs, e1, -, hc⟩, -⟩ := C72_dataset_lists true h
  refine ⟨⟨d, h, rs, e1, by rw [hc]; decide⟩, ?_⟩
  have hp : ∃ g, PlainEvents (BTreeDataset.container true Nat) g (eventsOf dropOps []) := by
    obtain ⟨g1, b1, e1, w1, -⟩ := BTreeDataset.insert_spec true (d := BTreeDataset.new)
      (Inv.empty : (BTreeDataset.new : BTreeDataset Nat).WF) ⟨1, 2, 3, none⟩
    obtain ⟨g2, b2, e2, w2, -⟩ := BTreeDataset.insert_spec true w1 ⟨1, 2, 4, none⟩
    obtain ⟨g3, b3, e3, w3, -⟩ := BTreeDataset.insert_spec true w2 ⟨5, 6, 3, none⟩
    obtain ⟨g4, b4, e4, w4, -⟩ := BTreeDataset.remove_spec w3 ⟨1, 2, 3, none⟩
    exact ⟨g4, .remove (.insert (.insert (.insert .new e1) e2) e3) e4⟩
  obtain ⟨g, hg⟩ := hp
  obtain ⟨d2, e2, -⟩ := IndexedBTreeDataset.fromNonIndexed_spec (BTreeDataset.events_follow hg).1
  have h2 : Since (DatasetStart true) (DatasetCall true) d2 (eventsOf dropOps []) [] :=
    .start (.convert hg e2)
  obtain ⟨⟨rs, e1, -, hc⟩, -⟩ := C72_dataset_lists true h2
  exact ⟨d2, h2, rs, e1, by rw [hc]; decide⟩

/-- Resource 1 gets a record as subject and one as graph name. -/
def selfOps : List (Op (Quad Nat)) := [.insert ⟨1, 2, 3, some 1⟩, .remove ⟨1, 2, 3, some 1⟩]

theorem selfOps_emptied (rep : Bool) : EmptiedAsName rep quadAt [] (eventsOf selfOps []) := by
  refine ⟨trivial, ?_⟩
  intro r g hg hn hall
  have hp : ∀ p, (⟨1, 2, 3, some 1⟩, p) ∈ g → g = [(⟨1, 2, 3, some 1⟩, p)] := by
    simp only [List.append_nil, recordsOf, Records.enter, Records.none] at hg
    split at hg
    · cases hg
    · simp only [List.mem_map] at hg
      obtain ⟨p', -, rfl⟩ := hg
      simp
  rw [named_added] at hn
  rcases hn with hn | ⟨g₀, hg₀, -⟩
  · rw [hp _ hn]
    simp
  · simp [recordsOf, Records.none] at hg₀

/-- The quad of `selfOps` comes as graph name to one record of resource 1 and as subject to
the other, and both are emptied by its removal, with no panic. -/
example : ∃ d, Since (DatasetStart true) (DatasetCall true) d [] (eventsOf selfOps []) ∧
    EmptiedAsName true quadAt [] (eventsOf selfOps []) ∧ d.namedGraphList = .ok [] := by
  obtain ⟨d, e, h⟩ := run_since true (.start (.new (R := Nat))) (ops := selfOps) rfl
  have hl : ((IndexedBTreeDataset.container true Nat).run IndexedBTreeDataset.new selfOps).bind
      (·.namedGraphList) = .ok [] := by decide
  rw [e] at hl
  exact ⟨d, h, selfOps_emptied true, hl⟩

/-- Resource 4 is the name of the graph of a quad, then only a subject, then gone. -/
example : ∃ d, Since (DatasetStart true) (DatasetCall true) d []
      (eventsOf (staleOps ++ [.remove ⟨4, 5, 6, none⟩]) []) ∧
    EmptiedAsName true quadAt [] (eventsOf staleOps []) ∧
    EmptiedOtherwise true quadAt [] (eventsOf (staleOps ++ [.remove ⟨4, 5, 6, none⟩]) []) ∧
    d.namedGraphList = .error .invalidKey := by
  obtain ⟨d, e, h⟩ := run_since true (.start (.new (R := Nat)))
    (ops := staleOps ++ [.remove ⟨4, 5, 6, none⟩]) rfl
  have hE : EmptiedAsName true quadAt [] (eventsOf staleOps []) := by
    refine ⟨trivial, ?_⟩
    intro r
    have small : r = 0 ∨ r = 1 ∨ r = 2 ∨ r = 3 ∨ r = 4 ∨ r = 5 ∨ r = 6 ∨ 6 < r := by omega
    rcases small with rfl | rfl | rfl | rfl | rfl | rfl | rfl | hr
    all_goals try decide
    intro g hg
    have h0 : ∀ y : Quad Nat, y = ⟨1, 2, 3, some 4⟩ ∨ y = ⟨4, 5, 6, none⟩ →
        positionsOf (quadAt y) r = [] := by
      rintro y (rfl | rfl) <;>
        simp only [positionsOf, quadAt, List.filter_eq_nil_iff, List.mem_cons, List.not_mem_nil,
          or_false, forall_eq_or_imp, forall_eq, Option.some.injEq, decide_eq_true_eq,
          reduceCtorEq, not_false_eq_true, and_true] <;> omega
    simp [recordsOf, Records.enter, Records.none, h0] at hg
  have hO : EmptiedOtherwise true quadAt []
      (eventsOf (staleOps ++ [.remove ⟨4, 5, 6, none⟩]) []) :=
    ⟨4, [(⟨4, 5, 6, none⟩, .subj)], by decide, by decide, by decide, by decide⟩
  exact ⟨d, h, hE, hO, C72_names_panic true h hE hO⟩

/-- It panics again after a quad of known terms is inserted. -/
example : ∃ d d' b, (IndexedBTreeDataset.container true Nat).run IndexedBTreeDataset.new
      (.insert ⟨1, 2, 3, none⟩ :: staleOps ++ [.remove ⟨4, 5, 6, none⟩]) = .ok d ∧
    d.insert true ⟨3, 2, 1, some 1⟩ = .ok (d', b) ∧ d'.namedGraphList = .error .invalidKey := by
  obtain ⟨d, e, h⟩ := run_since true (.start (.new (R := Nat)))
    (ops := .insert ⟨1, 2, 3, none⟩ :: staleOps ++ [.remove ⟨4, 5, 6, none⟩]) rfl
  have h := IndexedBTreeDataset.since_events h
  have h0 : ((IndexedBTreeDataset.container true Nat).run IndexedBTreeDataset.new
      (.insert ⟨1, 2, 3, none⟩ :: staleOps ++ [.remove ⟨4, 5, 6, none⟩])).bind (·.namedGraphList) =
      .error .invalidKey := by decide
  have h1 : ∀ r ∈ [1, 2, 3], ((IndexedBTreeDataset.container true Nat).run IndexedBTreeDataset.new
      (.insert ⟨1, 2, 3, none⟩ :: staleOps ++ [.remove ⟨4, 5, 6, none⟩])).bind
        (·.containsResource r) = .ok true := by decide
  rw [e] at h0
  simp only [e] at h1
  obtain ⟨d', b, e', -⟩ := IndexedBTreeDataset.insert_spec true
    (IndexedBTreeDataset.events_follow h).1 ⟨3, 2, 1, some 1⟩
  refine ⟨d, d', b, e, e', C72_panic_stays true h h0 (.insert e') ?_⟩
  rintro x ⟨⟩
  refine .inr fun pos r hr => h1 r ?_
  cases pos <;> cases hr <;> simp

/-- The lists of `Case.indexedGraph`, and a graph taken out of `Case.indexedDataset`. -/
example : (∃ l₀ l, Since (GraphStart true) (GraphCall true) Case.indexedGraph l₀ l ∧
      ListsRecords true tripleAt (fun r => listedAt true tripleAt r l₀ .subj l) (l ++ l₀)
        Case.indexedGraph.subjectList Case.indexedGraph.subjectCount) ∧
    ∃ m, DatasetEvents true Case.indexedDataset m ∧ TakesCurrent true Case.indexedDataset m := by
  obtain ⟨m, h⟩ := (C70_every_history true).2.2.2 _ _ (Case.indexedGraph_reached Case.any_triples)
  obtain ⟨l₀, l, rfl, hs⟩ := ((C72_every_history true).2 _ m).1 h
  obtain ⟨m', h'⟩ := (C70_every_history true).2.2.1 _ _
    (Case.indexedDataset_reached Case.any_quads)
  exact ⟨⟨l₀, l, hs, (C72_graph_lists true hs).1⟩, m', h', C72_remove_graph true h'⟩

/-- After `selfOps` resource 1 is not listed as graph name, and there is no graph to remove. -/
example : ∃ d, Since (DatasetStart true) (DatasetCall true) d [] (eventsOf selfOps []) ∧
    (∃ rs, d.namedGraphList = .ok rs ∧ rs.count 1 = 0) ∧
    ∀ d' out, d.removeGraph true (some 1) = .ok (d', out) → out = none := by
  obtain ⟨d, -, h⟩ := run_since true (.start (.new (R := Nat))) (ops := selfOps) rfl
  obtain ⟨rs, e, -, hc⟩ := C72_names true h (selfOps_emptied true)
  refine ⟨d, h, ⟨rs, e, by rw [hc]; decide⟩, fun d' out eo => ?_⟩
  have := C72_remove_graph_some true h (selfOps_emptied true) 1 eo
  cases out with
  | none => rfl
  | some g => exact absurd (this.1 rfl).1 (by decide)

end RdfTypes.Property
