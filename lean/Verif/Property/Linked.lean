import Verif.Proof.Linked
import Verif.Spec.Linked

/-!
# C94: the slab of the crate `slab` answers as the slab of the model

The model describes `slab::Slab` with a stack of vacant keys. The crate keeps the vacant entries in
a linked list threaded through the entries. From a new slab on, both answer every list of calls
alike, also after the conversion to an indexed container.
-/

namespace RdfTypes.Property

open Spec

variable {α β : Type}

/-- A new slab with a linked list answers every list of calls as one with a stack. -/
theorem C94_session : AnswerAlike (LinkedSlab.empty : LinkedSlab α) Slab.empty :=
  fun l => (LinkedSlab.keeps_empty.askAll l).1

/-- After any list of calls, collecting the values of the slab with a linked list succeeds, and the
slab that it gives answers every further list of calls as the one with a stack. -/
theorem C94_conversion (l : List (SlabCall α)) (f : α → β) :
    ∃ t, (askAll askLinked LinkedSlab.empty l).2.mapCollect f = .ok t ∧
      AnswerAlike t ((askAll askStack Slab.empty l).2.mapCollect f) := by
  obtain ⟨t, e, h⟩ := (LinkedSlab.keeps_empty.askAll l).2.mapCollect f
  exact ⟨t, e, fun l' => (h.askAll l').1⟩

/-- After any list of calls, the iterator over the slab with a linked list gives the keys that can
be read and their values, the keys ascending. -/
theorem C94_iteration (l : List (SlabCall α)) :
    let t := (askAll askLinked LinkedSlab.empty l).2
    t.pairs.Pairwise (fun x y => x.1 < y.1) ∧
      ∀ k v, (k, v) ∈ t.pairs ↔ (askAll askStack Slab.empty l).2.index k = .ok v :=
  ⟨LinkedSlab.pairs_ascending _, fun _ _ => (LinkedSlab.keeps_empty.askAll l).2.mem_pairs⟩

/-- Three values, of which the first and then the second are removed. -/
def slabCalls : List (SlabCall Nat) :=
  [.insert 10, .insert 11, .insert 12, .remove 0, .remove 1]

/-- The key removed last is reused first; a key that is vacant panics. -/
example : (askAll askLinked LinkedSlab.empty (slabCalls ++
    [.index 1, .vacantKey, .insert 20, .insert 21, .insert 22, .index 0, .len])).1 =
    [.number 0, .number 1, .number 2, .value 10, .value 11,
      .panic, .number 1, .number 1, .number 0, .number 3, .value 21, .number 4] := by
  decide +kernel

/-- The links of the slab after these calls. -/
example : (askAll askLinked LinkedSlab.empty slabCalls).2 =
    ⟨[.vacant 3, .vacant 0, .occupied 12], 1, 1⟩ := by
  decide +kernel

/-- Iterating passes over the holes. -/
example : (askAll askLinked LinkedSlab.empty (slabCalls ++ [.insert 13])).2.pairs =
    [(1, 13), (2, 12)] := by
  decide +kernel

/-- The conversion links the holes anew. -/
example : (((askAll askLinked LinkedSlab.empty (slabCalls ++ [.insert 13, .remove 1])).2.mapCollect
    (· + 1)).toOption.map (fun t => (t, (askAll askLinked t [.insert 5, .insert 6, .insert 7]).1))) =
    some (⟨[.vacant 3, .vacant 0, .occupied 13], 1, 1⟩, [.number 1, .number 0, .number 3]) := by
  decide +kernel

end RdfTypes.Property
