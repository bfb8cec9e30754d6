import Verif.Model.Container
import Verif.Model.Term

/-!
# `Debug` output

The texts that `{:?}` and `{:#?}` make of statements and containers. Resources have any texts.
Simplification: the other options of the formatter are fixed, and writing does not fail.
-/

namespace RdfTypes

namespace Debugging

/-- A value to be printed, by the flag `#` of the formatter. -/
abbrev Printed := Bool → Text

/-- What the `PadAdapter` of `std::fmt` makes of a text (`indexed_btree_dataset.rs` 1403): four
spaces begin each line. The flag says whether a line is about to begin. -/
def indent : Bool → Text → Text
  | _, [] => []
  | true, c :: t => ' ' :: ' ' :: ' ' :: ' ' :: c :: indent (c == '\n') t
  | false, c :: t => c :: indent (c == '\n') t

/-- The items written by `DebugTuple` and `DebugSet` of `std::fmt`, between `o` and `c`:
`indexed_btree_dataset.rs` 1403, and the derived `Debug` of `quad.rs` 14 and `triple.rs` 12. -/
def items (o : Text) (l : List Printed) (c : Text) : Printed := fun alternate =>
  match l with
  | [] => o ++ c
  | x :: l =>
    if alternate then
      o ++ '\n' :: (x :: l).flatMap (fun y => indent true (y true ++ [',', '\n'])) ++ c
    else o ++ x false ++ l.flatMap (fun y => ',' :: ' ' :: y false) ++ c

/-- `Debug` of `Option`, for the graph of a quad: `quad.rs` 14-16. -/
def option {G : Type} (f : G → Printed) : Option G → Printed
  | none => fun _ => ['N', 'o', 'n', 'e']
  | some g => items ['S', 'o', 'm', 'e', '('] [f g] [')']

/-- The derived `Debug` of `Quad`: `quad.rs` 14-16. -/
def quad {S P O G : Type} (fs : S → Printed) (fp : P → Printed) (fo : O → Printed)
    (fg : G → Printed) (q : Quad S P O G) : Printed :=
  items ['Q', 'u', 'a', 'd', '('] [fs q.s, fp q.p, fo q.o, option fg q.g] [')']

/-- The derived `Debug` of `Triple`: `triple.rs` 12-14. -/
def triple {S P O : Type} (fs : S → Printed) (fp : P → Printed) (fo : O → Printed)
    (t : Triple S P O) : Printed :=
  items ['T', 'r', 'i', 'p', 'l', 'e', '('] [fs t.s, fp t.p, fo t.o] [')']

/-- `Debug` of the containers: `btree_dataset.rs` 440-444, `btree_graph.rs` 414-418,
`indexed_btree_dataset.rs` 1401-1405, `indexed_btree_graph.rs` 820-824. Simplification: the
iteration is run before the writes. -/
def container {S D : Type} (c : Container S D) (w : S → Printed) (d : D) : Res Printed := do
  let xs ← c.iter d
  return items ['{'] (xs.map w) ['}']

end Debugging

end RdfTypes
