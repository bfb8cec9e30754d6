import Verif.Spec.Debugging
import Verif.Spec.DebugTerms
import Verif.Model.DebugPatterns

/-!
# The text of a pattern for `{:?}` and `{:#?}`
-/

namespace RdfTypes.Spec

variable {R X : Type}

/-- The word for the subject of a pattern, and the term given. -/
def subjectWord : PatternSubject R → Text × Option R
  | .any => (['A', 'n', 'y', 'S', 'u', 'b', 'j', 'e', 'c', 't'], none)
  | .given x => (['G', 'i', 'v', 'e', 'n', 'S', 'u', 'b', 'j', 'e', 'c', 't'], some x)

/-- The word for the predicate. -/
def predicateWord : PatternPredicate R → Text × Option R
  | .any => (['A', 'n', 'y', 'P', 'r', 'e', 'd', 'i', 'c', 'a', 't', 'e'], none)
  | .sameAsSubject => (['S', 'a', 'm', 'e', 'A', 's', 'S', 'u', 'b', 'j', 'e', 'c', 't'], none)
  | .given x => (['G', 'i', 'v', 'e', 'n', 'P', 'r', 'e', 'd', 'i', 'c', 'a', 't', 'e'], some x)

/-- The word for the object. -/
def objectWord : PatternObject R → Text × Option R
  | .any => (['A', 'n', 'y', 'O', 'b', 'j', 'e', 'c', 't'], none)
  | .sameAsSubject => (['S', 'a', 'm', 'e', 'A', 's', 'S', 'u', 'b', 'j', 'e', 'c', 't'], none)
  | .sameAsPredicate =>
    (['S', 'a', 'm', 'e', 'A', 's', 'P', 'r', 'e', 'd', 'i', 'c', 'a', 't', 'e'], none)
  | .given x => (['G', 'i', 'v', 'e', 'n', 'O', 'b', 'j', 'e', 'c', 't'], some x)

/-- The word for the graph. -/
def graphWord : PatternGraph R → Text × Option (Option R)
  | .any => (['A', 'n', 'y', 'G', 'r', 'a', 'p', 'h'], none)
  | .sameAsSubject => (['S', 'a', 'm', 'e', 'A', 's', 'S', 'u', 'b', 'j', 'e', 'c', 't'], none)
  | .sameAsPredicate =>
    (['S', 'a', 'm', 'e', 'A', 's', 'P', 'r', 'e', 'd', 'i', 'c', 'a', 't', 'e'], none)
  | .sameAsObject => (['S', 'a', 'm', 'e', 'A', 's', 'O', 'b', 'j', 'e', 'c', 't'], none)
  | .given x => (['G', 'i', 'v', 'e', 'n', 'G', 'r', 'a', 'p', 'h'], some x)

/-- The last word on one line, with what is given after it. -/
def lastOnLine (f : X → Text) : Text × Option X → Text
  | (w, none) => w
  | (w, some x) => w ++ ['('] ++ f x ++ [')']

/-- Words on one line, each around the term given and the words after it. -/
def wordsOnLine (f : R → Text) : List (Text × Option R) → Text → Text
  | [], e => e
  | (w, none) :: l, e => w ++ ['('] ++ wordsOnLine f l e ++ [')']
  | (w, some r) :: l, e => w ++ ['('] ++ f r ++ [',', ' '] ++ wordsOnLine f l e ++ [')']

/-- The lines of the last word, with those of what is given between. -/
def lastLines (f : X → List Text) : Text × Option X → List Text
  | (w, none) => [w]
  | (w, some x) => [w ++ ['(']] ++ shifted 4 (closed (f x)) ++ [[')']]

/-- The lines of words, each around the term given and the words after it. -/
def wordsLines (f : R → List Text) : List (Text × Option R) → List Text → List Text
  | [], e => e
  | (w, none) :: l, e => [w ++ ['(']] ++ shifted 4 (closed (wordsLines f l e)) ++ [[')']]
  | (w, some r) :: l, e =>
    [w ++ ['(']] ++ shifted 4 (closed (f r)) ++ shifted 4 (closed (wordsLines f l e)) ++ [[')']]

/-- The lines of a graph name on its own. -/
def nameLines (f : R → List Text) : Option R → List Text
  | none => [['N', 'o', 'n', 'e']]
  | some g => [['S', 'o', 'm', 'e', '(']] ++ shifted 4 (closed (f g)) ++ [[')']]

/-- The word for a term or variable, and the text of it. -/
def variableWord (f : R → X) {V : Type} (fx : V → X) : ResourceOrVar R V → Text × X
  | .resource r => (['R', 'e', 's', 'o', 'u', 'r', 'c', 'e'], f r)
  | .var x => (['V', 'a', 'r'], fx x)

end RdfTypes.Spec
