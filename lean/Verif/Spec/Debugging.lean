import Verif.Model.Debugging

/-!
# The text of a set of statements for `{:?}` and `{:#?}`
-/

namespace RdfTypes.Spec

variable {R : Type}

/-- That many spaces. -/
def spaces (n : Nat) : Text := List.replicate n ' '

/-- Texts with something between them. -/
def between (sep : Text) : List Text → Text
  | [] => []
  | [t] => t
  | t :: l => t ++ sep ++ between sep l

/-- A graph name on one line. -/
def graphOnLine (f : R → Text) : Option R → Text
  | none => ['N', 'o', 'n', 'e']
  | some g => ['S', 'o', 'm', 'e', '('] ++ f g ++ [')']

/-- A quad on one line. -/
def quadOnLine (f : R → Text) (q : Quad R) : Text :=
  ['Q', 'u', 'a', 'd', '('] ++ between [',', ' '] [f q.s, f q.p, f q.o, graphOnLine f q.g] ++ [')']

/-- A triple on one line. -/
def tripleOnLine (f : R → Text) (t : Triple R) : Text :=
  ['T', 'r', 'i', 'p', 'l', 'e', '('] ++ between [',', ' '] [f t.s, f t.p, f t.o] ++ [')']

/-- A set on one line. -/
def setOnLine (l : List Text) : Text := ['{'] ++ between [',', ' '] l ++ ['}']

/-- The lines of a text. -/
def linesOf : Text → List Text
  | [] => [[]]
  | c :: t =>
    if c = '\n' then [] :: linesOf t
    else
      match linesOf t with
      | [] => [[c]]
      | x :: l => (c :: x) :: l

/-- Lines with that many spaces before each. -/
def shifted (n : Nat) (l : List Text) : List Text := l.map (spaces n ++ ·)

/-- Lines with a comma after the last. -/
def closed : List Text → List Text
  | [] => []
  | [t] => [t ++ [',']]
  | t :: l => t :: closed l

/-- The lines of a graph name. -/
def graphLines (f : R → Text) : Option R → List Text
  | none => [spaces 8 ++ ['N', 'o', 'n', 'e', ',']]
  | some g =>
    [spaces 8 ++ ['S', 'o', 'm', 'e', '(']] ++ shifted 12 (closed (linesOf (f g))) ++
      [spaces 8 ++ [')', ',']]

/-- The lines of another term. -/
def termLines (f : R → Text) (r : R) : List Text := shifted 8 (closed (linesOf (f r)))

/-- The lines of a quad. -/
def quadLines (f : R → Text) (q : Quad R) : List Text :=
  [spaces 4 ++ ['Q', 'u', 'a', 'd', '(']] ++ termLines f q.s ++ termLines f q.p ++
    termLines f q.o ++ graphLines f q.g ++ [spaces 4 ++ [')', ',']]

/-- The lines of a triple. -/
def tripleLines (f : R → Text) (t : Triple R) : List Text :=
  [spaces 4 ++ ['T', 'r', 'i', 'p', 'l', 'e', '(']] ++ termLines f t.s ++ termLines f t.p ++
    termLines f t.o ++ [spaces 4 ++ [')', ',']]

/-- The text of a set that has these lines. -/
def setOfLines (l : List Text) : Text :=
  if l = [] then ['{', '}'] else between ['\n'] ([['{']] ++ l ++ [['}']])

/-- The end of the text of a term can be told, when a comma or a parenthesis follows. -/
def Delimited (f : R → Text) : Prop :=
  ∀ a b c d t u, c = ',' ∨ c = ')' → d = ',' ∨ d = ')' → f a ++ c :: t = f b ++ d :: u → a = b

end RdfTypes.Spec
