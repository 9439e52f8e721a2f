import Verif.Model.Str

/-! Lines of a text, for stating what error messages show. -/

namespace Dune.Spec

/-- Zero or more complete lines. -/
def WholeLines (a : Str) : Prop := a = [] ∨ ∃ b, a = b ++ ['\n']

/-- The number of the line on which the character after `pre` stands. -/
def lineNo (pre : Str) : Nat := pre.count '\n' + 1

/-- A piece of text within one line, which does not end in a carriage return. -/
def InLine (l : Str) : Prop := '\n' ∉ l ∧ l.getLast? ≠ some '\r'

/-- The end of a line: the end of the text, or a line break. -/
def LineEnd (t : Str) : Prop := t = [] ∨ ∃ r, t = '\n' :: r ∨ t = '\r' :: '\n' :: r

/-- A line number as shown: padded to five columns. -/
def shownNo (n : Nat) : Str := List.leftpad 5 ' ' (toString n).toList

/-- Red text, as terminals show it. -/
def red (s : Str) : Str := c!"\x1b[38;5;9m" ++ s ++ c!"\x1b[m\x1b[0m"

end Dune.Spec
