import Verif.Model.Shell

/-! What the interactive prompt should do with a sequence of lines, given what parses. -/

namespace Dune.Spec

/-- The text of some lines. -/
def textOfLines (ls : List Str) : Str := List.intercalate ['\n'] ls

/-- Lines that keep the prompt waiting: none is empty, and at no line the text so far is a script. -/
def Waiting (parse : Str → Outcome Expr) (ls : List Str) : Prop :=
  ∀ pre l post, ls = pre ++ l :: post → l ≠ [] ∧ ∃ e, parse (textOfLines (pre ++ [l])) = .err e

/-- Lines that are done with. -/
inductive Chunk
  /-- they were accepted as this script -/
  | run (ls : List Str) (e : Expr)
  /-- they were given up with this error -/
  | drop (ls : List Str) (e : Error)

namespace Chunk

def lines : Chunk → List Str
  | run ls _ => ls
  | drop ls _ => ls

/-- The scripts to evaluate. -/
def scripts : List Chunk → List Expr
  | [] => []
  | run _ e :: cs => e :: scripts cs
  | drop _ _ :: cs => scripts cs

/-- A chunk ends at the first line with which the text is a script, or at the first empty line. -/
inductive Ok (parse : Str → Outcome Expr) : Chunk → Prop
  | run {ls l e} : Waiting parse ls → parse (textOfLines (ls ++ [l])) = .ok e →
      Ok parse (.run (ls ++ [l]) e)
  | drop {ls e} : Waiting parse ls → parse (textOfLines (ls ++ [[]])) = .err e →
      Ok parse (.drop (ls ++ [[]]) e)

end Chunk

/-- The last line makes the parser crash. -/
def Crash (parse : Str → Outcome Expr) (ls : List Str) : Prop :=
  ∃ pre l post, ls = pre ++ l :: post ∧ Waiting parse pre ∧
    (∀ e, parse (textOfLines (pre ++ [l])) ≠ .ok e) ∧
    ∀ e, parse (textOfLines (pre ++ [l])) ≠ .err e

end Dune.Spec
