import Verif.Model.Builtins

/-!
`help` (src/binary/init/mod.rs:63-100).

The seven pages (src/binary/help/*.txt) and the help texts that the builtins carry are parameters.  The shell writes
a page with `println!(include_str!(..))`, which takes the file for a format string; the parameter is what is written.
-/

namespace Dune.Builtins

open BProg

/-- the arms of the `match` that compare with a word (mod.rs:68-88) -/
def pageOf : Expr → Option Str
  | .symbol s =>
    if s = c!"me" ∨ s = c!"prelude" ∨ s = c!"types" ∨ s = c!"scripting" ∨ s = c!"builtin" ∨ s = c!"lib" ∨
      s = c!"syntax" then some s else none
  | _ => none

/-- `help` (mod.rs:65-98) -/
def helpB (pages : Str → Str) : List Expr → BProg Expr
  | [] => .ret .none
  | a :: as =>
    match pageOf a with
    | some s => do
      out (pages s ++ c!"\n")
      helpB pages as
    | none => do
      match ← ev a with
      | .builtin _ _ help =>
        out (help ++ c!"\n")
        helpB pages as
      | _ => helpB pages as

end Dune.Builtins
