import Verif.Model.Text

/-!
Completion of file names at the prompt: `complete` of `DuneHelper` (src/bin.rs:127-181).  The file name completer
of rustyline is a parameter: asked about a text and a position in it, it gives the position where the
replaced text starts and its proposals, or an error.
-/

namespace Dune.Complete

/-- A proposal: the text that is shown, and the text that is put into the line (rustyline's `Pair`). -/
structure Pair where
  shown : Str
  replacement : Str
deriving DecidableEq

/-- rustyline's `FilenameCompleter`. -/
abbrev Files := Str → Nat → Option (Nat × List Pair)

/-- the characters that end a segment (src/bin.rs:144-151) -/
def separates (c : Char) : Bool :=
  isWhitespace c || c == ';' || c == '\'' || c == '(' || c == ')' || c == '{' || c == '}' || c == '"'

/-- the loop over the characters (src/bin.rs:143-161); `i` counts characters, `pos` is in bytes -/
def segment (pos : Nat) : Nat → Str → Str → Str
  | _, seg, [] => seg
  | i, seg, c :: cs =>
    let seg := if separates c then [] else seg ++ [c]
    if i = pos then seg else segment pos (i + 1) seg cs

/-- the path asked about (src/bin.rs:163-171) -/
def pathFor (cwd seg : Str) : Str :=
  replaceStr (replaceStr (if seg = [] then cwd ++ c!"/" else pathJoin cwd seg) c!"/./" c!"/") c!"//" c!"/"

/-- `complete` (src/bin.rs:130-180); `entered` is whether the directory of the shell can be entered. -/
def complete (files : Files) (entered : Bool) (cwd line : Str) (pos : Nat) : Option (Nat × List Pair) :=
  if entered then files line pos
  else
    let path := pathFor cwd (segment pos 0 [] line)
    match files path (utf8Len path) with
    | none => none
    | some (start, pairs) =>
      some (start, pairs.map fun p => { p with replacement := line ++ replaceStr p.replacement path [] })

end Dune.Complete
