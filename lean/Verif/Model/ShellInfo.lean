import Verif.Model.Start

/-!
The module `shell` (src/binary/init/shell_module.rs).  All its members are computed once, when the shell starts.  A path
that is not Unicode makes the start panic; here the paths are texts.
-/

namespace Dune.Init

/-- What the module depends on: the version, the path of the program, whether `.dune-prelude` exists in the home
directory when the shell starts, and the random choice. -/
structure ShellInfo where
  version : Str
  exe : Option Str
  preludeThere : Bool
  pick : Nat

/-- src/binary/help/suggestions.txt -/
def suggestionsText : Str :=
  c!"`std` contains all the standard library builtins!\n" ++
  c!"Use `>>` and `>>>` to write and append to files!\n" ++
  c!"Use the `fs` module to interact with files and perform glob operations!\n" ++
  c!"Use `os` to interact with and manipulate the operating system!\n" ++
  c!"Use the `err` module to handle errors and read error messages!\n" ++
  c!"Create a `.dune-secrets` file for your tokens and keys so you can share your `.dune-prelude` file with others!"

/-- `suggestions.split('\n')` (shell_module.rs:23) -/
def suggestions : List Str := suggestionsText.splitOn '\n'

/-- `shell_module::get` (shell_module.rs:7-46) -/
def shellModule (X : Machine) (S : ShellInfo) : List (Str × Expr) := [
  (c!"author", .str c!"Adam McDaniel (https://adam-mcdaniel.net)"),
  (c!"git", .str c!"https://github.com/adam-mcdaniel/dune"),
  (c!"homepage", .str c!"https://github.com/adam-mcdaniel/dune"),
  (c!"version", .str S.version),
  (c!"path", match S.exe with
    | some p => .str p
    | none => .none),
  (c!"suggestion", .str (suggestions.getD S.pick [])),
  (c!"license", .str c!"APACHE-2.0"),
  (c!"prelude", match X.home with
    | some home => if S.preludeThere then .str (pathJoin home c!".dune-prelude") else .none
    | none => .none)]

/-- The machine with the module `shell` (src/binary/init/mod.rs:36). -/
def withShell (X : Machine) (S : ShellInfo) : Machine := { X with shell := .map (BMap.ofList (shellModule X S)) }

end Dune.Init
