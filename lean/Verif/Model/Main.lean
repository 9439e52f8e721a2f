import Verif.Model.Shell
import Verif.Model.Text

/-!
The program as a whole: `main` (src/bin.rs:548-683), and the hints shown while typing
(src/bin.rs:295-333).  The evaluator is the parameter `ev`.

Not modelled: the parsing of the command line (`clap`), the text of the two questions about the
prelude, the line editor and its history, the Ctrl-C handler (see `Verif/Model/Threads.lean`).
-/

namespace Dune

variable {W : Type}

namespace Main

/-- The command line `dune [FILE] [-i] [-x WORD ...]` (src/bin.rs:560-568). -/
structure Options where
  file : Option Str := none
  interactive : Bool := false
  exec : Option (List Str) := none

/-- The surroundings: the home directory (`dirs::home_dir()`), and the texts of the two files that
are compiled in (src/bin.rs:30-32). -/
structure Setup where
  home : Option Str
  intro : Str
  default : Str

/-- How far the program gets with the answers it is given. -/
inductive End
  /-- it has returned -/
  | done
  /-- it waits for the answer to the question about the prelude -/
  | asking
  /-- it waits for a line; these lines are an incomplete input -/
  | waiting (lines : List Str)

/-- src/bin.rs:574-600 -/
def startupTexts : List Str := [
  c!"let clear = _ ~> console@clear ()",
  c!"let pwd = _ ~> echo CWD",
  c!"let join = sep -> l -> {\n            let sep = str sep;\n            fn@reduce (x -> y -> x + sep + (str y)) (str l@0) (list@tail l)\n        }",
  c!"let prompt = cwd -> fmt@bold ((fmt@dark@blue \"(dune) \") + (fmt@bold (fmt@dark@green cwd)) + (fmt@bold (fmt@dark@blue \"$ \")))",
  c!"let incomplete_prompt = cwd ->\n            ((len cwd) + (len \"(dune) \")) * \" \" + (fmt@bold (fmt@dark@yellow \"> \"));"]

/-- `parse(text)?.eval(&mut env)?;` for each of the texts -/
def startup (P : Plat) (ev : Expr → M W Expr) : List Str → M W Unit
  | [] => pure ()
  | t :: ts => do
    let _ ← runText P ev t
    startup P ev ts

/-- `run_file` (src/bin.rs:539-544) -/
def runFile (P : Plat) (H : Host W) (ev : Expr → M W Expr) (path : Str) : M W Expr := do
  match ← M.io H (.readFile path) with
  | .bytes b =>
    match utf8Decode b with
    | some text => runText P ev text
    | none => M.throw (.customError c!"Failed to read file: stream did not contain valid UTF-8")
  | .err e => M.throw (.customError (c!"Failed to read file: " ++ P.fmtIOErr e))
  | _ => M.throw (.customError c!"Failed to read file: ")

/-- `eprintln!("...{}", e)` -/
def eprintErrorAs (P : Plat) (H : Host W) (pre : Str) (e : Error) : M W Unit :=
  match displayError P e with
  | some s => eprintLine H (pre ++ s)
  | none => M.lift .panic

/-- `if let Err(e) = ... { eprintln!("...{}", e) }` -/
def orPrint (P : Plat) (H : Host W) (pre : Str) (m : M W Expr) : M W Unit := do
  match ← M.catch_ m with
  | .ok _ => pure ()
  | .error e => eprintErrorAs P H pre e

/-- the option `-x` (src/bin.rs:614-632) -/
def runExec (P : Plat) (H : Host W) (ev : Expr → M W Expr) (words : List Str) : M W Unit := do
  match ← M.catch_ (runText P ev (joinStr c!" " words)) with
  | .ok v => do
    let _ ← ev (.apply (.symbol c!"report") [v])
  | .error e => eprintErrorAs P H [] e

/-- `response.to_lowercase().trim() == "y"` -/
def isYes (P : Plat) (response : Str) : Bool := decide (trim (toLower P response) = c!"y")

def runIntro (P : Plat) (H : Host W) (ev : Expr → M W Expr) (S : Setup) : M W Unit :=
  orPrint P H c!"Error while running introduction prelude: " (runText P ev S.intro)

/-- write the default prelude (src/bin.rs:647-651) -/
def writePrelude (P : Plat) (H : Host W) (S : Setup) (path : Str) : M W Unit := do
  match ← M.io H (.writeFile path (utf8Encode S.default)) with
  | .err e => eprintLine H (c!"Error while writing prelude: " ++ P.fmtIOErr e)
  | _ => pure ()

/-- The prelude (src/bin.rs:639-668); gives the readings that are left, `none` if the question is
not answered. -/
def prelude_ (P : Plat) (H : Host W) (ev : Expr → M W Expr) (S : Setup) (rs : List Repl.Reading) :
    M W (Option (List Repl.Reading)) :=
  match S.home with
  | none => pure (some rs)
  | some home => do
    let path := pathJoin home c!".dune-prelude"
    match ← M.io H (.exists_ path) with
    | .bool true =>
      match ← M.catch_ (runFile P H ev path) with
      | .ok _ => pure (some rs)
      | .error e =>
        match displayError P e, rs with
        | none, _ => M.lift .panic
        | some _, [] => pure none
        | some _, r :: rs => do
          let response ← Repl.readline H r
          if isYes P response then runIntro P H ev S else pure ()
          pure (some rs)
    | _ =>
      match rs with
      | [] => pure none
      | r :: rs => do
        let response ← Repl.readline H r
        if isYes P response then writePrelude P H S path else pure ()
        runIntro P H ev S
        pure (some rs)

/-- the interactive part (src/bin.rs:639-682) -/
def interactive (P : Plat) (H : Host W) (ev : Expr → M W Expr) (S : Setup)
    (rs : List Repl.Reading) : M W End := do
  match ← prelude_ P H ev S rs with
  | none => pure .asking
  | some rs => do
    let lines ← Repl.loop P H ev [] rs
    pure (.waiting lines)

/-- `main` after `binary::init` (src/bin.rs:574-683). -/
def main (P : Plat) (H : Host W) (ev : Expr → M W Expr) (S : Setup) (o : Options)
    (rs : List Repl.Reading) : M W End := do
  startup P ev startupTexts
  match o.file with
  | some f => orPrint P H [] (runFile P H ev f)
  | none => pure ()
  if o.file.isSome ∧ o.interactive = false ∧ o.exec.isNone then pure .done
  else do
    match o.exec with
    | some words => runExec P H ev words
    | none => pure ()
    if o.exec.isSome ∧ o.interactive = false then pure .done
    else interactive P H ev S rs

end Main

/-! ### Hints -/

namespace Hint

/-- src/bin.rs:319-321 -/
def cmds : List Str := [
  c!"exit 0", c!"ls ", c!"rm -ri ", c!"cp -r ", c!"head ", c!"tail ", c!"cd ", c!"clear"]

/-- `str::trim_start_matches(&str)` for a non-empty pattern; `fuel` bounds the number of matches -/
def trimStartMatches (pat : Str) : Nat → Str → Str
  | 0, s => s
  | fuel + 1, s => if pat.isPrefixOf s then trimStartMatches pat fuel (s.drop pat.length) else s

/-- `hint` (src/bin.rs:298-333); `history` is the hint of rustyline's `HistoryHinter`. -/
def hint (history : Option Str) (line : Str) : Option Str :=
  if trim line = [] then history
  else
    match cmds.find? fun cmd => containsStr line cmd with
    | some cmd => some (trimStartMatches line cmd.length cmd)
    | none => history

end Hint

end Dune
