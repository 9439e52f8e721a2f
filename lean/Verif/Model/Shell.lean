import Verif.Model.Parser
import Verif.Model.Eval
import Verif.Model.ErrorFmt

/-!
Running scripts and the interactive prompt (`src/bin.rs`).  The evaluator is the parameter `ev`.

Not modelled: the line editor (`rustyline`) with its history file, its copy of the environment for
completion, and the display of the prompt.  What the user types is a list of readings.
-/

namespace Dune

variable {W : Type}

/-- `run_text` (src/bin.rs:535-537); `ev` is `Expression::eval`. -/
def runText (P : Plat) (ev : Expr → M W Expr) (text : Str) : M W Expr :=
  M.bind (M.lift (parseText P text)) ev

/-- `eprintln!`: panics if standard error cannot be written. -/
def eprintLine (H : Host W) (s : Str) : M W Unit := do
  match ← M.io H (.eprint (s ++ c!"\n")) with
  | .err _ => M.lift .panic
  | _ => pure ()

/-- `eprintln!("{}", e)` of an error -/
def eprintError (P : Plat) (H : Host W) (e : Error) : M W Unit :=
  match displayError P e with
  | some s => eprintLine H s
  | none => M.lift .panic

namespace Repl

/-- How an attempt to read a line ends (rustyline's `Result<String, ReadlineError>`), except for
other errors, which are retried. -/
inductive Answer
  | line (s : Str)
  /-- Ctrl-C while editing -/
  | interrupted
  /-- Ctrl-D -/
  | eof

/-- One call of `readline`: the errors that were retried (their `{:?}`), and the final answer. -/
structure Reading where
  failed : List Str := []
  answer : Answer

/-- report the errors of an attempt to read -/
def reportFailed (H : Host W) : List Str → M W Unit
  | [] => pure ()
  | m :: ms => do
    eprintLine H (c!"Error: " ++ m)
    reportFailed H ms

/-- `readline` (src/bin.rs:84-103) -/
def readline (H : Host W) (r : Reading) : M W Str := do
  reportFailed H r.failed
  match r.answer with
  | .line s => pure s
  | .interrupted => pure []
  | .eof => M.lift (.exit 0)

/-- the prompt (src/bin.rs:456-474) -/
def prompt (P : Plat) (ev : Expr → M W Expr) (lines : List Str) : M W Str := do
  let env ← M.getEnv
  let name := if lines = [] then c!"prompt" else c!"incomplete_prompt"
  match ← M.catch_ (ev (.apply (.symbol name) [.str env.getCwd])) with
  | .ok v => pure (display P v)
  | .error _ => pure (env.getCwd ++ c!"$ ")

/-- what happens with the value of a text (src/bin.rs:492-521) -/
def showValue (P : Plat) (H : Host W) (ev : Expr → M W Expr) : Except Error Expr → M W Unit
  | .ok (.symbol name) => do
    match ← M.catch_ (ev (.apply (.symbol name) [])) with
    | .ok _ => pure ()
    | .error e => eprintError P H e
  | .ok .none => pure ()
  | .ok (.macro_ p b) => do
    let env ← M.getEnv
    let _ ← M.catch_ (ev (.apply (.symbol c!"report") [.apply (.macro_ p b) [.str env.getCwd]]))
  | .ok v => do
    let _ ← M.catch_ (ev (.apply (.symbol c!"report") [.quote v]))
  | .error e => eprintError P H e

/-- a text was accepted: evaluate it and show the value (src/bin.rs:491-521) -/
def runAccepted (P : Plat) (H : Host W) (ev : Expr → M W Expr) (e : Expr) : M W Unit := do
  let v ← M.catch_ (ev e)
  showValue P H ev v

/-- a line was read (src/bin.rs:478-532); the result is the new value of `lines` -/
def takeLine (P : Plat) (H : Host W) (ev : Expr → M W Expr) (lines : List Str) (line : Str) :
    M W (List Str) :=
  match parseText P (joinStr c!"\n" (lines ++ [line])) with
  | .ok e => do
    runAccepted P H ev e
    pure []
  | .err e =>
    if line = [] then do
      eprintError P H e
      pure []
    else pure (lines ++ [line])
  | .panic => M.lift .panic
  | .exit c => M.lift (.exit c)
  | .noFuel => M.lift .noFuel

/-- one iteration of the loop (src/bin.rs:452-532) -/
def iteration (P : Plat) (H : Host W) (ev : Expr → M W Expr) (lines : List Str) (r : Reading) :
    M W (List Str) := do
  let _ ← prompt P ev lines
  let line ← readline H r
  takeLine P H ev lines line

/-- `repl` (src/bin.rs:445-533) on a sequence of readings; the result is the pending `lines`. -/
def loop (P : Plat) (H : Host W) (ev : Expr → M W Expr) : List Str → List Reading → M W (List Str)
  | lines, [] => pure lines
  | lines, r :: rs => do
    let lines ← iteration P H ev lines r
    loop P H ev lines rs

end Repl

end Dune
