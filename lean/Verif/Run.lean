import Verif.Model.Main
import Verif.Model.Start

/-!
The model as a program, for comparison with the real one (nothing is proved here):

    lake env lean --run Verif/Run.lean '1 + 2' @/repo/src/.default-dune-prelude 'exit 3'

runs each argument as a line of input, or, after `@`, the text of a file, one after the other from the
initial environment, and shows what is printed and returned.  The world is a small one without files and
programs, in which it is 18:55 on 26 September 2021; texts are not wrapped.
-/

namespace Dune.Run

def float (f : F64) : Float := Float.ofBits (UInt64.ofBitVec f.bits)

def f64 (f : Float) : F64 := ⟨f.toBits.toBitVec⟩

def plat : Plat where
  fAdd a b := f64 (float a + float b)
  fSub a b := f64 (float a - float b)
  fMul a b := f64 (float a * float b)
  fDiv a b := f64 (float a / float b)
  fPow a b := f64 (float a ^ float b)
  fFun _ a := a
  fLog a _ := a
  fToU64 a := (float a).toUInt64.toNat
  fOfInt i := f64 (Float.ofInt i.val)
  fToInt f := I64.wrap (float f).toInt64.toInt
  fParse s :=
    match splitStr c!"." s with
    | [a, b] => some (f64 (Float.ofScientific ((String.ofList (a ++ b)).toNat?.getD 0) true b.length))
    | _ => none
  fFmt f := (toString (float f)).toList
  fOfDec neg n e :=
    let f := Float.ofScientific n (e < 0) e.natAbs
    f64 (if neg then -f else f)
  fill s _ := s
  width := 100
  charWidth _ := 1
  utf8Lossy _ := c!"?"
  escNonAscii _ := false
  lower s := s
  upper s := s
  alnumNonAscii _ := false
  alphaNonAscii _ := false
  numericNonAscii _ := false
  lowerNonAscii _ := false
  upperNonAscii _ := false
  toLowerNonAscii c := c
  toUpperNonAscii c := c
  fmtIOErr _ := c!"Error"
  stackDepth := 1000
  overflowChecks := false

def lib : Lib where
  parse := parseText plat
  json _ := none
  toml _ := none
  other _ _ := .panic

/-- The requests made so far. -/
def host : Host (List IOp) where
  io op w := (match op with
    | .now => .clock ⟨2021, 9, 26, 18, 55⟩
    | .terminalSize => .size 100 40
    | .randomIndex _ => .nat 0
    | .exists_ _ => .bool false
    | .status .. => .err .notFound
    | .stage .. => .stageErr .spawn
    | .readFile _ => .err .notFound
    | _ => .unit, w ++ [op])

def machine : Init.Machine where
  home := some c!"/home/adam"
  cwd := some c!"/home/adam"
  desktop := none
  documents := none
  downloads := none
  more m := if m = c!"os" then [(c!"name", .str c!"linux")] else []
  shell := .none
  help := .none

def shown : IOp → String
  | .print s => String.ofList s
  | .eprint s => "[stderr] " ++ String.ofList s
  | .status p _ as _ => s!"[run {String.ofList p} {as.map String.ofList}]\n"
  | _ => ""

def step (env : Env) (text : String) : IO Env := do
  let (r, env, w) := runText plat (evalN plat host (stdB plat lib) 400) text.toList env []
  for op in w do IO.print (shown op)
  IO.println <| match r with
    | .ok v => s!"value: {String.ofList (debug plat v)}"
    | .err e => s!"error: {((displayError plat e).map String.ofList).getD "(crash while printing)"}"
    | .panic => "crash"
    | .exit c => s!"exit {c}"
    | .noFuel => "too deep"
  return env

end Dune.Run

open Dune Run in
def main (args : List String) : IO Unit := do
  let mut env := Init.start machine
  for t in Main.startupTexts do env ← step env (String.ofList t)
  for a in args do
    if a.startsWith "@" then env ← step env (← IO.FS.readFile (a.drop 1).toString)
    else
      IO.println s!"$ {a}"
      env ← step env a
