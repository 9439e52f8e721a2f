import Verif.Model.Builtins

/-!
What the functions of the library do to the outside world, as a table, and the library in which the
functions with a given effect are replaced by an exit.
-/

namespace Dune.Spec

/-- Kinds of effects. -/
inductive Effect
  /-- start a program as a command -/
  | command
  /-- start a program in a pipeline -/
  | stage
  | output
  | errorOutput
  | readFiles
  /-- create or fill files and directories -/
  | writeFiles
  /-- remove or rename files and directories -/
  | removeFiles
  /-- change the working directory of the process -/
  | directory
  | getLevel
  | setLevel
  | random
  /-- size and mode of the terminal -/
  | terminal
  | input
  | sleep
  | clock
  /-- leave the shell -/
  | leave
  deriving DecidableEq

/-- The effect of a request to the outside world. -/
def kind : IOp → Effect
  | .status .. => .command
  | .stage .. => .stage
  | .print _ | .flush => .output
  | .eprint _ => .errorOutput
  | .readFile _ | .exists_ _ | .isDir _ | .isFile _ | .canonicalize _ | .readDir _ | .glob _ => .readFiles
  | .openAppend _ | .writeFile _ _ | .appendFile _ _ | .copyFile _ _ | .createDir _
  | .createDirAll _ => .writeFiles
  | .rename _ _ | .removeFile _ | .removeDir _ | .removeDirAll _ => .removeFiles
  | .setCurrentDir _ => .directory
  | .getLogLevel => .getLevel
  | .setLogLevel _ => .setLevel
  | .randomInt _ _ | .randomIndex _ => .random
  | .terminalSize | .rawMode _ => .terminal
  | .readLine | .readPassword | .readEvent | .editLine _ => .input
  | .sleep _ => .sleep
  | .now => .clock

/-- Does the function itself have the effect?  (Functions it is given to call may have more.) -/
def mayDo : BId → Effect → Bool
  -- `|`
  | .pipe, k => k == .stage
  -- `print debug println report log@echo`
  | .print, k | .debug, k | .println, k | .report, k | .gEcho, k => k == .output
  | .exit_, k => k == .leave
  | .cd, k => k == .readFiles || k == .directory
  -- `log@..`
  | .gInfo, k | .gWarn, k | .gDebug, k | .gError, k | .gTrace, k => k == .getLevel || k == .output
  | .gGetLevel, k | .gEnabled, k => k == .getLevel
  | .gSetLevel, k | .gDisable, k => k == .setLevel
  -- `fs@..`
  | .fsHead, k | .fsTail, k | .fsCanon, k | .fsLs, k | .fsExists, k | .fsIsDir, k | .fsIsFile, k
  | .fsRead, k | .fsTree, k | .fsGlob, k => k == .readFiles
  | .fsMkdir, k | .fsWrite, k | .fsAppend, k => k == .writeFiles
  | .fsRmdir, k => k == .removeFiles
  | .fsCp, k => k == .readFiles || k == .writeFiles
  | .fsMv, k | .fsRm, k => k == .readFiles || k == .removeFiles
  -- `sys@include`, `sys@import`, `sys@cd`
  | .yInclude, k | .yImport, k | .yCd, k => k == .readFiles
  -- `rand@..`
  | .rInt, k | .rChoose, k | .rShuffle, k => k == .random
  -- `console@..`
  | .cWidth, k | .cHeight, k | .cRaw, k | .cCooked, k => k == .terminal
  | .cWrite, k | .cTitle, k | .cClear, k | .cFlush, k | .cSeq _, k | .cMoveTo, k | .cMove _ _, k =>
    k == .output
  | .cReadLine, k | .cReadPassword, k | .cReadKey, k => k == .input
  -- `input` leaves the shell at the end of the input
  | .input, k => k == .input || k == .leave
  -- `time@..`
  | .tSleep, k => k == .sleep
  | .tNow, k => k == .clock
  -- not modelled
  | .other _, _ => true
  | _, _ => false

/-- The library in which every function with one of the effects `E` is replaced by `exit c`. -/
def without (E : List Effect) (c : Int) (P : Plat) (L : Lib) (id : BId) (args : List Expr) :
    BProg Expr :=
  if E.any (mayDo id) then .exit c else stdB P L id args

end Dune.Spec
