import Verif.Model.Init

/-! A concrete platform and world, used only in the `example`s that show that the hypotheses of the
theorems can be met. -/

namespace Dune.Demo

/-- A platform with trivial floating point. -/
def plat : Plat where
  fAdd a _ := a
  fSub a _ := a
  fMul a _ := a
  fDiv a _ := a
  fPow a _ := a
  fOfInt _ := F64.zero
  fToInt _ := .lit 0
  fParse _ := some F64.zero
  fFmt _ := c!"0"
  fOfDec _ _ _ := F64.zero
  fill s _ := s
  width := 120
  charWidth _ := 1
  utf8Lossy _ := c!"?"
  escNonAscii _ := false
  lower s := s
  upper s := s
  alnumNonAscii _ := false
  alphaNonAscii _ := false
  numericNonAscii _ := false
  lowerNonAscii _ := false
  upperNonAscii _ := false
  toLowerNonAscii c := c
  toUpperNonAscii c := c
  fFun _ f := f
  fLog f _ := f
  fToU64 _ := 0
  fmtIOErr _ := c!"Error"
  stackDepth := 10
  overflowChecks := true

/-- A world that records every request and answers `unit`. -/
def host : Host (List IOp) where
  io op w := (.unit, w ++ [op])

/-- A world in which no program exists. -/
def hostNotFound : Host (List IOp) where
  io op w := (.err .notFound, w ++ [op])

/-- No builtins. -/
def noB : BId → List Expr → M (List IOp) Expr := fun _ _ => M.lift .noFuel

/-- No parser, no further builtins. -/
def lib : Lib where
  parse _ := .panic
  json _ := none
  toml _ := none
  other _ _ := .panic

/-- The initial environment: operators, modules and top-level functions. -/
def env : Env where
  bindings := BMap.ofList (Init.ops ++ Init.modules.map (fun m => (m.1, .map (BMap.ofList m.2))) ++
    Init.top)
  parents := []

end Dune.Demo
