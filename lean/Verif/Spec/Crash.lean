import Verif.Model.Builtins

/-!
Which calls of library functions can crash the shell (a Rust panic), as a table, and the library in
which such a crash is an exit.
-/

namespace Dune.Spec

/-- Terminal and standard streams work, and the random number generator, the clock and
`canonicalize` answer as documented. -/
def Answers : IOp → IORes → Prop
  | .print _, r | .flush, r => ∀ e, r ≠ .err e
  | .canonicalize _, r => (∃ s, r = .str s) ∨ ∃ e, r = .err e
  | .randomInt _ _, r => ∃ i, r = .int i
  | .randomIndex n, r => 0 < n → ∃ k, k < n ∧ r = .nat k
  | .readLine, r | .readPassword, r => ∃ s, r = .str s
  | .editLine _, r => (∃ s, r = .str s) ∨ r = .unit
  | .readEvent, r => ∃ k, r = .key k
  | .now, r => ∃ c, r = .clock c
  | _, _ => True

/-- All answers of the outside world are as expected. -/
def Works {W : Type} (H : Host W) : Prop := ∀ op w, Answers op (H.io op w).1

/-- Can a call of the function with `n` arguments crash?  `checks`: the shell was built with overflow
checks. -/
def mayCrash (checks : Bool) : BId → (n : Nat) → Bool
  -- `+ // @`: no argument
  | .add, n | .div, n | .index, n => n == 0
  -- `-`: no argument, or the smallest integer negated
  | .sub, n => n == 0 || (n == 1 && checks)
  -- `*`: no argument, or a text repeated too often; `%`: no argument, or a divisor 0 or -1
  | .mul, n | .rem, n => n != 1
  -- `== != < <= > >=`: less than two arguments
  | .eq, n | .ne, n | .lt, n | .le, n | .gt, n | .ge, n => decide (n < 2)
  -- no argument
  | .str, n | .int, n | .keys, n | .vals, n | .len, n | .lines, n | .eval, n | .exec, n
  | .report, n | .yEval, n | .yExec, n | .tStyle _, n | .tDarkWhite, n => n == 0
  | .sIsWhitespace, n | .sLower, n | .sUpper, n | .sTrim, n | .sTrimStart, n | .sTrimEnd, n
  | .sIsAlpha, n | .sIsAlnum, n | .sIsNumeric, n | .sTitle, n | .sIsLower, n | .sIsUpper, n
  | .sIsTitle, n => n == 0
  -- a position inside a character
  | .insert, n => n == 3
  -- a position inside a character or past the end
  | .lNth, n | .sSplitAt, n => n == 2
  -- an error that cannot be printed
  | .eTry, n => n == 2
  -- overflow
  | .sCaesar, n | .mLRsh, n | .mARsh, n | .mLsh, n => checks && n == 2
  | .mSum, n | .mProduct, n => checks && n != 0
  | .mFact, n | .mAbs, n => checks && n == 1
  | .cWrite, n => checks && n == 3
  -- deeply nested directories
  | .fsCp, n => n == 2
  | .fsTree, n => n == 1 || n == 2
  -- an invalid pattern
  | .fsGlob, n => n == 1
  -- a text that crashes the tokenizer
  | .pExpr, n | .yParse, n | .yInclude, n | .yImport, n => n == 1
  -- an empty range
  | .rInt, n => n == 2
  -- the empty list
  | .rChoose, n => n == 1
  -- a blank text
  | .wJoiny, n => decide (2 ≤ n)
  -- not modelled
  | .other _, _ => true
  | _, _ => false

/-- The body with its own crashes replaced by `exit c`. -/
def crashTo (c : Int) {α : Type} : BProg α → BProg α
  | .panic => .exit c
  | .eval e k => .eval e fun r => crashTo c (k r)
  | .evalIn env e k => .evalIn env e fun r env => crashTo c (k r env)
  | .getEnv k => .getEnv fun env => crashTo c (k env)
  | .define x v k => .define x v (crashTo c k)
  | .undefine x k => .undefine x (crashTo c k)
  | .io op k => .io op fun r => crashTo c (k r)
  | p => p

/-- The library in which a crash inside a call of the table, and only there, is replaced by
`exit c`. -/
def guarded (c : Int) (P : Plat) (L : Lib) (id : BId) (args : List Expr) : BProg Expr :=
  if mayCrash P.overflowChecks id args.length then crashTo c (stdB P L id args) else stdB P L id args

end Dune.Spec
