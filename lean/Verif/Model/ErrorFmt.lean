import Verif.Model.Fmt
import Verif.Model.Tokenizer

/-!
`Display for Error` (src/error.rs:65-257), with the source excerpt printed for syntax errors.

The result is `none` where the code panics: slicing the source outside of it, or subtracting below
zero with overflow checks.  Simplification: the hint lines (`    hint: ..`) are left out, since the
model of the parser does not keep hints.
-/

namespace Dune

/-- src/error.rs:255 -/
def redStart : Str := c!"\x1b[38;5;9m"

/-- src/error.rs:256 -/
def boldStart : Str := c!"\x1b[1m"

/-- src/error.rs:257 -/
def resetStyle : Str := c!"\x1b[m\x1b[0m"

/-- `{:>5}` of a number -/
def pad5 (n : Nat) : Str := List.replicate (5 - (natToStr n).length) ' ' ++ natToStr n

/-- `a - b` on `usize`, used as an argument of `take`: without overflow checks a negative result
wraps around to a number larger than any text, so that `take` takes everything (`none`). -/
def subUsize (P : Plat) (a b : Nat) : Option (Option Nat) :=
  if b ≤ a then some (some (a - b)) else if P.overflowChecks then none else some none

/-- `.take(n)`, with `none` for a number larger than any text -/
def takeUpTo (s : Str) : Option Nat → Str
  | some n => s.take n
  | none => s

/-- the lines after the first of a multi-line excerpt (src/error.rs:233-240) -/
def errorTail (w : Nat) (n : Nat) : List Str → Str
  | [] => []
  | l :: ls => c!"\n" ++ pad5 n ++ c!" | " ++ redStart ++ l.take w ++ resetStyle ++
      errorTail w (n + 1) ls

/-- `print_error_lines` (src/error.rs:187-253) -/
def printErrorLines (P : Plat) (src : Str) (r : Range) (w : Nat) : Option Str :=
  (sliceStr src r.start r.stop).bind fun mid =>
  (takeBytes r.start src).bind fun before =>
  (takeBytes r.stop src).bind fun after =>
  let lineBefore := (linesOf before.1).getLast?.getD []
  let lineAfter := (linesOf after.2).head?.getD []
  let first := max (linesOf before.1).length 1
  match linesOf mid with
  | l :: l' :: ls =>
    (subUsize P w ((l' :: ls).getLast (List.cons_ne_nil _ _)).length).map fun k =>
    c!"      |\n" ++ pad5 first ++ c!" | " ++ (lineBefore ++ redStart ++ l).take w ++ resetStyle ++
      errorTail w (first + 1) (l' :: ls) ++ c!"\n" ++ takeUpTo lineAfter k ++ resetStyle ++ c!"\n" ++
      c!"      |\n"
  | ls =>
    some (c!"      |\n" ++ pad5 first ++ c!" | " ++ lineBefore.take w ++ redStart ++ ls.head?.getD [] ++
      resetStyle ++ lineAfter.take (w - (lineBefore.take w).length) ++ c!"\n" ++ c!"      |\n")

/-- `if let Some(at) = at { print_error_lines(string, at, f, 72)?; }` -/
def printErrorLines? (P : Plat) (src : Str) : Option Range → Option Str
  | none => some []
  | some r => printErrorLines P src r 72

/-- "syntax error: ", styled -/
def syntaxErrorHead (what : Str) : Str := redStart ++ boldStart ++ what ++ resetStyle

/-- one invalid escape sequence (src/error.rs:155-161) -/
def fmtEscape (P : Plat) (src : Str) (r : Range) : Option Str :=
  (sliceStr src r.start r.stop).bind fun t =>
  (printErrorLines P src r 72).map fun ls =>
    syntaxErrorHead c!"syntax error" ++ c!": invalid string escape sequence `" ++ trim t ++ c!"`\n" ++ ls

/-- concatenation of texts that may have panicked -/
def concatAll : List (Option Str) → Option Str
  | [] => some []
  | o :: os => o.bind fun s => (concatAll os).map fun t => s ++ t

/-- `fmt_token_error` (src/error.rs:152-185) -/
def fmtTokenError (P : Plat) (src : Str) : Diagnostic → Option Str
  | .valid => some []
  | .invalidStringEscapes rs => concatAll (rs.map (fmtEscape P src))
  | .invalidNumber r =>
    (sliceStr src r.start r.stop).bind fun t =>
    (printErrorLines P src r 72).map fun ls =>
      syntaxErrorHead c!"syntax error" ++ c!": invalid number `" ++ trim t ++ c!"`\n" ++ ls
  | .illegalChar r =>
    (sliceStr src r.start r.stop).bind fun t =>
    (printErrorLines P src r 72).map fun ls =>
      syntaxErrorHead c!"syntax error" ++ c!": invalid token " ++ debugStr P t ++ c!"\n" ++ ls
  | .notTokenized r =>
    (sliceStr src r.start r.stop).bind fun t =>
    (printErrorLines P src r 72).map fun ls =>
      syntaxErrorHead c!"error" ++ c!": there are leftover tokens after tokenizing: " ++ t ++ c!"\n" ++
        ls

/-- `if let Some(found) = found { write!(f, ", found {}", found)?; }` -/
def foundText : Option Str → Str
  | none => []
  | some t => c!", found " ++ t

/-- `Debug for char` -/
def debugChar (P : Plat) (c : Char) : Str :=
  if c = '\'' then c!"'\\''" else if c = '"' then c!"'\"'" else c!"'" ++ escapeDebugChar P c ++ c!"'"

/-- `fmt_syntax_error` (src/error.rs:100-150), without hints -/
def fmtSyntaxError (P : Plat) (src : Str) : SyntaxError → Option Str
  | .expected r what found =>
    (printErrorLines P src r 72).map fun ls =>
      syntaxErrorHead c!"syntax error" ++ c!": expected " ++ what ++ foundText found ++ c!"\n" ++ ls
  | .tokenizationErrors ds => concatAll (ds.map (fmtTokenError P src))
  | .expectedChar c r =>
    (printErrorLines? P src r).map fun ls =>
      syntaxErrorHead c!"syntax error" ++ c!": expected " ++ debugChar P c ++ c!"\n" ++ ls
  | .nomError kind r =>
    (printErrorLines? P src r).map fun ls =>
      syntaxErrorHead c!"unexpected syntax error" ++ c!": `" ++ kind ++ c!"`\n" ++ ls
  | .nomErrorBy kind r cause =>
    (printErrorLines? P src r).bind fun ls =>
    (fmtSyntaxError P src cause).map fun more =>
      syntaxErrorHead c!"unexpected syntax error" ++ c!": `" ++ kind ++ c!"`\n" ++ ls ++ more
  | .internalError => some (syntaxErrorHead c!"unexpected syntax error" ++ c!"\n")

/-- `Display for Error` (src/error.rs:65-99); `none` is a panic. -/
def displayError (P : Plat) : Error → Option Str
  | .cannotApply f args => some
    (c!"cannot apply `" ++ debug P f ++ c!"` to the arguments [" ++
      joinStr c!", " (debugList P args) ++ c!"]")
  | .permissionDenied e => some (c!"permission denied while evaluating " ++ debug P e)
  | .programNotFound n => some (c!"program \"" ++ n ++ c!"\" not found")
  | .symbolNotDefined n => some (c!"symbol \"" ++ n ++ c!"\" not defined")
  | .recursionDepth e => some (c!"recursion depth exceeded while evaluating " ++ debug P e)
  | .commandFailed n args => some (c!"command `" ++ debug P (.apply (.symbol n) args) ++ c!"` failed")
  | .forNonList e => some (c!"attempted to iterate over non-list `" ++ debug P e ++ c!"`")
  | .customError m => some m
  | .syntaxError src e => fmtSyntaxError P src e

end Dune
