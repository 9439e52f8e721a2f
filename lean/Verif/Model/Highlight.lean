import Verif.Model.Tokenizer

/-!
The prompt's syntax highlighter and the escape stripper (src/bin.rs).
-/

namespace Dune

/-- The character ESC (`\x1b`). -/
def esc : Char := Char.ofNat 27

/-- the loop of `strip_ansi_escapes` (src/bin.rs:68-79); the flag is `is_in_escape` -/
def stripGo : Bool → Str → Str
  | _, [] => []
  | inEsc, c :: cs =>
    if c = esc then stripGo true cs
    else if inEsc && c = 'm' then stripGo false cs
    else if !inEsc then c :: stripGo inEsc cs
    else stripGo inEsc cs

/-- `strip_ansi_escapes` (src/bin.rs:63-82) -/
def stripAnsi (s : Str) : Str := stripGo false s

namespace Highlight

/-- `ESC [ code m` -/
def color (code : Str) : Str := esc :: '[' :: code ++ ['m']

/-- `"\x1b[m\x1b[0m"` -/
def reset : Str := color [] ++ color c!"0"

/-- the loop over the invalid escapes of a string literal (src/bin.rs:222-230), ending with 232 -/
def escapes (line : Str) (stop : Nat) : Nat → List Range → Option Str
  | last, [] => sliceStr line last stop
  | last, r :: rs => do
    let a ← sliceStr line last r.start
    let b ← sliceStr line r.start r.stop
    let rest ← escapes line stop r.stop rs
    some (a ++ color c!"38;5;9" ++ b ++ color c!"38;5;208" ++ rest)

/-- reset the colour before uncoloured text -/
def plain (colored : Bool) (s : Str) : Str × Bool :=
  (if colored then reset ++ s else s, false)

/-- the text pushed for one token, and the new `is_colored` (src/bin.rs:190-278); `none` is a
panic -/
def token (line : Str) (t : Token) (d : Diagnostic) (colored : Bool) : Option (Str × Bool) :=
  match sliceStr line t.range.start t.range.stop with
  | none => none
  | some s =>
    match t.kind with
    | .booleanLiteral => some (color c!"95" ++ s, true)
    | .punctuation =>
      if [c!"@", c!"'", c!"=", c!"|", c!">>", c!"<<", c!">>>", c!"->", c!"~>"].contains s then
        some (color c!"96" ++ s, true)
      else some (plain colored s)
    | .keyword => some (color c!"95" ++ s, true)
    | .operator => some (color c!"38;5;220" ++ s, true)
    | .stringLiteral =>
      match d with
      | .invalidStringEscapes ranges =>
        (escapes line t.range.stop t.range.start ranges).map fun r =>
          (color c!"38;5;208" ++ r, true)
      | _ => some (color c!"38;5;208" ++ s, true)
    | .integerLiteral | .floatLiteral =>
      match d with
      | .invalidNumber e =>
        (sliceStr line e.start e.stop).map fun r => (color c!"38;5;9" ++ r, true)
      | _ => some (plain colored s)
    | .symbol =>
      match d with
      | .illegalChar e =>
        (sliceStr line e.start e.stop).map fun r => (color c!"38;5;9" ++ r, true)
      | _ =>
        if s = c!"None" then some (color c!"91" ++ s, true)
        else if [c!"echo", c!"exit", c!"clear", c!"cd", c!"rm"].contains s then
          some (color c!"94" ++ s, true)
        else some (plain colored s)
    | .whitespace => some (s, colored)
    | .comment => some (color c!"38;5;247" ++ s, true)

/-- the loop over the tokens (src/bin.rs:189-279) -/
def tokens (line : Str) : List (Token × Diagnostic) → Bool → Option (Str × Bool)
  | [], colored => some ([], colored)
  | (t, d) :: ts, colored => do
    let (a, colored) ← token line t d colored
    let (b, colored) ← tokens line ts colored
    some (a ++ b, colored)

/-- the loop over the surplus diagnostics (src/bin.rs:280-288) -/
def surplus (line : Str) : List Diagnostic → Bool → Option (Str × Bool)
  | [], colored => some ([], colored)
  | .notTokenized e :: ds, _ => do
    let a ← sliceStr line e.start e.stop
    let (b, colored) ← surplus line ds true
    some (color c!"38;5;9" ++ a ++ b, colored)
  | _ :: ds, colored => surplus line ds colored

end Highlight

/-- `syntax_highlight` (src/bin.rs:183-297) -/
def syntaxHighlight (line : Str) : Outcome Str :=
  match tokenize line with
  | .ok (ts, ds) =>
    match Highlight.tokens line (ts.zip ds) false with
    | none => .panic
    | some (a, colored) =>
      match Highlight.surplus line (ds.drop ts.length) colored with
      | none => .panic
      | some (b, colored) => .ok (a ++ b ++ if colored then Highlight.reset else [])
  | .err e => .err e
  | .panic => .panic
  | .exit c => .exit c
  | .noFuel => .noFuel

end Dune
