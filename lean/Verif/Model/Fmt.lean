import Verif.Model.Text

/-! `Debug`, `Display` of expressions and the codes of errors (src/expr.rs:162-352,
src/error.rs:35-62), and the layout of tables. -/

namespace Dune

/-- `[..].join(sep)` on strings. -/
def joinStr (sep : Str) : List Str → Str
  | [] => []
  | [s] => s
  | s :: t :: l => s ++ sep ++ joinStr sep (t :: l)

/-- one lower-case hexadecimal digit -/
def hexDigit (n : Nat) : Char := if n < 10 then Char.ofNat (48 + n) else Char.ofNat (87 + n)

/-- lower-case hexadecimal rendering without leading zeros (`{:x}`) -/
def toHexAux : Nat → Nat → Str → Str
  | 0, _, acc => acc
  | fuel + 1, n, acc =>
    if n / 16 = 0 then hexDigit (n % 16) :: acc
    else toHexAux fuel (n / 16) (hexDigit (n % 16) :: acc)

def toHex (n : Nat) : Str := toHexAux (n + 1) n []

/-- `char::escape_debug` as used by `Debug for str` (single quotes are not escaped). -/
def escapeDebugChar (P : Plat) (c : Char) : Str :=
  if c = '\x00' then c!"\\0"
  else if c = '\t' then c!"\\t"
  else if c = '\r' then c!"\\r"
  else if c = '\n' then c!"\\n"
  else if c = '"' then c!"\\\""
  else if c = '\\' then c!"\\\\"
  else if c.toNat < 128 then
    if 32 ≤ c.toNat ∧ c.toNat < 127 then [c] else c!"\\u{" ++ toHex c.toNat ++ c!"}"
  else if P.escNonAscii c then c!"\\u{" ++ toHex c.toNat ++ c!"}"
  else [c]

/-- `Debug for str`. -/
def debugStr (P : Plat) (s : Str) : Str :=
  c!"\"" ++ s.flatMap (escapeDebugChar P) ++ c!"\""

/-- `Debug for Vec<u8>`. -/
def debugBytes (b : List UInt8) : Str :=
  c!"[" ++ joinStr c!", " (b.map fun x => natToStr x.toNat) ++ c!"]"

mutual

/-- `Debug for Expression` (src/expr.rs:162-223). -/
def debug (P : Plat) : Expr → Str
  | .quote e => c!"'" ++ debug P e
  | .group e => c!"(" ++ debug P e ++ c!")"
  | .symbol n => n
  | .int i => intToStr i.val
  | .float f => P.fFmt f
  | .bytes b => c!"b" ++ debugBytes b
  | .str s => debugStr P s
  | .bool b => if b then c!"True" else c!"False"
  | .list l => c!"[" ++ joinStr c!", " (debugList P l) ++ c!"]"
  | .map m => c!"{" ++ joinStr c!", " (debugMap P m) ++ c!"}"
  | .none => c!"None"
  | .lambda p body _ _ => p ++ c!" -> " ++ debug P body
  | .macro_ p body => p ++ c!" ~> " ++ debug P body
  | .for_ n l body => c!"for " ++ n ++ c!" in " ++ debug P l ++ c!" " ++ debug P body
  | .do_ l => c!"{ " ++ joinStr c!"; " (debugList P l) ++ c!" }"
  | .assign n e => c!"let " ++ n ++ c!" = " ++ debug P e
  | .ite c t e => c!"if " ++ debug P c ++ c!" " ++ debug P t ++ c!" else " ++ debug P e
  | .apply g args => debug P g ++ c!" " ++ joinStr c!" " (debugList P args)
  | .builtin n _ _ => c!"builtin@" ++ n

/-- `exprs.iter().map(|e| format!("{:?}", e))` -/
def debugList (P : Plat) : List Expr → List Str
  | [] => []
  | e :: l => debug P e :: debugList P l

/-- `exprs.iter().map(|(k, e)| format!("{}: {:?}", k, e))` -/
def debugMap (P : Plat) : List (Str × Expr) → List Str
  | [] => []
  | (k, e) :: l => (k ++ c!": " ++ debug P e) :: debugMap P l

end

/-! ### Tables

The crate `prettytable` 0.10, as far as `Display for Expression` uses it: cells are aligned to the left,
padded by one blank on each side, without spanning, indentation or titles; all three column separators
are the same character.  Modelled from its documentation and source. -/

/-- `prettytable::utils::display_width`: the columns a text takes, without the escape sequences
`ESC [ … m`; the state is 1 after `ESC`, 2 inside a sequence.  (The subtraction cannot go below zero
if the characters of the sequences have width 1.) -/
def displayWidthGo (P : Plat) : Nat → Str → Nat
  | _, [] => 0
  | 0, c :: cs => P.charWidth c + displayWidthGo P (if c = '\x1b' then 1 else 0) cs
  | 1, c :: cs =>
    if c = '[' then (P.charWidth c - 1) + displayWidthGo P 2 cs else P.charWidth c + displayWidthGo P 0 cs
  | st + 2, c :: cs => (P.charWidth c - 1) + displayWidthGo P (if c = 'm' then 0 else st + 2) cs

def displayWidth (P : Plat) (s : Str) : Nat := displayWidthGo P 0 s

/-- `Cell::new`: the width of the widest line. -/
def cellWidth (P : Plat) (s : Str) : Nat := (linesOf s).foldl (fun w l => max w (displayWidth P l)) 0

/-- The characters of a format: the column separator and borders, and for each separator line the line,
the junctions inside and at the ends (`LineSeparator::new(line, junc, ljunc, rjunc)`). -/
structure TableStyle where
  side : Char
  top : Char × Char × Char × Char
  inner : Char × Char × Char × Char
  bottom : Char × Char × Char × Char

/-- `LineSeparator::print` -/
def sepLine (c : Char × Char × Char × Char) (ws : List Nat) : Str :=
  c.2.2.1 :: joinStr [c.2.1] (ws.map fun w => List.replicate (w + 2) c.1) ++ [c.2.2.2, '\n']

/-- `print_align` to the left -/
def padCell (P : Plat) (w : Nat) (s : Str) : Str := s ++ List.replicate (w - displayWidth P s) ' '

/-- the cells of line `i` of a row; missing cells and lines are empty -/
def rowCells (P : Plat) (i : Nat) : List Nat → List Str → List Str
  | [], _ => []
  | w :: ws, cs =>
    (' ' :: padCell P w ((linesOf (cs.headD [])).getD i []) ++ c!" ") :: rowCells P i ws cs.tail

/-- one line of a row -/
def rowLine (P : Plat) (side : Char) (ws : List Nat) (row : List Str) (i : Nat) : Str :=
  side :: joinStr [side] (rowCells P i ws row) ++ [side, '\n']

/-- `Row::get_height` -/
def rowHeight (row : List Str) : Nat := row.foldl (fun h c => max h (linesOf c).length) 1

/-- `Row::print` -/
def rowText (P : Plat) (side : Char) (ws : List Nat) (row : List Str) : Str :=
  (List.range (rowHeight row)).flatMap (rowLine P side ws row)

/-- `get_all_column_width` -/
def columnWidths (P : Plat) (rows : List (List Str)) : List Nat :=
  (List.range (rows.foldl (fun n r => max n r.length) 0)).map fun j =>
    rows.foldl (fun w r => max w (cellWidth P (r.getD j []))) 0

/-- `Display for Table` -/
def renderTable (P : Plat) (st : TableStyle) (rows : List (List Str)) : Str :=
  let ws := columnWidths P rows
  sepLine st.top ws ++ joinStr (sepLine st.inner ws) (rows.map (rowText P st.side ws)) ++
    sepLine st.bottom ws

/-- the format of lists (src/expr.rs:249-256) -/
def listStyle : TableStyle where
  side := '┃'
  top := ('━', '┳', '┏', '┓')
  inner := ('━', '╋', '┣', '┫')
  bottom := ('━', '┻', '┗', '┛')

/-- the format of maps (src/expr.rs:284-292) -/
def mapStyle : TableStyle where
  side := '│'
  top := ('═', '╤', '╒', '╕')
  inner := ('─', '┼', '├', '┤')
  bottom := ('─', '┴', '└', '┘')

/-- the bytes of the first line (266-271) -/
def firstLen (s : Str) : Nat :=
  if s.contains '\n' then utf8Len ((linesOf s).headD []) else utf8Len s

/-- `total_len` (259-273) -/
def totalLen (cells : List Str) : Nat := cells.foldl (fun n c => n + (firstLen c + 1)) 1

/-- `specified_width - key.len() - 3` (307): `none` is a panic, without overflow checks it wraps. -/
def innerWidth (P : Plat) (w : Nat) (key : Str) : Option Nat :=
  if utf8Len key + 3 ≤ w then some (w - utf8Len key - 3)
  else if P.overflowChecks then none
  else some (((w : Int) - utf8Len key - 3) % 2 ^ 64).toNat

/-- the cell of an item which shows as `s` (261-264) -/
def cellText (P : Plat) (e : Expr) (s : Str) : Str :=
  match e with
  | .str x => debugStr P x
  | _ => s

/-- the width for the value of a map entry: the same for a map (304), less for a list (307) -/
def entryWidth (P : Plat) (w : Nat) (k : Str) (e : Expr) : Option Nat :=
  match e with
  | .list _ => innerWidth P w k
  | _ => some w

/-- the row of a map entry (295-317) whose value, if it is a map or a list, shows as `s` for the width
`w'` -/
def entryRow (P : Plat) (w : Nat) (k : Str) (e : Expr) (w' : Nat) (s : Str) : List Str :=
  match e with
  | .builtin n _ help => [k, c!"builtin@" ++ n, P.fill help (w / 6)]
  | .map _ => [k, s]
  | .list _ => [k, P.fill s w']
  | _ => [k, P.fill (debug P e) (w / 3)]

mutual

/-- `Display for Expression` (src/expr.rs:225-352) with `specified_width = w`; `none` is a panic. -/
def shown (P : Plat) : Nat → Expr → Option Str
  | _, .str s => some s
  | w, .list l => do
    let cells ← shownCells P l
    if w < totalLen cells then some (debug P (.list l)) else some (renderTable P listStyle [cells])
  | w, .map m => do
    let rows ← shownRows P w m
    some (renderTable P mapStyle rows)
  | _, e => some (debug P e)

/-- the cells of a list (260-275); nested values are shown for the width of the terminal -/
def shownCells (P : Plat) : List Expr → Option (List Str)
  | [] => some []
  | e :: es => do
    let s ← shown P P.width e
    let ss ← shownCells P es
    some (cellText P e s :: ss)

/-- the rows of a map (294-318) -/
def shownRows (P : Plat) (w : Nat) : List (Str × Expr) → Option (List (List Str))
  | [] => some []
  | (k, e) :: m => do
    let w' ← entryWidth P w k e
    let s ← shown P w' e
    let rows ← shownRows P w m
    some (entryRow P w k e w' s :: rows)

end

/-- `to_string`, `format!("{}", e)`: `Display` for the width of the terminal.  Simplification: where the
layout panics (exactly when is property C98) the model goes on with the empty text. -/
def display (P : Plat) (e : Expr) : Str := (shown P P.width e).getD []

theorem display_str (P : Plat) (s : Str) : display P (.str s) = s := rfl

theorem display_int (P : Plat) (i : I64) : display P (.int i) = intToStr i.val := rfl

namespace Error

/-- `Error::code` (src/error.rs:50-62). -/
def code : Error → I64
  | .cannotApply .. => .lit 1
  | .symbolNotDefined .. => .lit 2
  | .commandFailed .. => .lit 3
  | .forNonList .. => .lit 4
  | .recursionDepth .. => .lit 5
  | .customError .. => .lit 9
  | .permissionDenied .. => .lit 9
  | .programNotFound .. => .lit 9
  | .syntaxError .. => .lit 9

/-- `Error::codes` (src/error.rs:35-47). -/
def codes : Expr := .map (BMap.ofList [
  (c!"cannot-apply", .int (.lit 1)),
  (c!"symbol-not-defined", .int (.lit 2)),
  (c!"command-failed", .int (.lit 3)),
  (c!"for-non-list", .int (.lit 4)),
  (c!"recursion-depth", .int (.lit 5)),
  (c!"permission-denied", .int (.lit 6)),
  (c!"program-not-found", .int (.lit 7)),
  (c!"syntax-error", .int (.lit 8)),
  (c!"custom-error", .int (.lit 9))])

end Error

end Dune
