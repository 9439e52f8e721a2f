import Verif.Model.Syntax
import Verif.Spec.Scan

/-!
A character terminal: what the text sent to it does to the screen.  Rows and columns are numbered from
one.  Every printable character takes one cell.
-/

namespace Dune.Spec

/-- What the terminal does with the next character. -/
inductive TermState
  /-- show it -/
  | ground
  /-- after the escape character -/
  | esc
  /-- in a control sequence, with its parameters so far -/
  | csi (params : Str)
  /-- in a command to the system, with its text so far -/
  | osc (text : Str)
  deriving DecidableEq

structure Term where
  rows : Nat
  cols : Nat
  cell : Nat → Nat → Char
  row : Nat
  /-- one more than `cols` if the last column has just been written -/
  col : Nat
  saved : Nat × Nat
  cursor : Bool
  alternate : Bool
  title : Str
  state : TermState

/-- The characters that are shown. -/
def Printable (c : Char) : Prop := 32 ≤ c.toNat ∧ c.toNat ≠ 127 ∧ (c.toNat < 128 ∨ 160 ≤ c.toNat)

instance (c : Char) : Decidable (Printable c) := by unfold Printable; infer_instance

/-- a position on an axis of this length -/
def onAxis (len n : Nat) : Nat := min len (max 1 n)

/-- The first number of a control sequence, one if it is missing or zero. -/
def firstParam (ps : Str) : Nat := max 1 (decimal (ps.takeWhile (· ≠ ';')))

/-- The second number of a control sequence. -/
def secondParam (ps : Str) : Nat :=
  max 1 (decimal (((ps.dropWhile (· ≠ ';')).drop 1).takeWhile (· ≠ ';')))

namespace Term

/-- one row down, scrolling at the last one -/
def newline (t : Term) : Term :=
  if t.row < t.rows then { t with row := t.row + 1, col := 1 }
  else { t with col := 1, cell := fun r c => if r < t.rows then t.cell (r + 1) c else ' ' }

/-- show a character at the cursor -/
def put (t : Term) (x : Char) : Term :=
  let t := if t.cols < t.col then t.newline else t
  { t with cell := fun r c => if r = t.row ∧ c = t.col then x else t.cell r c, col := t.col + 1 }

/-- the control sequences; those not listed here do not change what is modelled -/
def control (t : Term) (params : Str) (final : Char) : Term :=
  let n := firstParam params
  match final with
  | 'H' | 'f' => { t with row := onAxis t.rows n, col := onAxis t.cols (secondParam params) }
  | 'A' => { t with row := onAxis t.rows (t.row - n) }
  | 'B' => { t with row := onAxis t.rows (t.row + n) }
  | 'C' => { t with col := onAxis t.cols (t.col + n) }
  | 'D' => { t with col := onAxis t.cols (min t.cols t.col - n) }
  | 's' => { t with saved := (t.row, t.col) }
  | 'u' => { t with row := t.saved.1, col := t.saved.2 }
  | 'J' => if params = c!"2" then { t with cell := fun _ _ => ' ' } else t
  | 'h' =>
    if params = c!"?25" then { t with cursor := true }
    else if params = c!"?1049" then { t with alternate := true } else t
  | 'l' =>
    if params = c!"?25" then { t with cursor := false }
    else if params = c!"?1049" then { t with alternate := false } else t
  | _ => t

/-- a command to the system: `2;` sets the title -/
def command (t : Term) : Str → Term
  | '2' :: ';' :: title => { t with title }
  | _ => t

/-- the next character -/
def next (t : Term) (c : Char) : Term :=
  match t.state with
  | .ground =>
    if c = '\x1b' then { t with state := .esc }
    else if c = '\n' then t.newline
    else if c = '\r' then { t with col := 1 }
    else if Printable c then t.put c else t
  | .esc =>
    if c = '[' then { t with state := .csi [] }
    else if c = ']' then { t with state := .osc [] }
    else { t with state := .ground }
  | .csi ps =>
    if c = '\x1b' then { t with state := .esc }
    else if 64 ≤ c.toNat then { t.control ps c with state := .ground }
    else { t with state := .csi (ps ++ [c]) }
  | .osc s =>
    if c = '\x07' then { t.command s with state := .ground }
    else if c = '\x1b' then { t.command s with state := .esc }
    else { t with state := .osc (s ++ [c]) }

/-- The terminal after it got the text. -/
def feed (t : Term) (s : Str) : Term := s.foldl next t

end Term

/-- The character of a picture, whose upper left corner is in column `x` and row `y`, at a position. -/
def pictureAt (lines : List Str) (x y r c : Nat) : Option Char :=
  if x ≤ c ∧ y ≤ r then (lines[r - y]?).bind fun l => l[c - x]? else none

end Dune.Spec
