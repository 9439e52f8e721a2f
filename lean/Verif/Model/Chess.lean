import Verif.Model.Shell
import Verif.Model.Builtins

/-!
`chess` (src/binary/init/chess_module.rs), which exists if the shell is compiled with the feature `chess-engine`.
The crate `chess_engine` is a parameter.  The line editor is one request, as in `input`.

Simplifications: the loop runs at most `fuel` times; the variable `history`, which is never read, is left out.
-/

namespace Dune.Chess

/-- `chess_engine::Color` -/
inductive Color
  | white
  | black
deriving DecidableEq

/-- `!color` -/
def Color.other : Color → Color
  | .white => .black
  | .black => .white

/-- `chess_engine::GameResult` -/
inductive Result (B : Type)
  | continuing (b : B)
  | victory (winner : Color)
  | illegal
  | stalemate

/-- The crate `chess_engine`, as far as it is used. -/
structure Engine (B Mv : Type) where
  /-- `Board::default()` -/
  start : B
  /-- `get_turn_color` -/
  turn : B → Color
  /-- `get_best_next_move(4).0` -/
  best : B → Mv
  /-- `play_move` -/
  play : B → Mv → Result B
  /-- `Move::try_from`, with the text of the error -/
  parse : Str → Except Str Mv
  /-- `Display` of a board, a move, a color -/
  board : B → Str
  move : Mv → Str
  color : Color → Str

variable {W B Mv : Type}

/-- `println!`: panics if standard output cannot be written. -/
def printLine (H : Host W) (s : Str) : M W Unit := do
  match ← M.io H (.print (s ++ c!"\n")) with
  | .err _ => M.lift .panic
  | _ => pure ()

/-- `crate::readline` (src/bin.rs:84-103), as in `input` -/
def readLine (H : Host W) : M W Str := do
  match ← M.io H (.editLine c!"Enter move: ") with
  | .str s => pure s
  | .unit => M.lift (.exit 0)
  | _ => M.lift .panic

/-- the move is played (chess_module.rs:54-77); `none`: the loop ends with this value of `won` -/
def played (H : Host W) (E : Engine B Mv) (me : Color) (b : B) (m : Mv) : M W (Except Bool B) :=
  match E.play b m with
  | .continuing b' => pure (.ok b')
  | .victory w => do
    printLine H (E.board b)
    printLine H (c!"Checkmate! " ++ E.color w.other ++ c!" loses. " ++ E.color w ++ c!" is victorious!")
    pure (.error (decide (me = w)))
  | .illegal => do
    eprintLine H (E.move m ++ c!" is an illegal move.")
    pure (.ok b)
  | .stalemate => do
    printLine H c!"Drawn game."
    pure (.error false)

/-- one round of the loop (chess_module.rs:24-78) -/
def round (H : Host W) (E : Engine B Mv) (me : Color) (b : B) : M W (Except Bool B) :=
  if me ≠ E.turn b then do
    printLine H c!"Waiting for CPU to annihilate your position..."
    played H E me b (E.best b)
  else do
    printLine H (c!"Your move!\n" ++ E.board b)
    let s ← readLine H
    let s := trim s
    if s = [] then do
      eprintLine H c!"That's not a move!"
      pure (.ok b)
    else if s = c!"q" ∨ s = c!"quit" ∨ s = c!"exit" then do
      printLine H c!"Bye!"
      pure (.error false)
    else
      match E.parse s with
      | .ok m => played H E me b m
      | .error e => do
        eprintLine H e
        pure (.ok b)

/-- the loop (chess_module.rs:24-78) -/
def loop (H : Host W) (E : Engine B Mv) (me : Color) : Nat → B → M W Bool
  | 0, _ => M.lift .noFuel
  | n + 1, b => do
    match ← round H E me b with
    | .ok b' => loop H E me n b'
    | .error won => pure won

/-- `chess` (chess_module.rs:3-80); the argument is not evaluated -/
def chessFn (H : Host W) (E : Engine B Mv) (fuel : Nat) (args : List Expr) : M W Expr :=
  match args with
  | [] => M.lift .panic
  | a :: _ =>
    let start (me : Color) : M W Expr := do
      let won ← loop H E me fuel E.start
      pure (.bool won)
    match a with
    | .str s | .symbol s =>
      if s = c!"white" then start .white
      else if s = c!"black" then start .black
      else M.throw (.customError c!"call chess with a color, like \"black\" or \"white\"")
    | _ => M.throw (.customError c!"call chess with a color, like \"black\" or \"white\"")

end Dune.Chess
