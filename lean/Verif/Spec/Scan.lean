import Verif.Spec.Grammar

/-!
The lexical grammar, stated without the tokenizer: which texts are single words, and which words may
stand next to each other.
-/

namespace Dune.Spec

/-- Characters of names. -/
def nameChars : Str :=
  c!"abcdefghijklmnopqrstuvwxyzABCDEFGHIJKLMNOPQRSTUVWXYZ0123456789_+-.~\\/?&<>$%#^:"

def digitChars : Str := c!"0123456789"

def spaceChars : Str := [' ', '\t', '\n', '\r', Char.ofNat 12]

/-- A whole number without superfluous zeros. -/
def Canonical (ds : Str) : Prop :=
  ds = c!"0" ∨ ∃ d r, ds = d :: r ∧ d ≠ '0' ∧ ∀ c ∈ d :: r, c ∈ digitChars

/-- The value of a digit string. -/
def decimal (ds : Str) : Nat := ds.foldl (fun n c => 10 * n + (c.toNat - 48)) 0

/-- The value of a number with a sign. -/
def signed (sign ds : Str) : Int := if sign = [] then decimal ds else -(decimal ds : Int)

/-- A single word. -/
inductive Lexeme : Word → Prop
  | space {s} : s ≠ [] → (∀ c ∈ s, c ∈ spaceChars) → Lexeme (.whitespace, s)
  | comment {s} : '\n' ∉ s → '\r' ∉ s → Lexeme (.comment, '#' :: s)
  | punct {s} : s ∈ [c!"(", c!")", c!"[", c!"]", c!"{", c!"}", c!"'", c!",", c!";", c!"=", c!"->",
      c!"~>"] → Lexeme (pw s)
  | op {s} : s ∈ c!"@" :: opNames → Lexeme (ow s)
  | keyword {s} : s ∈ [c!"None", c!"then", c!"else", c!"let", c!"for", c!"if", c!"in"] → Lexeme (kw s)
  | bool {s} : s ∈ [c!"True", c!"False"] → Lexeme (.booleanLiteral, s)
  | str {b v} : Lex.Denotes b v → Lexeme (.stringLiteral, '"' :: b ++ ['"'])
  | int {sign ds} : sign ∈ [[], c!"-"] → Canonical ds → Lexeme (.integerLiteral, sign ++ ds)
  | float {sign ds fs} : sign ∈ [[], c!"-"] → Canonical ds → fs ≠ [] → (∀ c ∈ fs, c ∈ digitChars) →
      Lexeme (.floatLiteral, sign ++ ds ++ '.' :: fs)
  | name {c s} : (∀ x ∈ c :: s, x ∈ nameChars) → c :: s ∉ reserved →
      c :: s ∉ [c!"True", c!"False"] → c ≠ '#' → c ∉ digitChars →
      (∀ d r, c = '-' → s = d :: r → d ∉ digitChars) → Lexeme (.symbol, c :: s)

/-- What follows does not continue a word. -/
def Stops (rest : Str) : Prop := ∀ c r, rest = c :: r → c ∉ nameChars ∧ c ≠ '=' ∧ c ≠ '|'

/-- The word ends before this text. -/
def EndsAt (w : Word) (rest : Str) : Prop :=
  match w.1 with
  | .whitespace => ∀ c r, rest = c :: r → c ∉ spaceChars
  | .comment => ∀ c r, rest = c :: r → c = '\n' ∨ c = '\r'
  | .punctuation => w.2 ∈ [c!"=", c!"->", c!"~>"] → Stops rest
  | .operator => w.2 ≠ c!"@" → Stops rest
  | .stringLiteral => True
  | _ => Stops rest

/-- The text of a sequence of words. -/
def textOf (ws : List Word) : Str := ws.flatMap Prod.snd

/-- A sequence of words, each ending where the next begins. -/
def Line : List Word → Prop
  | [] => True
  | w :: ws => Lexeme w ∧ EndsAt w (textOf ws) ∧ Line ws

/-- The words with a space after each. -/
def spaced (ws : List Word) : Str := ws.flatMap fun w => w.2 ++ c!" "

end Dune.Spec
