import Verif.Model.Parser

/-!
The lexical reading of a script, stated without the parser: its tokens with their texts, and the
two lexical conditions.
-/

namespace Dune.Spec

/-- A token as the reader sees it: its kind and its text. -/
abbrev Word := TokenKind × Str

/-- Kinds of which two may not touch. -/
def wordLike (k : TokenKind) : Prop :=
  k = .symbol ∨ k = .keyword ∨ k = .operator ∨ k = .booleanLiteral ∨ k = .floatLiteral ∨
    k = .integerLiteral

/-- Two neighbouring tokens that may not touch. -/
def Clash (a b : Word) : Prop := wordLike a.1 ∧ wordLike b.1 ∧ a.2 ≠ c!"@" ∧ b.2 ≠ c!"@"

/-- The tokens of a text, in order. -/
def Tokens (src : Str) (ws : List Word) : Prop :=
  ∃ ts ds, tokenize src = .ok (ts, ds) ∧ ts.map (fun t => t.kind) = ws.map Prod.fst ∧
    ts.map (fun t => sliceStr src t.range.start t.range.stop) = ws.map fun w => some w.2

/-- No token has a diagnostic. -/
def NoDiagnostics (src : Str) : Prop :=
  ∃ ts ds, tokenize src = .ok (ts, ds) ∧ ∀ d ∈ ds, d = .valid

/-- The text passes the lexical checks, and these are its tokens. -/
structure Reads (src : Str) (ws : List Word) : Prop where
  tokens : Tokens src ws
  valid : NoDiagnostics src
  apart : ∀ u a b v, ws = u ++ a :: b :: v → ¬ Clash a b

/-- neither whitespace nor a comment -/
def isSolid (w : Word) : Bool := w.1 ≠ .whitespace && w.1 ≠ .comment

/-- The text passes the lexical checks, and these are its tokens without whitespace and comments. -/
def Words (src : Str) (ws : List Word) : Prop := ∃ all, Reads src all ∧ all.filter isSolid = ws

end Dune.Spec
