import Verif.Model.Tokenizer

/-! What a string literal denotes. -/

namespace Dune.Lex

/-- The hexadecimal digits and their values. -/
def hexTable : List (Char × Nat) :=
  c!"0123456789abcdef".zip (List.range 16) ++ c!"ABCDEF".zip [10, 11, 12, 13, 14, 15]

/-- The number written by these hexadecimal digits. -/
inductive Hex : Str → Nat → Prop
  | nil : Hex [] 0
  | snoc {s n c d} : Hex s n → (c, d) ∈ hexTable → Hex (s ++ [c]) (16 * n + d)

/-- What the inside of a string literal denotes: an escape stands for one character, every other
character for itself. -/
inductive Denotes : Str → Str → Prop
  | nil : Denotes [] []
  | char {c s v} : c ≠ '"' → c ≠ '\\' → Denotes s v → Denotes (c :: s) (c :: v)
  | esc {e x s v} : (e, x) ∈ [('"', '"'), ('\\', '\\'), ('b', Char.ofNat 8), ('f', Char.ofNat 12),
      ('n', '\n'), ('r', '\r'), ('t', '\t')] → Denotes s v → Denotes ('\\' :: e :: s) (x :: v)
  /-- one to five digits, for the number of a character: not beyond them, and not a surrogate -/
  | unicode {hex n s v} : hex ≠ [] → hex.length ≤ 5 → Hex hex n →
      (n < 0xD800 ∨ 0xDFFF < n ∧ n < 0x110000) → Denotes s v →
      Denotes (c!"\\u{" ++ hex ++ c!"}" ++ s) (Char.ofNat n :: v)

/-- A string literal; the closing quote is missing only at the end of the input. -/
def StrLit (t v : Str) : Prop := ∃ b, Denotes b v ∧ (t = '"' :: b ∨ t = '"' :: b ++ ['"'])

end Dune.Lex
