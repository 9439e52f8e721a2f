import Verif.Model.Text

/-!
The tokenizer (src/tokenizer.rs, src/tokens.rs).

Simplification: an `Input` (`&Str` with an offset) is the offset and the remaining characters, which
is what dereferencing it gives.
-/

namespace Dune

/-- The first `n` bytes of a string, as text, and the rest; `none` if `n` is out of range or inside
a character, where slicing a `str` panics. -/
def takeBytes : Nat → Str → Option (Str × Str)
  | 0, s => some ([], s)
  | _ + 1, [] => none
  | n + 1, c :: s =>
    if c.utf8Size ≤ n + 1 then (takeBytes (n + 1 - c.utf8Size) s).map fun p => (c :: p.1, p.2)
    else none

/-- `s[a..b]`; `none` is a panic. -/
def sliceStr (s : Str) (a b : Nat) : Option Str :=
  match takeBytes a s with
  | some (_, r) => if a ≤ b then (takeBytes (b - a) r).map Prod.fst else none
  | none => none

/-- `enum TokenKind` (src/tokens.rs:104-116) -/
inductive TokenKind
  | punctuation
  | operator
  | keyword
  | stringLiteral
  | integerLiteral
  | floatLiteral
  | booleanLiteral
  | symbol
  | whitespace
  | comment
deriving DecidableEq

/-- `struct Token` (src/tokens.rs:87-91) -/
structure Token where
  kind : TokenKind
  range : Range
deriving DecidableEq

namespace Lex

/-- `struct Input` (src/tokens.rs:6-10) -/
structure Input where
  off : Nat
  rest : Str

/-- `TokenizationResult` (src/tokenizer.rs:39), with panics and exhausted fuel explicit. -/
inductive R (α : Type)
  | ok (i : Input) (a : α)
  | notFound
  | panic
  | noFuel

/-- the `?` operator -/
def R.bind {α β : Type} : R α → (Input → α → R β) → R β
  | .ok i a, f => f i a
  | .notFound, _ => .notFound
  | .panic, _ => .panic
  | .noFuel, _ => .noFuel

/-- `Option::or_else` and `Option::unwrap_or_else` on the result of a parser -/
def R.orElse {α : Type} : R α → R α → R α
  | .notFound, s => s
  | r, _ => r

/-- `Input::split_at` (src/tokens.rs:46-53): `Str::get` panics like slicing. -/
def Input.splitAt (i : Input) (n : Nat) : R Range :=
  match takeBytes n i.rest with
  | some (_, r) => .ok ⟨i.off + n, r⟩ ⟨i.off, i.off + n⟩
  | none => .panic

/-- `str::len` of the remaining input -/
def Input.len (i : Input) : Nat := utf8Len i.rest

/-- `Input::split_saturating` (src/tokens.rs:55-57) -/
def Input.splitSaturating (i : Input) (n : Nat) : R Range := i.splitAt (min n i.len)

/-- `Input::split_until` (src/tokens.rs:59-63); the subtraction would panic if it underflowed. -/
def Input.splitUntil (i j : Input) : R Range :=
  if j.len ≤ i.len then i.splitAt (i.len - j.len) else .panic

/-- `Input::strip_prefix` (src/tokens.rs:65-71) -/
def Input.stripPrefix (i : Input) (p : Str) : R Range :=
  if p.isPrefixOf i.rest then i.splitAt (utf8Len p) else .notFound

/-- `nom::branch::alt` -/
def alt {α : Type} : List (Input → R α) → Input → R α
  | [], _ => .notFound
  | p :: ps, i =>
    match p i with
    | .notFound => alt ps i
    | r => r

/-- `is_symbol_char` (src/tokenizer.rs:344-373) -/
def isSymbolChar (c : Char) : Bool :=
  ('a' ≤ c && c ≤ 'z') || ('A' ≤ c && c ≤ 'Z') || ('0' ≤ c && c ≤ '9') ||
    [ '_', '+', '-', '.', '~', '\\', '/', '?', '&', '<', '>', '$', '%', '#', '^', ':' ].contains c

/-- `char::is_ascii_digit` -/
def isDigit (c : Char) : Bool := '0' ≤ c && c ≤ '9'

/-- `char::is_ascii_hexdigit` -/
def isHexDigit (c : Char) : Bool := isDigit c || ('a' ≤ c && c ≤ 'f') || ('A' ≤ c && c ≤ 'F')

/-- `char::is_ascii_whitespace` -/
def isAsciiWhitespace (c : Char) : Bool :=
  c = ' ' || c = '\t' || c = '\n' || c = '\r' || c = Char.ofNat 12

/-- `punctuation_tag` (src/tokenizer.rs:339-341) -/
def punctuationTag (p : Str) (i : Input) : R Range := i.stripPrefix p

/-- the remaining input starts with a symbol character -/
def startsSymbol (s : Str) : Bool :=
  match s with
  | c :: _ => isSymbolChar c
  | [] => false

/-- `keyword_tag` (src/tokenizer.rs:326-333) -/
def keywordTag (p : Str) (i : Input) : R Range :=
  match i.stripPrefix p with
  | .ok r s => if startsSymbol r.rest then .notFound else .ok r s
  | r => r

/-- `any_punctuation` (src/tokenizer.rs:76-91) -/
def anyPunctuation : Input → R Range := alt
  [punctuationTag c!"(", punctuationTag c!")", punctuationTag c!"[", punctuationTag c!"]",
    punctuationTag c!"{", punctuationTag c!"}", punctuationTag c!"'", punctuationTag c!",",
    punctuationTag c!";", punctuationTag c!"=", keywordTag c!"->", keywordTag c!"~>"]

/-- `long_operator` (src/tokenizer.rs:93-107) -/
def longOperator : Input → R Range := alt
  [keywordTag c!"to", keywordTag c!"==", keywordTag c!"!=", keywordTag c!">=", keywordTag c!"<=",
    keywordTag c!"&&", keywordTag c!"||", keywordTag c!"//", keywordTag c!"<<", keywordTag c!">>",
    keywordTag c!">>>"]

/-- `short_operator` (src/tokenizer.rs:109-121) -/
def shortOperator : Input → R Range := alt
  [keywordTag c!"<", keywordTag c!">", keywordTag c!"+", keywordTag c!"-", keywordTag c!"*",
    keywordTag c!"%", keywordTag c!"|", punctuationTag c!"@", punctuationTag c!"!"]

/-- `any_keyword` (src/tokenizer.rs:123-133) -/
def anyKeyword : Input → R Range := alt
  [keywordTag c!"None", keywordTag c!"then", keywordTag c!"else", keywordTag c!"let",
    keywordTag c!"for", keywordTag c!"if", keywordTag c!"in"]

/-- `bool_literal` (src/tokenizer.rs:186-188) -/
def boolLiteral : Input → R Range := alt [keywordTag c!"True", keywordTag c!"False"]

/-- `parse_hex_digit` (src/tokenizer.rs:255-263) -/
def parseHexDigit (i : Input) : R Range :=
  match i.rest with
  | c :: _ => if isHexDigit c then i.splitAt 1 else .notFound
  | [] => .notFound

/-- the loop of `fold_many_m_n(1, 5, parse_hex_digit, ..)`; `n` more digits may follow. Joining the
ranges of adjacent digits gives the range from the first to the last. -/
def manyHex : Nat → Input → R Unit
  | 0, i => .ok i ()
  | n + 1, i =>
    match parseHexDigit i with
    | .ok r _ => manyHex n r
    | .notFound => .ok i ()
    | .panic => .panic
    | .noFuel => .noFuel

/-- `fold_many_m_n(1, 5, parse_hex_digit, ..)` (src/tokenizer.rs:281-290) -/
def hexDigits (i : Input) : R Range :=
  (parseHexDigit i).bind fun r _ => (manyHex 4 r).bind fun r' _ => .ok r' ⟨i.off, r'.off⟩

/-- the value of a hexadecimal digit -/
def hexVal (c : Char) : Nat :=
  if isDigit c then c.toNat - 48
  else if 'a' ≤ c && c ≤ 'f' then c.toNat - 87
  else c.toNat - 55

/-- `u32::from_str_radix(_, 16)` of hexadecimal digits -/
def hexNum (s : Str) : Nat := s.foldl (fun n c => 16 * n + hexVal c) 0

/-- `char::try_from(n).is_ok()` -/
def isScalar (n : Nat) : Bool := n < 0xD800 || (0xDFFF < n && n < 0x110000)

/-- `parse_escape` (src/tokenizer.rs:254-321).  The digits are the text of `range`, that is, as many
characters of the input as the range has bytes. -/
def parseEscape (i : Input) : R Diagnostic :=
  (punctuationTag c!"\\" i).bind fun rest _ =>
  match alt [punctuationTag c!"\"", punctuationTag c!"\\", punctuationTag c!"b",
      punctuationTag c!"f", punctuationTag c!"n", punctuationTag c!"r", punctuationTag c!"t"] rest with
  | .ok r _ => .ok r .valid
  | .panic => .panic
  | .noFuel => .noFuel
  | .notFound =>
    match (punctuationTag c!"u{" rest).bind fun r _ =>
        (hexDigits r).bind fun r' range => .ok r' (range, r.rest.take (range.stop - range.start)) with
    | .ok r (range, hex) =>
      if isScalar (hexNum hex) then
        match punctuationTag c!"}" r with
        | .ok r _ => .ok r .valid
        | .panic => .panic
        | .noFuel => .noFuel
        | .notFound => (i.splitUntil r).bind fun r range => .ok r (.invalidStringEscapes [range])
      else .ok r (.invalidStringEscapes [range])
    | .panic => .panic
    | .noFuel => .noFuel
    | .notFound => (i.splitSaturating 2).bind fun r range => .ok r (.invalidStringEscapes [range])

/-- `parse_string_inner` (src/tokenizer.rs:228-252): the loop, with the errors so far. -/
def stringInner : Nat → Input → List Range → R (List Range)
  | 0, _, _ => .noFuel
  | fuel + 1, i, errors =>
    match i.rest with
    | [] => .ok i errors
    | c :: _ =>
      if c = '"' then .ok i errors
      else if c = '\\' then
        (parseEscape i).bind fun r d =>
          match d with
          | .invalidStringEscapes (range :: _) => stringInner fuel r (errors ++ [range])
          | .invalidStringEscapes [] => .panic
          | _ => stringInner fuel r errors
      else (i.splitAt c.utf8Size).bind fun r _ => stringInner fuel r errors

/-- `string_literal` (src/tokenizer.rs:135-143); the fuel suffices for every input. -/
def stringLiteral (i : Input) : R (Token × Diagnostic) :=
  (punctuationTag c!"\"" i).bind fun r _ =>
  (stringInner (r.rest.length + 1) r []).bind fun r errors =>
  (alt [punctuationTag c!"\"",
    fun j => if j.rest = [] then .ok j ⟨i.off, i.off⟩ else .notFound] r).bind fun r _ =>
  (i.splitUntil r).bind fun r range =>
    .ok r (⟨.stringLiteral, range⟩, if errors = [] then .valid else .invalidStringEscapes errors)

/-- the number of leading ASCII digits -/
def places (s : Str) : Nat := (s.takeWhile isDigit).length

/-- `number_literal` (src/tokenizer.rs:145-184) -/
def numberLiteral (i : Input) : R (Token × Diagnostic) :=
  ((i.stripPrefix c!"-").orElse (i.splitAt 0)).bind fun rest _ =>
  ((rest.stripPrefix c!"0").orElse
    (if places rest.rest > 0 then rest.splitAt (places rest.rest) else .notFound)).bind fun rest _ =>
  match rest.stripPrefix c!"." with
  | .notFound => (i.splitUntil rest).bind fun r number => .ok r (⟨.integerLiteral, number⟩, .valid)
  | .panic => .panic
  | .noFuel => .noFuel
  | .ok rest _ =>
    if places rest.rest = 0 then
      (i.splitUntil rest).bind fun r range => .ok r (⟨.floatLiteral, range⟩, .invalidNumber range)
    else
      (rest.splitAt (places rest.rest)).bind fun rest _ =>
      (i.splitUntil rest).bind fun r range => .ok r (⟨.floatLiteral, range⟩, .valid)

/-- `symbol` (src/tokenizer.rs:190-202) -/
def symbol (i : Input) : R Range :=
  let len := utf8Len (i.rest.takeWhile isSymbolChar)
  if len = 0 then .notFound else i.splitAt len

/-- `whitespace` (src/tokenizer.rs:204-212) -/
def whitespace (i : Input) : R Range :=
  let n := (i.rest.takeWhile isAsciiWhitespace).length
  if n = 0 then .notFound else i.splitAt n

/-- `comment` (src/tokenizer.rs:214-226) -/
def comment (i : Input) : R Range :=
  match i.rest with
  | '#' :: _ => i.splitAt (utf8Len (i.rest.takeWhile fun c => !(c = '\r' || c = '\n')))
  | _ => .notFound

/-- `map_valid_token` (src/tokenizer.rs:66-74) -/
def validToken (p : Input → R Range) (kind : TokenKind) (i : Input) : R (Token × Diagnostic) :=
  (p i).bind fun r s => .ok r (⟨kind, s⟩, .valid)

/-- `parse_token` (src/tokenizer.rs:41-64) -/
def parseToken (i : Input) : R (Token × Diagnostic) :=
  match i.rest with
  | [] => .notFound
  | c :: _ =>
    match alt [validToken longOperator .operator, validToken anyPunctuation .punctuation,
        validToken anyKeyword .keyword, validToken shortOperator .operator,
        validToken boolLiteral .booleanLiteral, validToken comment .comment, stringLiteral,
        numberLiteral, validToken symbol .symbol, validToken whitespace .whitespace] i with
    | .notFound => (i.splitAt c.utf8Size).bind fun r range =>
        .ok r (⟨.symbol, range⟩, .illegalChar range)
    | r => r

/-- `parse_tokens` (src/tokenizer.rs:375-392): the loop, with the tokens and diagnostics so far. -/
def parseTokens : Nat → Input → List Token → List Diagnostic →
    Outcome (List Token × List Diagnostic)
  | 0, _, _, _ => .noFuel
  | fuel + 1, i, ts, ds =>
    match parseToken i with
    | .ok r (t, d) => parseTokens fuel r (ts ++ [t]) (ds ++ [d])
    | .notFound =>
      if i.rest = [] then .ok (ts, ds) else .ok (ts, ds ++ [.notTokenized ⟨i.off, i.off + i.len⟩])
    | .panic => .panic
    | .noFuel => .noFuel

end Lex

/-- `tokenize` (src/tokenizer.rs:394-398), running the loop at most `fuel` times. -/
def tokenizeN (fuel : Nat) (s : Str) : Outcome (List Token × List Diagnostic) :=
  Lex.parseTokens fuel ⟨0, s⟩ [] []

/-- `tokenize` (src/tokenizer.rs:394-398); the fuel suffices for every input. -/
def tokenize (s : Str) : Outcome (List Token × List Diagnostic) := tokenizeN (s.length + 1) s

end Dune
