import Verif.Model.Plat

/-!
The functions of the Rust standard library on strings, bytes and paths that the builtins use.
They are modelled from their documentation; UTF-8 substring search is the same as substring search
on characters because UTF-8 is self-synchronizing.
-/

namespace Dune

/-- `str::as_bytes`: the UTF-8 encoding. -/
def utf8Encode (s : Str) : List UInt8 := s.flatMap String.utf8EncodeChar

/-- `String::from_utf8(b).ok()`. -/
def utf8Decode (b : List UInt8) : Option Str := (b.toByteArray.utf8Decode?).map Array.toList

/-- `char::is_whitespace` (the Unicode property White_Space). -/
def isWhitespace (c : Char) : Bool :=
  let n := c.toNat
  (9 ≤ n && n ≤ 13) || n = 32 || n = 0x85 || n = 0xA0 || n = 0x1680 ||
    (0x2000 ≤ n && n ≤ 0x200A) || n = 0x2028 || n = 0x2029 || n = 0x202F || n = 0x205F || n = 0x3000

/-- `str::trim_start`. -/
def trimStart (s : Str) : Str := s.dropWhile isWhitespace

/-- `str::trim_end`. -/
def trimEnd (s : Str) : Str := (s.reverse.dropWhile isWhitespace).reverse

/-- `str::trim`. -/
def trim (s : Str) : Str := trimEnd (trimStart s)

/-- Non-overlapping occurrences of the non-empty `sep` from left to right; `skip` characters of an
occurrence are still to be skipped, `cur` is the current piece, reversed. -/
def splitGo (sep : Str) : Nat → Str → Str → List Str
  | _, [], cur => [cur.reverse]
  | skip + 1, _ :: cs, cur => splitGo sep skip cs cur
  | 0, c :: cs, cur =>
    if sep.isPrefixOf (c :: cs) then cur.reverse :: splitGo sep (sep.length - 1) cs []
    else splitGo sep 0 cs (c :: cur)

/-- `str::split(&str)`; the empty separator matches between all characters and at both ends. -/
def splitStr (sep s : Str) : List Str :=
  if sep = [] then [] :: (s.map fun c => [c]) ++ [[]] else splitGo sep 0 s []

/-- `str::replace(old, new)`: the pieces of the split, joined by `new`. -/
def replaceStr (s old new : Str) : Str :=
  match splitStr old s with
  | [] => []
  | p :: ps => p ++ ps.flatMap fun q => new ++ q

/-- `str::contains(&str)`. -/
def containsStr (sub : Str) : Str → Bool
  | [] => sub.isEmpty
  | c :: cs => sub.isPrefixOf (c :: cs) || containsStr sub cs

/-- the pieces of `str::split_inclusive('\n')`, without their terminating `\n` or `\r\n`; `cur` is
the current line, reversed -/
def linesGo : Str → Str → List Str
  | [], cur => if cur = [] then [] else [cur.reverse]
  | c :: cs, cur =>
    if c = '\n' then
      (match cur with
        | '\r' :: cur' => cur'.reverse
        | _ => cur.reverse) :: linesGo cs []
    else linesGo cs (c :: cur)

/-- `str::lines` (Rust 1.71 and later: a lone trailing `\r` is kept). -/
def linesOf (s : Str) : List Str := linesGo s []

/-- `str::split_whitespace`. -/
def wordsGo : Str → Str → List Str
  | [], cur => if cur = [] then [] else [cur.reverse]
  | c :: cs, cur =>
    if isWhitespace c then (if cur = [] then wordsGo cs [] else cur.reverse :: wordsGo cs [])
    else wordsGo cs (c :: cur)

/-- `str::split_whitespace`. -/
def wordsOf (s : Str) : List Str := wordsGo s []

/-- `(&s[..n], &s[n..])`; `none` (a panic) when `n` is past the end or inside a character. -/
def splitBytes : Str → Nat → Option (Str × Str)
  | [], 0 => some ([], [])
  | [], _ + 1 => none
  | c :: cs, 0 => some ([], c :: cs)
  | c :: cs, n + 1 =>
    if c.utf8Size ≤ n + 1 then
      match splitBytes cs (n + 1 - c.utf8Size) with
      | some (a, b) => some (c :: a, b)
      | none => none
    else none

/-- `char::is_ascii` -/
def isAscii (c : Char) : Bool := decide (c.toNat < 128)

/-- `char::is_ascii_lowercase`, `is_ascii_uppercase` -/
def asciiLower (c : Char) : Bool := decide (97 ≤ c.toNat ∧ c.toNat ≤ 122)
def asciiUpper (c : Char) : Bool := decide (65 ≤ c.toNat ∧ c.toNat ≤ 90)

/-- `char::to_ascii_uppercase`, `to_ascii_lowercase` -/
def asciiUp (c : Char) : Char := if asciiLower c then Char.ofNat (c.toNat - 32) else c
def asciiDown (c : Char) : Char := if asciiUpper c then Char.ofNat (c.toNat + 32) else c

/-- `str::to_lowercase`, `str::to_uppercase`; texts with other than ASCII characters are left to the
platform. -/
def toLower (P : Plat) (s : Str) : Str := if s.all isAscii then s.map asciiDown else P.lower s
def toUpper (P : Plat) (s : Str) : Str := if s.all isAscii then s.map asciiUp else P.upper s

/-- ASCII digit -/
def isDigit (c : Char) : Bool := decide (48 ≤ c.toNat ∧ c.toNat ≤ 57)

/-- value of a string of ASCII digits, continuing from `acc` -/
def digitsVal : Str → Nat → Option Nat
  | [], acc => some acc
  | c :: cs, acc => if isDigit c then digitsVal cs (acc * 10 + (c.toNat - 48)) else none

/-- `str::parse::<i64>`: an optional sign and at least one digit; out of range is an error. -/
def parseI64 (s : Str) : Option I64 :=
  match s with
  | [] => none
  | '-' :: [] => none
  | '+' :: [] => none
  | '-' :: ds => (digitsVal ds 0).bind fun n => I64.ofInt? (-(n : Int))
  | '+' :: ds => (digitsVal ds 0).bind fun n => I64.ofInt? n
  | ds => (digitsVal ds 0).bind fun n => I64.ofInt? n

/-- `Path::join` on Unix: an absolute second path replaces the first. -/
def pathJoin (a b : Str) : Str :=
  match b with
  | '/' :: _ => b
  | _ => if a = [] ∨ a.getLast? = some '/' then a ++ b else a ++ '/' :: b

/-- `Path::components` on Unix: has a root, and the names; empty names and `.` are dropped, except
a `.` at the start of a relative path. -/
def pathComponents (p : Str) : Bool × List Str :=
  match p with
  | '/' :: _ => (true, (splitStr c!"/" p).filter fun x => decide (x ≠ [] ∧ x ≠ c!"."))
  | _ =>
    match splitStr c!"/" p with
    | [] => (false, [])
    | x :: xs =>
      (false, (if x = [] then [] else [x]) ++ xs.filter fun x => decide (x ≠ [] ∧ x ≠ c!"."))

/-- `Path == Path`: equality of components. -/
def pathEq (a b : Str) : Bool := decide (pathComponents a = pathComponents b)

end Dune
