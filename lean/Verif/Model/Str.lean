/-!
Strings, integers, floats: the primitive data of the model.

`Str` models Rust `String`/`&str` (a sequence of Unicode scalar values, UTF-8 encoded).
-/

namespace Dune

/-- Rust `String`: the list of its characters.  Byte positions are computed with `utf8Len`. -/
abbrev Str := List Char

open Lean in
/-- `c!"abc"` is the explicit character list `['a', 'b', 'c']`. -/
macro:max "c!" s:str : term => do
  let cs := s.getString.toList.map fun c => Syntax.mkCharLit c
  `(([$(cs.toArray),*] : List Char))

/-- `str::len`: the number of bytes of the UTF-8 encoding. -/
def utf8Len : Str → Nat
  | [] => 0
  | c :: cs => c.utf8Size + utf8Len cs

/-- `Ord for str` (byte-wise lexicographic, which for UTF-8 equals the lexicographic order of the
code points).  Used by `BTreeMap<String, _>` and by `PartialOrd` of strings. -/
def cmpStr : Str → Str → Ordering
  | [], [] => .eq
  | [], _ :: _ => .lt
  | _ :: _, [] => .gt
  | a :: as, b :: bs =>
    if a.toNat < b.toNat then .lt else if b.toNat < a.toNat then .gt else cmpStr as bs

/-- `pub type Int = i64` (src/lib.rs:4): an integer in the range of `i64`. -/
structure I64 where
  val : Int
  lo : -9223372036854775808 ≤ val
  hi : val < 9223372036854775808
deriving DecidableEq

namespace I64

/-- The checked operations of `i64`: `Some` of the exact result when it fits, else `None`. -/
def ofInt? (z : Int) : Option I64 :=
  if h : -9223372036854775808 ≤ z ∧ z < 9223372036854775808 then some ⟨z, h.1, h.2⟩ else none

/-- Two's complement wrap-around (release build arithmetic, and `as i64` casts). -/
def wrap (z : Int) : I64 :=
  ⟨Int.bmod z 18446744073709551616, by
    have := @Int.le_bmod z 18446744073709551616 (by decide); omega, by
    have := @Int.bmod_lt z 18446744073709551616 (by decide); omega⟩

/-- `n as usize` for `n : i64` on a 64-bit target. -/
def asUsize (n : I64) : Nat := (n.val % 18446744073709551616).toNat

/-- A small literal. -/
def lit (n : Nat) (h : (n : Int) < 9223372036854775808 := by decide) : I64 := ⟨n, by omega, h⟩

instance : Inhabited I64 := ⟨lit 0⟩

def min : I64 := ⟨-9223372036854775808, by decide, by decide⟩
def max : I64 := ⟨9223372036854775807, by decide, by decide⟩

end I64

/-- Decimal digits of a natural number, most significant first. -/
def natDigitsAux : Nat → Nat → Str → Str
  | 0, _, acc => acc
  | fuel + 1, n, acc =>
    let d := Char.ofNat (48 + n % 10)
    if n / 10 = 0 then d :: acc else natDigitsAux fuel (n / 10) (d :: acc)

/-- `Display` of an unsigned integer. -/
def natToStr (n : Nat) : Str := natDigitsAux (n + 1) n []

/-- `Display` of a signed integer. -/
def intToStr : Int → Str
  | .ofNat n => natToStr n
  | .negSucc n => '-' :: natToStr (n + 1)

/-- `f64`, as its 64 raw bits. -/
structure F64 where
  bits : BitVec 64
deriving DecidableEq

namespace F64

/-- The bits without the sign. -/
def mag (f : F64) : Nat := f.bits.toNat % 9223372036854775808

/-- NaN: exponent all ones, mantissa not zero. -/
def isNaN (f : F64) : Bool := decide (9218868437227405312 < f.mag)

/-- Monotone integer key of a non-NaN float (both zeros get 0). -/
def key (f : F64) : Int :=
  if f.bits.toNat < 9223372036854775808 then (f.mag : Int) else -(f.mag : Int)

/-- IEEE `==`. -/
def eq (a b : F64) : Bool := !a.isNaN && !b.isNaN && a.key == b.key

/-- `f64::partial_cmp`. -/
def partialCmp (a b : F64) : Option Ordering :=
  if a.isNaN || b.isNaN then none else some (compare a.key b.key)

/-- IEEE negation flips the sign bit. -/
def neg (a : F64) : F64 := ⟨a.bits ^^^ 9223372036854775808#64⟩

/-- Positive zero. -/
def zero : F64 := ⟨0#64⟩

end F64

end Dune
