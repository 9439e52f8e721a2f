import Mathlib.Analysis.SpecialFunctions.Log.Basic
import Mathlib.Analysis.SpecialFunctions.Pow.Real
import Mathlib.Analysis.Complex.ExponentialBounds
import Verif.Model.Plat

/-! The real number a float stands for, and floating-point arithmetic that is nearly exact. -/

namespace Dune

namespace F64

/-- Neither infinite nor NaN. -/
def Finite (f : F64) : Prop := f.mag < 9218868437227405312

/-- The real number a finite float stands for (IEEE 754 binary64). -/
noncomputable def val (f : F64) : ℝ :=
  (if f.bits.toNat < 9223372036854775808 then 1 else -1) *
    if f.mag / 2 ^ 52 = 0 then (f.mag : ℝ) * 2 ^ (-1074 : ℤ)
    else ((2 ^ 52 + f.mag % 2 ^ 52 : ℕ) : ℝ) * 2 ^ ((f.mag / 2 ^ 52 : ℕ) - 1075 : ℤ)

end F64

namespace Spec

/-- The float is finite and differs from `x` by a 2^40th of `x`, if `x` is not tiny. -/
def Close (x : ℝ) (r : F64) : Prop := r.Finite ∧ |r.val - x| ≤ |x| * (2⁻¹ : ℝ) ^ 40 + (2⁻¹ : ℝ) ^ 1000

/-- Floating-point arithmetic that is nearly exact for results of at most 2^1000, and rounding that goes
at most a half away.  (IEEE 754 arithmetic is much more exact.) -/
structure Precise (P : Plat) : Prop where
  add : ∀ a b : F64, a.Finite → b.Finite → |a.val + b.val| ≤ 2 ^ 1000 → Close (a.val + b.val) (P.fAdd a b)
  sub : ∀ a b : F64, a.Finite → b.Finite → |a.val - b.val| ≤ 2 ^ 1000 → Close (a.val - b.val) (P.fSub a b)
  mul : ∀ a b : F64, a.Finite → b.Finite → |a.val * b.val| ≤ 2 ^ 1000 → Close (a.val * b.val) (P.fMul a b)
  div : ∀ a b : F64, a.Finite → b.Finite → b.val ≠ 0 → |a.val / b.val| ≤ 2 ^ 1000 → Close (a.val / b.val) (P.fDiv a b)
  ln : ∀ a : F64, a.Finite → 0 < a.val → Close (Real.log a.val) (P.fFun c!"ln" a)
  exp : ∀ a : F64, a.Finite → Real.exp a.val ≤ 2 ^ 1000 → Close (Real.exp a.val) (P.fFun c!"exp" a)
  sqrt : ∀ a : F64, a.Finite → 0 ≤ a.val → Close (√a.val) (P.fFun c!"sqrt" a)
  round : ∀ a : F64, a.Finite → (P.fFun c!"round" a).Finite ∧ |(P.fFun c!"round" a).val - a.val| ≤ 1 / 2

/-- No finite float is nearer to `x`. -/
def Nearest (x : ℝ) (r : F64) : Prop := r.Finite ∧ ∀ s : F64, s.Finite → |r.val - x| ≤ |s.val - x|

/-- The number written with these decimal digits. -/
def decimalVal (s : Str) : Nat := s.foldl (fun n c => 10 * n + (c.toNat - 48)) 0

/-- The arithmetic of IEEE 754 binary64 (for results of at most 2^1000): every operation gives a float nearest
to the exact result; conversion to an integer cuts off the fraction. -/
structure Ieee (P : Plat) : Prop where
  add : ∀ a b : F64, a.Finite → b.Finite → |a.val + b.val| ≤ 2 ^ 1000 → Nearest (a.val + b.val) (P.fAdd a b)
  sub : ∀ a b : F64, a.Finite → b.Finite → |a.val - b.val| ≤ 2 ^ 1000 → Nearest (a.val - b.val) (P.fSub a b)
  mul : ∀ a b : F64, a.Finite → b.Finite → |a.val * b.val| ≤ 2 ^ 1000 → Nearest (a.val * b.val) (P.fMul a b)
  div : ∀ a b : F64, a.Finite → b.Finite → b.val ≠ 0 → |a.val / b.val| ≤ 2 ^ 1000 → Nearest (a.val / b.val) (P.fDiv a b)
  ofInt : ∀ i : I64, Nearest i.val (P.fOfInt i)
  toInt : ∀ a : F64, a.Finite → |a.val| < 2 ^ 63 → (P.fToInt a).val = if 0 ≤ a.val then ⌊a.val⌋ else ⌈a.val⌉
  parse : ∀ a b : Str, a ≠ [] → b ≠ [] → (∀ c ∈ a ++ b, c.isDigit) → (decimalVal (a ++ b) : ℝ) / 10 ^ b.length ≤ 2 ^ 1000 →
    ∃ f, P.fParse (a ++ '.' :: b) = some f ∧ Nearest ((decimalVal (a ++ b) : ℝ) / 10 ^ b.length) f

end Spec

end Dune
