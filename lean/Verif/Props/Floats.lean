import Verif.Props.Basics

/-! C97: rounding, roots, logarithms and trigonometry. -/

namespace Dune.Props

open Spec

/-- The number meant by a value, as a floating point number. -/
def Num (P : Plat) (v : Expr) (f : F64) : Prop := v = .float f ∨ ∃ i, v = .int i ∧ f = P.fOfInt i

/-- Neither an integer nor a floating point number. -/
def NotNum (v : Expr) : Prop := (∀ i, v ≠ .int i) ∧ ∀ f, v ≠ .float f

def roundings : List Str := [c!"floor", c!"ceil", c!"round", c!"trunc"]

/-- The functions with a name of their own in the platform. -/
def functions : List Str :=
  [c!"sinh", c!"cosh", c!"tanh", c!"asinh", c!"acosh", c!"atanh", c!"sinpi", c!"cospi", c!"tanpi",
    c!"ln", c!"log2", c!"log10", c!"sqrt", c!"cbrt", c!"sin", c!"cos", c!"tan", c!"asin", c!"acos",
    c!"atan"]

section

variable {W : Type} {P : Plat} {H : Host W} {L : Lib} {n : Nat} {env env1 env2 : Env} {w w1 w2 : W}

/-- C97, rounding an integer, in any way, gives this integer (exactly, also if it has no exact floating
point form). -/
theorem C97_round_int (hs : Std env) {f : Str} (hf : f ∈ roundings) {a : Expr} {i : I64}
    (ha : evalN P H (stdB P L) n a env w = (.ok (.int i), env1, w1)) :
    evalN P H (stdB P L) (n + 1) (call c!"math" f [a]) env w = (.ok (.int i), env1, w1) := by
  simp only [roundings, List.mem_cons, List.not_mem_nil, or_false] at hf
  rcases hf with rfl | rfl | rfl | rfl <;>
  · lib hs, Init.mathM
    brun [Builtins.roundB, ha]

/-- C97, rounding a floating point number stays a floating point number, the one the operation of this
name of the platform gives. -/
theorem C97_round_float (hs : Std env) {f : Str} (hf : f ∈ roundings) {a : Expr} {x : F64}
    (ha : evalN P H (stdB P L) n a env w = (.ok (.float x), env1, w1)) :
    evalN P H (stdB P L) (n + 1) (call c!"math" f [a]) env w = (.ok (.float (P.fFun f x)), env1, w1) := by
  simp only [roundings, List.mem_cons, List.not_mem_nil, or_false] at hf
  rcases hf with rfl | rfl | rfl | rfl <;>
  · lib hs, Init.mathM
    brun [Builtins.roundB, ha]

/-- C97, a function of the platform is applied to the number as a floating point number: an integer
gives the same as the floating point number of the same value. -/
theorem C97_function (hs : Std env) {f : Str} (hf : f ∈ functions) {a v : Expr} {x : F64}
    (hv : Num P v x) (ha : evalN P H (stdB P L) n a env w = (.ok v, env1, w1)) :
    evalN P H (stdB P L) (n + 1) (call c!"math" f [a]) env w = (.ok (.float (P.fFun f x)), env1, w1) := by
  simp only [functions, List.mem_cons, List.not_mem_nil, or_false] at hf
  rcases hf with rfl | rfl | rfl | rfl | rfl | rfl | rfl | rfl | rfl | rfl | rfl | rfl | rfl | rfl |
    rfl | rfl | rfl | rfl | rfl | rfl <;>
  · lib hs, Init.mathM
    rcases hv with rfl | ⟨i, rfl, rfl⟩ <;> brun [Builtins.funB, Builtins.funDB, ha]

/-- C97, what is not a number is an error. -/
theorem C97_bad (hs : Std env) {f : Str} (hf : f ∈ roundings ++ functions) {a v : Expr} (hv : NotNum v)
    (ha : evalN P H (stdB P L) n a env w = (.ok v, env1, w1)) :
    ∃ m, evalN P H (stdB P L) (n + 1) (call c!"math" f [a]) env w =
      (.err (.customError m), env1, w1) := by
  have key : ∀ name what, (∃ m, (Builtins.roundB P name [a]).run H (evalN P H (stdB P L) n) env w =
      (.err (.customError m), env1, w1)) ∧
      (∃ m, (Builtins.funB P name what [a]).run H (evalN P H (stdB P L) n) env w =
        (.err (.customError m), env1, w1)) ∧
      ∃ m, (Builtins.funDB P name [a]).run H (evalN P H (stdB P L) n) env w =
        (.err (.customError m), env1, w1) := by
    intro name what
    refine ⟨⟨c!"invalid " ++ name ++ c!" argument " ++ debug P v, ?_⟩,
      ⟨c!"invalid " ++ what ++ c!" argument " ++ display P v, ?_⟩,
      ⟨c!"invalid " ++ name ++ c!" argument " ++ debug P v, ?_⟩⟩ <;>
    · cases v with
      | int k => exact absurd rfl (hv.1 k)
      | float f => exact absurd rfl (hv.2 f)
      | _ => brun [Builtins.roundB, Builtins.funB, Builtins.funDB, ha]
  simp only [functions, roundings, List.cons_append, List.nil_append, List.mem_cons, List.not_mem_nil,
    or_false] at hf
  rcases hf with rfl | rfl | rfl | rfl | rfl | rfl | rfl | rfl | rfl | rfl | rfl | rfl | rfl | rfl |
    rfl | rfl | rfl | rfl | rfl | rfl | rfl | rfl | rfl | rfl <;>
  · lib hs, Init.mathM
    rw [evalN_builtin]
    first
    | exact (key _ []).1
    | exact (key _ _).2.1
    | exact (key _ []).2.2

/-- C97, any number of arguments but one is an error, and nothing is evaluated. -/
theorem C97_count (hs : Std env) {f : Str} (hf : f ∈ roundings ++ functions) {args : List Expr}
    (hl : args.length ≠ 1) :
    ∃ m, evalN P H (stdB P L) (n + 1) (call c!"math" f args) env w =
      (.err (.customError m), env, w) := by
  have chk : ∀ (name : Str) (k : Unit → BProg Expr),
      ∃ m, (Builtins.checkExact name args 1 >>= k).run H (evalN P H (stdB P L) n) env w =
        (.err (.customError m), env, w) := by
    intro name k
    unfold Builtins.checkExact
    rw [if_neg hl]
    split <;> exact ⟨_, by rw [BProg.run_bind, BProg.run_fail]; rfl⟩
  simp only [functions, roundings, List.cons_append, List.nil_append, List.mem_cons, List.not_mem_nil,
    or_false] at hf
  rcases hf with rfl | rfl | rfl | rfl | rfl | rfl | rfl | rfl | rfl | rfl | rfl | rfl | rfl | rfl |
    rfl | rfl | rfl | rfl | rfl | rfl | rfl | rfl | rfl | rfl <;>
  · lib hs, Init.mathM
    rw [evalN_builtin]
    exact chk _ _

/-- C97, `math@log base x` is the logarithm of `x` to the given base (in this order); the base is
evaluated first. -/
theorem C97_log (hs : Std env) {a b u v : Expr} {x y : F64} (hu : Num P u x) (hv : Num P v y)
    (ha : evalD P H (bodyRun P H (stdB P L) n) 800 a env w = (.ok u, env1, w1))
    (hb : evalD P H (bodyRun P H (stdB P L) n) 799 b env1 w1 = (.ok v, env2, w2)) :
    evalN P H (stdB P L) (n + 1) (call c!"math" c!"log" [a, b]) env w =
      (.ok (.float (P.fLog y x)), env2, w2) := by
  have hfun : evalD P H (bodyRun P H (stdB P L) n) 800 (member c!"math" c!"log") env w =
      (.ok (Builtins.curry2 (.builtin c!"log" .mLog [])), env, w) :=
    evalD_mem (k := 798) hs (tbl := Init.mathM) (by mem_tac) (by mem_tac)
  rw [evalN_curry2 hfun ha hb]
  have hx : Builtins.asFloat P u = some x := by rcases hu with rfl | ⟨i, rfl, rfl⟩ <;> rfl
  have hy : Builtins.asFloat P v = some y := by rcases hv with rfl | ⟨i, rfl, rfl⟩ <;> rfl
  brun [Builtins.logFunB, curryArgs, hx, hy]

/-- C97, `math@pow base exponent` with a floating point number as base or exponent is the floating point
power of the two numbers, in this order. -/
theorem C97_pow (hs : Std env) {a b u v : Expr} {x y : F64} (hu : Num P u x) (hv : Num P v y)
    (hf : u = .float x ∨ v = .float y)
    (ha : evalN P H (stdB P L) n a env w = (.ok u, env1, w1))
    (hb : evalN P H (stdB P L) n b env1 w1 = (.ok v, env2, w2)) :
    evalN P H (stdB P L) (n + 1) (call c!"math" c!"pow" [a, b]) env w =
      (.ok (.float (P.fPow x y)), env2, w2) := by
  lib hs, Init.mathM
  rcases hu with rfl | ⟨i, rfl, rfl⟩ <;> rcases hv with rfl | ⟨j, rfl, rfl⟩
  · brun [Builtins.powB, ha, hb]
  · brun [Builtins.powB, ha, hb]
  · brun [Builtins.powB, ha, hb]
  · simp at hf

/-- C97, `math@abs` of a floating point number is this number without its sign. -/
theorem C97_abs (hs : Std env) {a : Expr} {x : F64}
    (ha : evalN P H (stdB P L) n a env w = (.ok (.float x), env1, w1)) :
    ∃ r : F64, r.bits.getLsbD 63 = false ∧ (∀ i < 63, r.bits.getLsbD i = x.bits.getLsbD i) ∧
      evalN P H (stdB P L) (n + 1) (call c!"math" c!"abs" [a]) env w =
        (.ok (.float r), env1, w1) := by
  refine ⟨Builtins.fAbs x, by simp [Builtins.fAbs], ?_, ?_⟩
  · intro i hi
    have : ∀ i < 63, (0x7FFFFFFFFFFFFFFF#64).getLsbD i = true := by decide
    simp [Builtins.fAbs, this i hi]
  · lib hs, Init.mathM
    brun [Builtins.absB, ha]

/-- C97, so it is never less than zero (or not a number at all), and equal to the number or to its
opposite. -/
theorem C97_abs_value (hs : Std env) {a : Expr} {x : F64}
    (ha : evalN P H (stdB P L) n a env w = (.ok (.float x), env1, w1)) :
    ∃ r : F64, 0 ≤ r.key ∧ (r.key = x.key ∨ r.key = -x.key) ∧ r.isNaN = x.isNaN ∧
      evalN P H (stdB P L) (n + 1) (call c!"math" c!"abs" [a]) env w =
        (.ok (.float r), env1, w1) := by
  have hb : (Builtins.fAbs x).bits.toNat = x.mag := by
    have := Nat.and_two_pow_sub_one_eq_mod x.bits.toNat 63
    simpa [Builtins.fAbs, F64.mag] using this
  have hm : x.mag < 9223372036854775808 := Nat.mod_lt _ (by decide)
  have hm' : (Builtins.fAbs x).mag = x.mag := by
    rw [F64.mag, hb, Nat.mod_eq_of_lt hm]
  have hk : (Builtins.fAbs x).key = x.mag := by
    rw [F64.key, hb, if_pos hm, hm']
  refine ⟨Builtins.fAbs x, ?_, ?_, ?_, ?_⟩
  · omega
  · rw [hk, F64.key]
    split <;> omega
  · simp [F64.isNaN, hm']
  · lib hs, Init.mathM
    brun [Builtins.absB, ha]

end

example : c!"floor" ∈ roundings ∧ c!"sqrt" ∈ functions := by decide

example : evalN Demo.plat Demo.host (stdB Demo.plat Demo.lib) 5
    (call c!"math" c!"ceil" [.int (I64.lit 7)]) Demo.env [] = (.ok (.int (I64.lit 7)), Demo.env, []) :=
  C97_round_int demo_std (by decide) rfl

example (x : F64) : evalN Demo.plat Demo.host (stdB Demo.plat Demo.lib) 5
    (call c!"math" c!"ceil" [.float x]) Demo.env [] =
      (.ok (.float (Demo.plat.fFun c!"ceil" x)), Demo.env, []) :=
  C97_round_float demo_std (by decide) rfl

example : evalN Demo.plat Demo.host (stdB Demo.plat Demo.lib) 5
    (call c!"math" c!"sqrt" [.int (I64.lit 9)]) Demo.env [] =
      (.ok (.float (Demo.plat.fFun c!"sqrt" (Demo.plat.fOfInt (I64.lit 9)))), Demo.env, []) :=
  C97_function demo_std (by decide) (.inr ⟨_, rfl, rfl⟩) rfl

example : ∃ m, evalN Demo.plat Demo.host (stdB Demo.plat Demo.lib) 5
    (call c!"math" c!"round" [.str c!"x"]) Demo.env [] = (.err (.customError m), Demo.env, []) :=
  C97_bad demo_std (by decide) ⟨by simp, by simp⟩ rfl

example : ∃ m, evalN Demo.plat Demo.host (stdB Demo.plat Demo.lib) 5
    (call c!"math" c!"sin" []) Demo.env [] = (.err (.customError m), Demo.env, []) :=
  C97_count demo_std (by decide) (by decide)

example (x : F64) : evalN Demo.plat Demo.host (stdB Demo.plat Demo.lib) 5
    (call c!"math" c!"log" [.int (I64.lit 2), .float x]) Demo.env [] =
      (.ok (.float (Demo.plat.fLog x (Demo.plat.fOfInt (I64.lit 2)))), Demo.env, []) :=
  C97_log demo_std (.inr ⟨_, rfl, rfl⟩) (.inl rfl) rfl rfl

example (x : F64) : evalN Demo.plat Demo.host (stdB Demo.plat Demo.lib) 5
    (call c!"math" c!"pow" [.int (I64.lit 2), .float x]) Demo.env [] =
      (.ok (.float (Demo.plat.fPow (Demo.plat.fOfInt (I64.lit 2)) x)), Demo.env, []) :=
  C97_pow demo_std (.inr ⟨_, rfl, rfl⟩) (.inl rfl) (.inr rfl) rfl rfl

/-- The absolute value of −1.5 is 1.5. -/
example : (evalN Demo.plat Demo.host (stdB Demo.plat Demo.lib) 5
    (call c!"math" c!"abs" [.float ⟨0xBFF8000000000000#64⟩]) Demo.env []).1 =
      .ok (.float ⟨0x3FF8000000000000#64⟩) := rfl

/-! ### Instances: the hypotheses can be met -/

example := C97_abs (P := Demo.plat) (H := Demo.host) (L := Demo.lib) (n := 0) (w := [])
  demo_std (a := .float ⟨0xBFF0000000000000⟩) rfl

end Dune.Props
