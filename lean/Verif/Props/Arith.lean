import Verif.Props.Eval
import Verif.Proof.Builtins
import Verif.Spec.Arith

/-!
C32–C38: operators.  `evalN P H (stdB P L) n` is `Expression::eval` with the standard library, on a
native stack for `n` nested builtin calls.  `P` (floating point, formatting), `H` (outside world)
and `L` (unmodelled builtins) are arbitrary.
-/

namespace Dune.Props

open Spec

section

variable {W : Type} {P : Plat} {H : Host W} {L : Lib} {n : Nat}

theorem evalN_data {v : Expr} (h : Data 801 v) (env : Env) (w : W) :
    evalN P H (stdB P L) n v env w = (.ok v, env, w) := by
  cases n <;> exact C17_data_inert h env w

theorem ofInt?_cases (z : Int) :
    (∃ i : I64, i.val = z ∧ I64.ofInt? z = some i) ∨ (¬ Fits z ∧ I64.ofInt? z = none) := by
  unfold I64.ofInt? Fits
  by_cases h : -9223372036854775808 ≤ z ∧ z < 9223372036854775808
  · exact .inl ⟨⟨z, h.1, h.2⟩, rfl, by simp [h]⟩
  · right
    simp [h]

/-! ### C32 -/

theorem isTruncDiv (m : Int) {n : Int} (h : n ≠ 0) : IsTruncDiv m n (m.tdiv n) (m.tmod n) := by
  refine ⟨?_, ?_, ?_, ?_⟩
  · have := Int.tdiv_mul_add_tmod m n
    omega
  · have h1 := Int.natAbs_tmod m n
    rw [h1]
    exact Nat.mod_lt _ (by omega)
  · intro hm
    exact Int.tmod_nonneg _ hm
  · intro hm
    have := Int.tmod_nonneg n (a := -m) (by omega)
    rw [Int.neg_tmod] at this
    omega

theorem exactOrError_of_ofInt? {z : Int} {msg : Str} :
    ExactOrError (some z) (opResult msg (.ok (Expr.ofChecked (I64.ofInt? z)))) := by
  rcases ofInt?_cases z with ⟨i, hi, h⟩ | ⟨hf, h⟩
  · exact .inl ⟨i, by rw [hi], by simp [h, Expr.ofChecked, opResult]⟩
  · exact .inr ⟨by simpa using hf, msg, by simp [h, Expr.ofChecked, opResult]⟩

/-- C32, `a + b`. -/
theorem C32_add {nm hlp : Str} {a b : Expr} {x y : I64} {env env1 env2 : Env} {w w1 w2 : W}
    (hop : env.get c!"+" = some (.builtin nm .add hlp))
    (ha : evalN P H (stdB P L) n a env w = (.ok (.int x), env1, w1))
    (hb : evalN P H (stdB P L) n b env1 w1 = (.ok (.int y), env2, w2)) :
    ∃ o, evalN P H (stdB P L) (n + 1) (.apply (.symbol c!"+") [a, b]) env w = (o, env2, w2) ∧
      ExactOrError (some (x.val + y.val)) o := by
  obtain ⟨msg, h⟩ := eval_add2 hop ha (by simp) hb
  exact ⟨_, h, exactOrError_of_ofInt?⟩

example := C32_add (P := Demo.plat) (H := Demo.host) (L := Demo.lib) (n := 1) (env := Demo.env) (w := [])
  (a := .apply (.symbol c!"+") [.int (.lit 1), .int (.lit 2)]) (b := .int .max) (x := .lit 3) rfl rfl rfl

/-- C32, `a - b`. -/
theorem C32_sub {nm hlp : Str} {a b : Expr} {x y : I64} {env env1 env2 : Env} {w w1 w2 : W}
    (hop : env.get c!"-" = some (.builtin nm .sub hlp))
    (ha : evalN P H (stdB P L) n a env w = (.ok (.int x), env1, w1))
    (hb : evalN P H (stdB P L) n b env1 w1 = (.ok (.int y), env2, w2)) :
    ∃ o, evalN P H (stdB P L) (n + 1) (.apply (.symbol c!"-") [a, b]) env w = (o, env2, w2) ∧
      ExactOrError (some (x.val - y.val)) o := by
  obtain ⟨msg, h⟩ := eval_sub2 hop ha (by simp) hb
  exact ⟨_, h, exactOrError_of_ofInt?⟩

example := C32_sub (P := Demo.plat) (H := Demo.host) (L := Demo.lib) (n := 1) (env := Demo.env) (w := [])
  (a := .apply (.symbol c!"-") [.int (.lit 5), .int (.lit 2)]) (b := .int .min) (x := .lit 3) rfl rfl rfl

/-- C32, `a * b`; `*` is a curried function, so the operands are evaluated one and two levels
deeper. -/
theorem C32_mul {nm hlp : Str} {a b : Expr} {x y : I64} {env env1 env2 : Env} {w w1 w2 : W}
    (hop : env.get c!"*" = some (Builtins.curry2 (.builtin nm .mul hlp)))
    (ha : evalD P H (bodyRun P H (stdB P L) n) 800 a env w = (.ok (.int x), env1, w1))
    (hb : evalD P H (bodyRun P H (stdB P L) n) 799 b env1 w1 = (.ok (.int y), env2, w2)) :
    ∃ o, evalN P H (stdB P L) (n + 1) (.apply (.symbol c!"*") [a, b]) env w = (o, env2, w2) ∧
      ExactOrError (some (x.val * y.val)) o := by
  obtain ⟨msg, h⟩ := eval_curried_op (fun _ => rfl) hop ha hb (by simp)
  exact ⟨_, h, exactOrError_of_ofInt?⟩

example := C32_mul (P := Demo.plat) (H := Demo.host) (L := Demo.lib) (n := 1) (env := Demo.env) (w := [])
  (a := .apply (.symbol c!"+") [.int (.lit 1), .int (.lit 2)]) (b := .int .max) (x := .lit 3)
  (nm := c!"*") (hlp := []) rfl rfl rfl

/-- C32, `a // b`: the quotient rounded toward zero. -/
theorem C32_div {nm hlp : Str} {a b : Expr} {x y : I64} {env env1 env2 : Env} {w w1 w2 : W}
    (hop : env.get c!"//" = some (Builtins.curry2 (.builtin nm .div hlp)))
    (ha : evalD P H (bodyRun P H (stdB P L) n) 800 a env w = (.ok (.int x), env1, w1))
    (hb : evalD P H (bodyRun P H (stdB P L) n) 799 b env1 w1 = (.ok (.int y), env2, w2)) :
    ∃ o, evalN P H (stdB P L) (n + 1) (.apply (.symbol c!"//") [a, b]) env w = (o, env2, w2) ∧
      ((y.val = 0 ∧ ExactOrError none o) ∨
        ∃ q r, IsTruncDiv x.val y.val q r ∧ ExactOrError (some q) o) := by
  obtain ⟨msg, h⟩ := eval_curried_op (fun _ => rfl) hop ha hb (by simp)
  refine ⟨_, h, ?_⟩
  by_cases h0 : y.val = 0
  · refine .inl ⟨h0, .inr ⟨by simp, msg, ?_⟩⟩
    simp [Expr.div, Expr.checkedDiv, h0, Expr.ofChecked, opResult]
  · refine .inr ⟨x.val.tdiv y.val, x.val.tmod y.val, isTruncDiv x.val h0, ?_⟩
    simp only [Expr.div, Expr.checkedDiv, h0, if_false]
    exact exactOrError_of_ofInt?

example := C32_div (P := Demo.plat) (H := Demo.host) (L := Demo.lib) (n := 1) (env := Demo.env) (w := [])
  (a := .int .min) (b := .apply (.symbol c!"-") [.int (.lit 1), .int (.lit 2)])
  (y := ⟨-1, by decide, by decide⟩) (nm := c!"//") (hlp := []) rfl rfl rfl

/-! ### C33 -/

theorem quot_overflow (x y : I64) (h0 : y.val ≠ 0) :
    I64.ofInt? (x.val.tdiv y.val) = none ↔ (x.val = -2 ^ 63 ∧ y.val = -1) := by
  have hx := x.lo
  have hx' := x.hi
  have hn : (x.val.tdiv y.val).natAbs = x.val.natAbs / y.val.natAbs :=
    Int.natAbs_tdiv x.val y.val
  rcases ofInt?_cases (x.val.tdiv y.val) with ⟨i, hi, h⟩ | ⟨hf, h⟩
  · rw [h]
    simp only [reduceCtorEq, false_iff]
    rintro ⟨h1, h2⟩
    have := i.hi
    rw [h1, h2] at hi
    have : Int.tdiv (-2 ^ 63) (-1) = 2 ^ 63 := by decide
    omega
  · rw [h]
    simp only [true_iff]
    unfold Fits at hf
    by_cases h1 : y.val.natAbs = 1
    · rw [h1, Nat.div_one] at hn
      have : y.val = 1 ∨ y.val = -1 := by omega
      rcases this with h2 | h2
      · rw [h2, Int.tdiv_one] at hf
        omega
      · rw [h2] at hf
        simp only [Int.tdiv_neg, Int.tdiv_one] at hf
        omega
    · have h2 : 2 ≤ y.val.natAbs := by omega
      have h3 : x.val.natAbs / y.val.natAbs ≤ x.val.natAbs / 2 := Nat.div_le_div_left h2 (by decide)
      omega

theorem rem_fits (x : I64) {y : Int} (h0 : y ≠ 0) :
    ∃ r : I64, r.val = x.val.tmod y ∧ I64.ofInt? (x.val.tmod y) = some r := by
  rcases ofInt?_cases (x.val.tmod y) with ⟨i, hi, h⟩ | ⟨hf, h⟩
  · exact ⟨i, hi, h⟩
  · exfalso
    have hx := x.lo
    have hx' := x.hi
    obtain ⟨-, h1, h2, h3⟩ := isTruncDiv x.val h0
    have h4 := Int.natAbs_tmod x.val y
    have h5 : x.val.natAbs % y.natAbs ≤ x.val.natAbs := Nat.mod_le _ _
    unfold Fits at hf
    omega

/-- C33, `a % b`: the remainder of the division rounded toward zero; the process panics exactly for
a zero divisor and for MIN % -1. -/
theorem C33_rem {nm hlp : Str} {a b : Expr} {x y : I64} {env env1 env2 : Env} {w w1 w2 : W}
    (hop : env.get c!"%" = some (Builtins.curry2 (.builtin nm .rem hlp)))
    (ha : evalD P H (bodyRun P H (stdB P L) n) 800 a env w = (.ok (.int x), env1, w1))
    (hb : evalD P H (bodyRun P H (stdB P L) n) 799 b env1 w1 = (.ok (.int y), env2, w2)) :
    ∃ o, evalN P H (stdB P L) (n + 1) (.apply (.symbol c!"%") [a, b]) env w = (o, env2, w2) ∧
      if y.val = 0 ∨ (x.val = -2 ^ 63 ∧ y.val = -1) then o = .panic
      else ∃ q, ∃ r : I64, IsTruncDiv x.val y.val q r.val ∧ o = .ok (.int r) := by
  obtain ⟨msg, h⟩ := eval_curried_op (fun _ => rfl) hop ha hb (by simp)
  refine ⟨_, h, ?_⟩
  by_cases h0 : y.val = 0
  · simp [h0, Expr.rem, opResult]
  · have hq := quot_overflow x y h0
    by_cases hc : x.val = -2 ^ 63 ∧ y.val = -1
    · rw [if_pos (.inr hc)]
      simp only [Expr.rem, h0, if_false, hq.mpr hc, opResult]
    · rw [if_neg (by simpa [h0] using hc)]
      cases hq' : I64.ofInt? (x.val.tdiv y.val) with
      | none => exact absurd (hq.mp hq') hc
      | some q =>
        obtain ⟨r, hr, hr'⟩ := rem_fits x h0
        refine ⟨_, r, hr ▸ isTruncDiv x.val h0, ?_⟩
        simp only [Expr.rem, h0, if_false, hq', hr', opResult]

example := C33_rem (P := Demo.plat) (H := Demo.host) (L := Demo.lib) (n := 1) (env := Demo.env) (w := [])
  (a := .int .min) (b := .apply (.symbol c!"-") [.int (.lit 1), .int (.lit 2)])
  (y := ⟨-1, by decide, by decide⟩) (nm := c!"%") (hlp := []) rfl rfl rfl

/-- C33, `- a`: exact unless the operand is MIN, where a checked build panics and an unchecked one
returns MIN. -/
theorem C33_neg {nm hlp : Str} {a : Expr} {x : I64} {env env1 : Env} {w w1 : W}
    (hop : env.get c!"-" = some (.builtin nm .sub hlp))
    (ha : evalN P H (stdB P L) n a env w = (.ok (.int x), env1, w1)) :
    ∃ o, evalN P H (stdB P L) (n + 1) (.apply (.symbol c!"-") [a]) env w = (o, env1, w1) ∧
      if x.val = -2 ^ 63 then o = if P.overflowChecks then .panic else .ok (.int x)
      else ∃ i : I64, i.val = -x.val ∧ o = .ok (.int i) := by
  rw [evalN_symbol hop]
  have hx := x.lo
  have hx' := x.hi
  by_cases h : x.val = -2 ^ 63
  · refine ⟨if P.overflowChecks then .panic else .ok (.int x), ?_, by simp [h]⟩
    have hn : I64.ofInt? (-x.val) = none := by simp [I64.ofInt?, h]
    cases ho : P.overflowChecks <;> brun [Builtins.subB, ha, Expr.neg, hn, ho]
  · have hb : -9223372036854775808 ≤ -x.val ∧ -x.val < 9223372036854775808 := by omega
    have hn : I64.ofInt? (-x.val) = some ⟨-x.val, hb.1, hb.2⟩ := by
      simp only [I64.ofInt?, hb, and_self, dite_true]
    refine ⟨.ok (.int ⟨-x.val, hb.1, hb.2⟩), ?_, by rw [if_neg h]; exact ⟨_, rfl, rfl⟩⟩
    brun [Builtins.subB, ha, Expr.neg, hn]

/-- `1 + 2`, `7 // -2`, `-7 % 2` and `MAX + 1` in the initial environment. -/
example : evalN Demo.plat Demo.host (stdB Demo.plat Demo.lib) 1
    (.apply (.symbol c!"+") [.int (.lit 1), .int (.lit 2)]) Demo.env [] =
    (.ok (.int (.lit 3)), Demo.env, []) := rfl
example : evalN Demo.plat Demo.host (stdB Demo.plat Demo.lib) 1
    (.apply (.symbol c!"//") [.int (.lit 7), .int ⟨-2, by decide, by decide⟩]) Demo.env [] =
    (.ok (.int ⟨-3, by decide, by decide⟩), Demo.env, []) := rfl
example : evalN Demo.plat Demo.host (stdB Demo.plat Demo.lib) 1
    (.apply (.symbol c!"%") [.int ⟨-7, by decide, by decide⟩, .int (.lit 2)]) Demo.env [] =
    (.ok (.int ⟨-1, by decide, by decide⟩), Demo.env, []) := rfl
example : (evalN Demo.plat Demo.host (stdB Demo.plat Demo.lib) 1
    (.apply (.symbol c!"+") [.int .max, .int (.lit 1)]) Demo.env []).1 =
    .err (.customError c!"cannot add 9223372036854775807 and 1") := rfl
example : ∃ nm hlp, Demo.env.get c!"*" = some (Builtins.curry2 (.builtin nm .mul hlp)) :=
  ⟨c!"*", [], rfl⟩

/-! ### C34 -/

/-- C34, `a + b` on strings is concatenation. -/
theorem C34_add_str {nm hlp : Str} {a b : Expr} {x y : Str} {env env1 env2 : Env} {w w1 w2 : W}
    (hop : env.get c!"+" = some (.builtin nm .add hlp))
    (ha : evalN P H (stdB P L) n a env w = (.ok (.str x), env1, w1))
    (hb : evalN P H (stdB P L) n b env1 w1 = (.ok (.str y), env2, w2)) :
    evalN P H (stdB P L) (n + 1) (.apply (.symbol c!"+") [a, b]) env w =
      (.ok (.str (x ++ y)), env2, w2) := by
  obtain ⟨msg, h⟩ := eval_add2 hop ha (by simp) hb
  exact h

example := C34_add_str (P := Demo.plat) (H := Demo.host) (L := Demo.lib) (n := 1) (env := Demo.env)
  (w := []) (a := .apply (.symbol c!"+") [.str c!"a", .str c!"b"]) (b := .str c!"c") (x := c!"ab")
  rfl rfl rfl

/-- C34, `a + b` on byte strings is concatenation. -/
theorem C34_add_bytes {nm hlp : Str} {a b : Expr} {x y : List UInt8} {env env1 env2 : Env}
    {w w1 w2 : W}
    (hop : env.get c!"+" = some (.builtin nm .add hlp))
    (ha : evalN P H (stdB P L) n a env w = (.ok (.bytes x), env1, w1))
    (hb : evalN P H (stdB P L) n b env1 w1 = (.ok (.bytes y), env2, w2)) :
    evalN P H (stdB P L) (n + 1) (.apply (.symbol c!"+") [a, b]) env w =
      (.ok (.bytes (x ++ y)), env2, w2) := by
  obtain ⟨msg, h⟩ := eval_add2 hop ha (by simp) hb
  exact h

example := C34_add_bytes (P := Demo.plat) (H := Demo.host) (L := Demo.lib) (n := 1) (env := Demo.env)
  (w := []) (a := .apply (.symbol c!"+") [.bytes [255], .bytes [0]]) (b := .bytes [1]) (x := [255, 0])
  rfl rfl rfl

/-- C34, `a + b` on lists is concatenation; the left list must hold plain data (it is evaluated
again), the right one anything. -/
theorem C34_add_list {nm hlp : Str} {a b : Expr} {x y : List Expr} {env env1 env2 : Env}
    {w w1 w2 : W} (hx : Data 801 (.list x))
    (hop : env.get c!"+" = some (.builtin nm .add hlp))
    (ha : evalN P H (stdB P L) n a env w = (.ok (.list x), env1, w1))
    (hb : evalN P H (stdB P L) n b env1 w1 = (.ok (.list y), env2, w2)) :
    evalN P H (stdB P L) (n + 1) (.apply (.symbol c!"+") [a, b]) env w =
      (.ok (.list (x ++ y)), env2, w2) := by
  obtain ⟨msg, h⟩ := eval_add2 hop ha (evalN_data hx _ _) hb
  exact h

example := C34_add_list (P := Demo.plat) (H := Demo.host) (L := Demo.lib) (n := 1) (env := Demo.env)
  (w := []) (a := .list [.int (.lit 1)]) (b := .list [.str c!"a", .none]) (x := [.int (.lit 1)])
  (.list (List.forall_mem_singleton.2 (.int (n := 799) _))) rfl rfl rfl

/-- `k` copies of a list, one after the other. -/
theorem replicateList_eq {α : Type} (l : List α) : ∀ k,
    Expr.replicateList l k = (List.replicate k l).flatten
  | 0 => rfl
  | k + 1 => by simp [Expr.replicateList, List.replicate_succ, replicateList_eq l k]

/-- C34, list times integer: that many copies, none for a negative count. -/
theorem C34_mul_list {nm hlp : Str} {a b : Expr} {x : List Expr} {k : I64} {env env1 env2 : Env}
    {w w1 w2 : W} (hx : Data 801 (.list x))
    (hop : env.get c!"*" = some (Builtins.curry2 (.builtin nm .mul hlp)))
    (ha : evalD P H (bodyRun P H (stdB P L) n) 800 a env w = (.ok (.list x), env1, w1))
    (hb : evalD P H (bodyRun P H (stdB P L) n) 799 b env1 w1 = (.ok (.int k), env2, w2)) :
    evalN P H (stdB P L) (n + 1) (.apply (.symbol c!"*") [a, b]) env w =
      (.ok (.list (List.replicate k.val.toNat x).flatten), env2, w2) := by
  obtain ⟨msg, h⟩ := eval_curried_op (fun _ => rfl) hop ha hb (evalN_data hx _ _)
  rw [h, ← replicateList_eq]
  rfl

example := C34_mul_list (P := Demo.plat) (H := Demo.host) (L := Demo.lib) (n := 1) (env := Demo.env)
  (w := []) (a := .list [.int (.lit 1)]) (b := .int (.lit 3)) (x := [.int (.lit 1)])
  (nm := c!"*") (hlp := []) (.list (List.forall_mem_singleton.2 (.int (n := 799) _))) rfl rfl rfl

theorem asUsize_of_nonneg {k : I64} (h : 0 ≤ k.val) : k.asUsize = k.val.toNat := by
  have := k.hi
  unfold I64.asUsize
  rw [Int.emod_eq_of_lt h (by omega)]

theorem asUsize_of_neg {k : I64} (h : k.val < 0) : 2 ^ 63 ≤ k.asUsize := by
  have := k.lo
  unfold I64.asUsize
  have h2 : k.val % 18446744073709551616 = k.val + 18446744073709551616 := by
    rw [← Int.add_emod_right, Int.emod_eq_of_lt (by omega) (by omega)]
  rw [h2]
  omega

theorem utf8Len_pos {x : Str} (h : x ≠ []) : 0 < utf8Len x := by
  cases x with
  | nil => exact absurd rfl h
  | cons c cs =>
    have := Char.utf8Size_pos c
    simp only [utf8Len]
    omega

theorem mul_str_result {msg : Str} (x : Str) (k : I64) {env2 : Env} {w2 : W} :
    (opResult msg (Expr.repeatStr x k), env2, w2) =
      (if x = [] then .ok (.str [])
       else if 0 ≤ k.val ∧ utf8Len x * k.val.toNat < 2 ^ 63 then
        .ok (.str (List.replicate k.val.toNat x).flatten)
       else .panic, env2, w2) := by
  simp only [Expr.repeatStr]
  by_cases hx : x = []
  · simp [hx, utf8Len, opResult]
  · simp only [hx, if_false]
    by_cases hk : 0 ≤ k.val
    · rw [asUsize_of_nonneg hk, ← replicateList_eq]
      by_cases hs : utf8Len x * k.val.toNat < 9223372036854775808
      · simp [hk, hs, opResult]
      · simp [hs, opResult]
    · have h1 := asUsize_of_neg (k := k) (by omega)
      have h2 := utf8Len_pos hx
      have h3 : ¬ utf8Len x * k.asUsize < 9223372036854775808 := by
        have := Nat.le_mul_of_pos_left k.asUsize h2
        omega
      simp [hk, h3, opResult]

/-- C34, string times integer: that many copies if their total size is below 2^63 bytes, else the
process panics; a negative count counts as huge.  The empty string is returned unchanged. -/
theorem C34_mul_str {nm hlp : Str} {a b : Expr} {x : Str} {k : I64} {env env1 env2 : Env}
    {w w1 w2 : W}
    (hop : env.get c!"*" = some (Builtins.curry2 (.builtin nm .mul hlp)))
    (ha : evalD P H (bodyRun P H (stdB P L) n) 800 a env w = (.ok (.str x), env1, w1))
    (hb : evalD P H (bodyRun P H (stdB P L) n) 799 b env1 w1 = (.ok (.int k), env2, w2)) :
    evalN P H (stdB P L) (n + 1) (.apply (.symbol c!"*") [a, b]) env w =
      (if x = [] then .ok (.str [])
       else if 0 ≤ k.val ∧ utf8Len x * k.val.toNat < 2 ^ 63 then
        .ok (.str (List.replicate k.val.toNat x).flatten)
       else .panic, env2, w2) := by
  obtain ⟨msg, h⟩ := eval_curried_op (fun _ => rfl) hop ha hb (by simp)
  rw [h]
  simp only [Expr.mul]
  exact mul_str_result x k

example := C34_mul_str (P := Demo.plat) (H := Demo.host) (L := Demo.lib) (n := 1) (env := Demo.env)
  (w := []) (a := .str c!"ab") (b := .apply (.symbol c!"+") [.int (.lit 1), .int (.lit 2)]) (k := .lit 3)
  (nm := c!"*") (hlp := []) rfl rfl rfl

/-- C34, the number may also come first. -/
theorem C34_mul_first {nm hlp : Str} {a b x : Expr} {k : I64} {env env1 env2 : Env} {w w1 w2 : W}
    (hop : env.get c!"*" = some (Builtins.curry2 (.builtin nm .mul hlp)))
    (ha : evalD P H (bodyRun P H (stdB P L) n) 800 a env w = (.ok (.int k), env1, w1))
    (hb : evalD P H (bodyRun P H (stdB P L) n) 799 b env1 w1 = (.ok x, env2, w2)) :
    (∀ s, x = .str s → evalN P H (stdB P L) (n + 1) (.apply (.symbol c!"*") [a, b]) env w =
      (if s = [] then .ok (.str [])
       else if 0 ≤ k.val ∧ utf8Len s * k.val.toNat < 2 ^ 63 then
        .ok (.str (List.replicate k.val.toNat s).flatten)
       else .panic, env2, w2)) ∧
    (∀ l, x = .list l → evalN P H (stdB P L) (n + 1) (.apply (.symbol c!"*") [a, b]) env w =
      (.ok (.list (List.replicate k.val.toNat l).flatten), env2, w2)) := by
  obtain ⟨msg, h⟩ := eval_curried_op (fun _ => rfl) hop ha hb (by simp)
  rw [h]
  constructor
  · rintro s rfl
    simp only [Expr.mul]
    exact mul_str_result s k
  · rintro l rfl
    rw [← replicateList_eq]
    rfl

/-- `"ab" * -1` crashes, `[1] * -1` is empty. -/
example : (evalN Demo.plat Demo.host (stdB Demo.plat Demo.lib) 1
    (.apply (.symbol c!"*") [.str c!"ab", .int ⟨-1, by decide, by decide⟩]) Demo.env []).1 =
    .panic := rfl
example : (evalN Demo.plat Demo.host (stdB Demo.plat Demo.lib) 1
    (.apply (.symbol c!"*") [.list [.int (.lit 1)], .int ⟨-1, by decide, by decide⟩])
    Demo.env []).1 = .ok (.list []) := rfl

/-! ### C35 -/

/-- C35, a list indexed with an integer literal: the element, or `None` when out of range, for every
integer.  Nothing crashes. -/
theorem C35_list_literal {nm hlp : Str} {a : Expr} {l : List Expr} {i : I64} {env env1 : Env}
    {w w1 : W}
    (hop : env.get c!"@" = some (.builtin nm .index hlp))
    (ha : evalN P H (stdB P L) n a env w = (.ok (.list l), env1, w1)) :
    ∃ v, evalN P H (stdB P L) (n + 1) (.apply (.symbol c!"@") [a, .int i]) env w =
        (.ok v, env1, w1) ∧
      (∀ j : Nat, i.val = j → (h : j < l.length) → v = l[j]) ∧
      ((i.val < 0 ∧ (l.length : Int) < 2 ^ 63) ∨ (l.length : Int) ≤ i.val → v = .none) := by
  refine ⟨l.getD i.asUsize .none, ?_, ?_, ?_⟩
  · rw [evalN_symbol hop]
    brun [Builtins.indexB, Builtins.indexLoop, ha, Expr.index]
  · intro j hj hl
    rw [asUsize_of_nonneg (by omega), hj]
    simp [List.getD, hl]
  · intro h
    have : l.length ≤ i.asUsize := by
      rcases h with ⟨h, h'⟩ | h
      · have := asUsize_of_neg h
        omega
      · rw [asUsize_of_nonneg (by omega)]
        omega
    simp [List.getD, this]

example := C35_list_literal (P := Demo.plat) (H := Demo.host) (L := Demo.lib) (n := 1)
  (env := Demo.env) (w := []) (a := .list [.int (.lit 1), .str c!"b"]) (i := .lit 1) rfl rfl

/-- C35, a computed index behaves like the literal, if the index expression is not a plain name. -/
theorem C35_list_computed {nm hlp : Str} {a b : Expr} {l : List Expr} {i : I64}
    {env env1 env2 : Env} {w w1 w2 : W} (hb' : ∀ x, b ≠ .symbol x)
    (hop : env.get c!"@" = some (.builtin nm .index hlp))
    (ha : evalN P H (stdB P L) n a env w = (.ok (.list l), env1, w1))
    (hb : evalN P H (stdB P L) n b env1 w1 = (.ok (.int i), env2, w2)) :
    evalN P H (stdB P L) (n + 1) (.apply (.symbol c!"@") [a, b]) env w =
      ((evalN P H (stdB P L) (n + 1) (.apply (.symbol c!"@") [a, .int i]) env w).1, env2, w2) := by
  rw [evalN_symbol hop, evalN_symbol hop]
  cases b <;> first
    | exact absurd rfl (hb' _)
    | (simp at hb; brun [Builtins.indexB, Builtins.indexLoop, ha, hb, Expr.index])
    | brun [Builtins.indexB, Builtins.indexLoop, ha, hb, Expr.index]

example := C35_list_computed (P := Demo.plat) (H := Demo.host) (L := Demo.lib) (n := 1)
  (env := Demo.env) (w := []) (a := .list [.int (.lit 1), .str c!"b"])
  (b := .apply (.symbol c!"-") [.int (.lit 2), .int (.lit 1)]) (i := .lit 1) (by simp) rfl rfl rfl

/-- C35, a plain name as index is taken literally even if it is a variable: on a list the result is
always `None`. -/
theorem C35_name_not_evaluated {nm hlp : Str} {a : Expr} {l : List Expr} {x : Str}
    {env env1 : Env} {w w1 : W}
    (hop : env.get c!"@" = some (.builtin nm .index hlp))
    (ha : evalN P H (stdB P L) n a env w = (.ok (.list l), env1, w1)) :
    evalN P H (stdB P L) (n + 1) (.apply (.symbol c!"@") [a, .symbol x]) env w =
      (.ok .none, env1, w1) := by
  rw [evalN_symbol hop]
  brun [Builtins.indexB, Builtins.indexLoop, ha, Expr.index]

example := C35_name_not_evaluated (P := Demo.plat) (H := Demo.host) (L := Demo.lib) (n := 1)
  (env := Demo.env.define c!"i" (.int (.lit 0))) (w := []) (a := .list [.int (.lit 1)]) (x := c!"i") rfl rfl

/-- C35, a map indexed with a name: the value stored under it, or `None`. -/
theorem C35_map_name {nm hlp : Str} {a : Expr} {m : BMap Expr} {x : Str}
    {env env1 : Env} {w w1 : W} (hs : BMap.Sorted m)
    (hop : env.get c!"@" = some (.builtin nm .index hlp))
    (ha : evalN P H (stdB P L) n a env w = (.ok (.map m), env1, w1)) :
    ∃ v, evalN P H (stdB P L) (n + 1) (.apply (.symbol c!"@") [a, .symbol x]) env w =
        (.ok v, env1, w1) ∧
      (∀ u, (x, u) ∈ m → v = u) ∧ ((∀ u, (x, u) ∉ m) → v = .none) := by
  refine ⟨(BMap.get? m x).getD .none, ?_, ?_, ?_⟩
  · rw [evalN_symbol hop]
    brun [Builtins.indexB, Builtins.indexLoop, ha, Expr.index]
  · intro u hu
    rw [BMap.get?_of_mem hs hu]
    rfl
  · intro hu
    cases h : BMap.get? m x with
    | none => rfl
    | some u => exact absurd (BMap.mem_of_get? h) (hu u)

example := C35_map_name (P := Demo.plat) (H := Demo.host) (L := Demo.lib) (n := 1)
  (env := Demo.env) (w := []) (a := .map [(c!"a", .int (.lit 1)), (c!"b", .none)])
  (m := [(c!"a", .int (.lit 1)), (c!"b", .none)]) (x := c!"a") (by unfold BMap.Sorted; decide) rfl rfl

/-- C35, indexing anything else by anything gives `None`. -/
theorem C35_other {nm hlp : Str} {a b v i : Expr} {env env1 env2 : Env} {w w1 w2 : W}
    (hv : ¬ ((∃ l k, v = .list l ∧ i = .int k) ∨ (∃ m s, v = .map m ∧ i = .str s) ∨
      (∃ m s, v = .map m ∧ i = .symbol s)))
    (hop : env.get c!"@" = some (.builtin nm .index hlp))
    (ha : evalN P H (stdB P L) n a env w = (.ok v, env1, w1))
    (hb : (b = i ∧ env2 = env1 ∧ w2 = w1 ∧ ((∃ k, b = .int k) ∨ ∃ x, b = .symbol x)) ∨
      ((∀ k, b ≠ .int k) ∧ (∀ x, b ≠ .symbol x) ∧
        evalN P H (stdB P L) n b env1 w1 = (.ok i, env2, w2))) :
    evalN P H (stdB P L) (n + 1) (.apply (.symbol c!"@") [a, b]) env w =
      (.ok .none, env2, w2) := by
  have hi : Expr.index v i = .none := by
    unfold Expr.index
    split
    · exact absurd (.inr (.inr ⟨_, _, rfl, rfl⟩)) hv
    · exact absurd (.inr (.inl ⟨_, _, rfl, rfl⟩)) hv
    · exact absurd (.inl ⟨_, _, rfl, rfl⟩) hv
    · rfl
  rw [evalN_symbol hop]
  rcases hb with ⟨rfl, rfl, rfl, ⟨k, rfl⟩ | ⟨x, rfl⟩⟩ | ⟨h1, h2, h3⟩
  · brun [Builtins.indexB, Builtins.indexLoop, ha, hi]
  · brun [Builtins.indexB, Builtins.indexLoop, ha, hi]
  · cases b <;> first
      | exact absurd rfl (h1 _)
      | exact absurd rfl (h2 _)
      | (simp at h3; brun [Builtins.indexB, Builtins.indexLoop, ha, h3, hi]; done)
      | brun [Builtins.indexB, Builtins.indexLoop, ha, h3, hi]

example := C35_other (P := Demo.plat) (H := Demo.host) (L := Demo.lib) (n := 1)
  (env := Demo.env) (w := []) (a := .str c!"ab") (b := .int (.lit 0)) (i := .int (.lit 0)) (by simp) rfl rfl
  (.inl ⟨rfl, rfl, rfl, .inl ⟨_, rfl⟩⟩)

end

end Dune.Props
