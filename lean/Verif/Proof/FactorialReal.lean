import Mathlib.Analysis.SpecialFunctions.Log.Basic
import Mathlib.Analysis.SpecialFunctions.Pow.Real
import Mathlib.Analysis.Complex.ExponentialBounds
import Mathlib.Data.Nat.Factorial.Basic

/-! The formula of `math@fact` for floating-point numbers, over the real numbers. -/

namespace Dune.Fact

open Real

/-- the sum in src/binary/init/math_module.rs:152 -/
noncomputable def series (x : ℝ) : ℝ :=
  1 + 1 / (12 * x) + 1 / (288 * x * x) - 139 / (51840 * x * x * x) - 571 / (2488320 * x * x * x * x)

/-- the formula of src/binary/init/math_module.rs:152, with `p` for the constant -/
noncomputable def formula (p x : ℝ) : ℝ := exp (log x * log x) * √(2 * p * x) * series x

theorem series_le {x : ℝ} (h : 5 ≤ x) : series x ≤ 1.02 := by
  have h0 : 0 < x := by linarith
  unfold series
  have h1 : 1 / (12 * x) ≤ 1 / 60 := by
    apply one_div_le_one_div_of_le <;> linarith
  have h2 : 1 / (288 * x * x) ≤ 1 / 7200 := by
    apply one_div_le_one_div_of_le
    · norm_num
    · nlinarith
  have h3 : 0 ≤ 139 / (51840 * x * x * x) := by positivity
  have h4 : 0 ≤ 571 / (2488320 * x * x * x * x) := by positivity
  norm_num at *
  linarith

theorem series_bounds {x : ℝ} (h : 1 ≤ x) : 1 ≤ series x ∧ series x ≤ 1.1 := by
  have h0 : 0 < x := by linarith
  unfold series
  have e : (1 : ℝ) + 1 / (12 * x) + 1 / (288 * x * x) - 139 / (51840 * x * x * x) - 571 / (2488320 * x * x * x * x) =
    1 + (1 / 12) * (1 / x) + (1 / 288) * (1 / x) ^ 2 - (139 / 51840) * (1 / x) ^ 3 - (571 / 2488320) * (1 / x) ^ 4 := by
    field_simp
  rw [e]
  have hy : 0 < 1 / x := by positivity
  have hy1 : 1 / x ≤ 1 := by rw [div_le_one h0]; exact h
  generalize 1 / x = y at hy hy1
  have y2 : y ^ 2 ≤ y := by nlinarith
  have y3 : y ^ 3 ≤ y := by nlinarith [pow_pos hy 2]
  have y4 : y ^ 4 ≤ y := by nlinarith [pow_pos hy 2, pow_pos hy 3]
  have := pow_pos hy 2
  have := pow_pos hy 3
  have := pow_pos hy 4
  constructor <;> norm_num <;> linarith

theorem log5 : log 5 ≤ 1.61 := by
  rw [log_le_iff_le_exp (by norm_num)]
  have h : (5 : ℝ) ^ 100 ≤ (exp 1.61) ^ 100 := by
    rw [← exp_nat_mul, show ((100 : ℕ) : ℝ) * 1.61 = ((161 : ℕ) : ℝ) * 1 by norm_num, exp_nat_mul]
    calc (5 : ℝ) ^ 100 ≤ 2.7182818283 ^ 161 := by norm_num
      _ ≤ exp 1 ^ 161 := by
        gcongr
        exact exp_one_gt_d9.le
  exact le_of_pow_le_pow_left₀ (by norm_num) (exp_pos _).le h

theorem exp26 : exp 2.6 ≤ 13.47 := by
  have h : (exp 2.6) ^ 5 ≤ 13.47 ^ 5 := by
    rw [← exp_nat_mul, show ((5 : ℕ) : ℝ) * 2.6 = ((13 : ℕ) : ℝ) * 1 by norm_num, exp_nat_mul]
    calc exp 1 ^ 13 ≤ 2.7182818286 ^ 13 := by
          gcongr
          exact exp_one_lt_d9.le
      _ ≤ _ := by norm_num
  exact le_of_pow_le_pow_left₀ (by norm_num) (by norm_num) h

/-- the growing part -/
noncomputable def grow (x : ℝ) : ℝ := exp (log x * log x) * √x

theorem grow5 : grow 5 ≤ 30.2 := by
  unfold grow
  have h1 : exp (log 5 * log 5) ≤ 13.47 := by
    refine le_trans ?_ exp26
    apply exp_le_exp.2
    have := log5
    have h0 : 0 ≤ log 5 := log_nonneg (by norm_num)
    nlinarith
  have h2 : √5 ≤ 2.24 := by
    rw [sqrt_le_left (by norm_num)]; norm_num
  calc exp (log 5 * log 5) * √5 ≤ 13.47 * 2.24 := by gcongr
    _ ≤ (30.2 : ℝ) := by norm_num

theorem grow_step {n : ℕ} (h : 5 ≤ n) : grow (n + 1) ≤ (n + 1) * grow n := by
  have hn : (5 : ℝ) ≤ n := by exact_mod_cast h
  have h0 : (0 : ℝ) < n := by linarith
  unfold grow
  have hL : log (n + 1) ≤ log n + 1 / n := by
    have := log_le_sub_one_of_pos (show (0 : ℝ) < (n + 1) / n by positivity)
    rw [log_div (by positivity) (by positivity)] at this
    have e : ((n : ℝ) + 1) / n - 1 = 1 / n := by field_simp; ring
    linarith
  have hl : 1 ≤ log n := by
    rw [le_log_iff_exp_le h0]
    have := exp_one_lt_d9
    norm_num at this ⊢
    linarith
  have hmono : log n ≤ log (n + 1) := log_le_log h0 (by linarith)
  have hs : √((n : ℝ) + 1) ≤ exp (1 / (2 * n)) * √n := by
    rw [sqrt_le_left (by positivity), mul_pow, sq_sqrt h0.le, ← exp_nat_mul]
    have := add_one_le_exp ((2 : ℕ) * (1 / (2 * (n : ℝ))))
    have e : ((2 : ℕ) : ℝ) * (1 / (2 * (n : ℝ))) = 1 / n := by push_cast; field_simp
    rw [e] at this ⊢
    calc (n : ℝ) + 1 = (1 / n + 1) * n := by field_simp; ring
      _ ≤ _ := by gcongr
  have hi : 1 / (n : ℝ) ≤ 1 / 5 := by
    apply one_div_le_one_div_of_le <;> linarith
  have hi0 : 0 < 1 / (n : ℝ) := by positivity
  have e2 : 1 / (2 * (n : ℝ)) = 1 / n / 2 := by field_simp
  have key : log (n + 1) * log (n + 1) + 1 / (2 * n) ≤ log (n + 1) + log n * log n := by
    rw [e2]
    nlinarith
  calc exp (log (n + 1) * log (n + 1)) * √((n : ℝ) + 1)
      ≤ exp (log (n + 1) * log (n + 1)) * (exp (1 / (2 * n)) * √n) := by gcongr
    _ = exp (log (n + 1) * log (n + 1) + 1 / (2 * n)) * √n := by rw [exp_add]; ring
    _ ≤ exp (log (n + 1) + log n * log n) * √n := by gcongr
    _ = _ := by rw [exp_add, exp_log (by positivity)]; ring

theorem grow_le : ∀ {n : ℕ}, 5 ≤ n → grow n ≤ 30.2 / 120 * n.factorial := by
  intro n h
  induction n, h using Nat.le_induction with
  | base =>
    have := grow5
    norm_num [Nat.factorial] at this ⊢
    linarith
  | succ n hn ih =>
    have := grow_step hn
    push_cast [Nat.factorial_succ] at this ⊢
    calc _ ≤ _ := this
      _ ≤ (n + 1) * (30.2 / 120 * n.factorial) := by gcongr
      _ = _ := by ring

theorem formula_eq {p x : ℝ} (hp : 0 ≤ p) : formula p x = grow x * √(2 * p) * series x := by
  unfold formula grow
  rw [sqrt_mul (by positivity)]
  ring

/-- From 5 on the formula is at most 2/3 of the factorial. -/
theorem formula_high {p : ℝ} (hp : 0 ≤ p) (hp1 : p ≤ 3.1416) {n : ℕ} (h : 5 ≤ n) :
    formula p n ≤ 0.66 * n.factorial := by
  have hn : (5 : ℝ) ≤ n := by exact_mod_cast h
  rw [formula_eq hp]
  have h1 : √(2 * p) ≤ 2.5067 := by
    rw [sqrt_le_left (by norm_num)]; norm_num; linarith
  have h2 := series_le hn
  have h3 := grow_le h
  have h4 : 0 ≤ grow n := by unfold grow; positivity
  have h5 := (series_bounds (x := n) (by linarith)).1
  calc grow n * √(2 * p) * series n ≤ (30.2 / 120 * (n.factorial : ℝ)) * 2.5067 * 1.02 := by gcongr
    _ = (30.2 / 120 * 2.5067 * 1.02 : ℝ) * (n.factorial : ℝ) := by ring
    _ ≤ 0.66 * (n.factorial : ℝ) := by
      gcongr
      norm_num

/-- Below 5 the formula is too large. -/
theorem formula_low {p : ℝ} (hp : 3.1415 ≤ p) {n : ℕ} (h1 : 1 ≤ n) (h4 : n ≤ 4) :
    6 / 5 * (n.factorial : ℝ) + 0.6 ≤ formula p n := by
  have sq : ∀ {a b : ℝ}, 0 ≤ b → b * b ≤ a → b ≤ √a := fun hb h => by
    rw [le_sqrt hb (le_trans (mul_nonneg hb hb) h), pow_two]; exact h
  unfold formula series
  obtain rfl | rfl | rfl | rfl : n = 1 ∨ n = 2 ∨ n = 3 ∨ n = 4 := by omega
  · have s : 2.5 ≤ √(2 * p * ((1 : ℕ) : ℝ)) := sq (by norm_num) (by norm_num; linarith)
    norm_num [Nat.factorial] at s ⊢
    linarith
  · have s : 3.5 ≤ √(2 * p * ((2 : ℕ) : ℝ)) := sq (by norm_num) (by norm_num; linarith)
    have e : 1 ≤ exp (log ((2 : ℕ) : ℝ) * log ((2 : ℕ) : ℝ)) := one_le_exp (mul_self_nonneg _)
    revert s e
    generalize exp _ = E
    generalize √_ = S
    intro s e
    norm_num [Nat.factorial] at s e ⊢
    nlinarith
  · have s : 4.3 ≤ √(2 * p * ((3 : ℕ) : ℝ)) := sq (by norm_num) (by norm_num; linarith)
    have e : 2 ≤ exp (log ((3 : ℕ) : ℝ) * log ((3 : ℕ) : ℝ)) := by
      have l : 1 ≤ log 3 := by
        rw [le_log_iff_exp_le (by norm_num)]
        have := exp_one_lt_d9
        norm_num at this ⊢
        linarith
      push_cast
      have := add_one_le_exp (log 3 * log 3)
      nlinarith
    revert s e
    generalize exp _ = E
    generalize √_ = S
    intro s e
    norm_num [Nat.factorial] at s e ⊢
    nlinarith
  · have s : 5.01 ≤ √(2 * p * ((4 : ℕ) : ℝ)) := sq (by norm_num) (by norm_num; linarith)
    have e : 5.9 ≤ exp (log ((4 : ℕ) : ℝ) * log ((4 : ℕ) : ℝ)) := by
      have l : 1.386 ≤ log 4 := by
        rw [show (4 : ℝ) = 2 ^ 2 by norm_num, log_pow]
        have := log_two_gt_d9
        norm_num at this ⊢
        linarith
      have l2 : 1.92 ≤ log 4 * log 4 := by nlinarith
      push_cast
      refine le_trans ?_ (exp_le_exp.2 l2)
      refine le_trans ?_ (sum_le_exp_of_nonneg (by norm_num) 4)
      norm_num [Finset.sum_range_succ, Nat.factorial]
    revert s e
    generalize exp _ = E
    generalize √_ = S
    intro s e
    norm_num [Nat.factorial] at s e ⊢
    nlinarith

end Dune.Fact
