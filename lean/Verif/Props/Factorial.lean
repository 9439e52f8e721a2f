import Verif.Proof.FactorialFloat
import Verif.Proof.RealFloat
import Verif.Props.Numbers

/-! C110: the factorial of a float. -/

namespace Dune.Props

open Spec

section

variable {W : Type} {P : Plat} {H : Host W} {L : Lib} {n : Nat} {env env1 : Env} {w w1 : W}

theorem not_below {f : F64} (h : 0 ≤ f.val) : F64.partialCmp f F64.zero ≠ some .lt := by
  unfold F64.partialCmp
  split
  · simp
  · intro e
    simp only [Option.some.injEq, compare_lt_iff_lt] at e
    rw [F64.key_lt, F64.zero_val] at e
    linarith

/-- What `math@fact` does with a float that is not negative. -/
theorem fact_float (hs : Std env) {a : Expr} {x : F64} (h0 : 0 ≤ x.val)
    (ha : evalN P H (stdB P L) n a env w = (.ok (.float x), env1, w1)) :
    evalN P H (stdB P L) (n + 1) (call c!"math" c!"fact" [a]) env w =
      (.ok (.float (Builtins.floatFact P x)), env1, w1) := by
  have hn := not_below h0
  lib hs, Init.mathM
  brun [Builtins.factB, ha, hn]

/-- C110, `math@fact` of the float `n` is not the factorial of `n`, nor anywhere near: for `n` up to 4 it is
too great by a fifth at least, from 5 on it is too small by three tenths at least. -/
theorem C110_float_factorial_refuted (hs : Std env) (hP : Precise P) {a : Expr} {x : F64} {k : Nat} (hf : x.Finite)
    (hk : x.val = k) (h1 : 1 ≤ k) (h9 : k ≤ 10 ^ 9)
    (ha : evalN P H (stdB P L) n a env w = (.ok (.float x), env1, w1)) :
    ∃ g : F64, g.Finite ∧
      evalN P H (stdB P L) (n + 1) (call c!"math" c!"fact" [a]) env w = (.ok (.float g), env1, w1) ∧
      (k ≤ 4 → 12 / 10 * (k.factorial : ℝ) ≤ g.val) ∧
      (5 ≤ k → g.val ≤ 7 / 10 * (k.factorial : ℝ)) := by
  have k1 : (1 : ℝ) ≤ k := by exact_mod_cast h1
  have k9 : (k : ℝ) ≤ 10 ^ 9 := by exact_mod_cast h9
  obtain ⟨g1, g2⟩ := Fact.floatFact_close hP hf hk k1 k9
  obtain ⟨_, p1, p2⟩ := Fact.val_pi
  refine ⟨_, g1, fact_float hs (by rw [hk]; linarith) ha, fun h => ?_, fun h => ?_⟩
  · have := Fact.formula_low p1 h1 h
    have f0 : (1 : ℝ) ≤ (k.factorial : ℝ) := by exact_mod_cast Nat.one_le_iff_ne_zero.2 (Nat.factorial_ne_zero k)
    have f4 : (k.factorial : ℝ) ≤ 24 := by
      exact_mod_cast (Nat.factorial_le h).trans (by decide : Nat.factorial 4 ≤ 24)
    have g3 := (abs_le.1 g2).1
    clear g2
    generalize (k.factorial : ℝ) = F at *
    norm_num at this g3 ⊢
    linarith
  · have := Fact.formula_high (by norm_num at p1 ⊢; linarith) p2 h
    have f0 : (120 : ℝ) ≤ (k.factorial : ℝ) := by
      exact_mod_cast le_trans (by decide : 120 ≤ Nat.factorial 5) (Nat.factorial_le h)
    have g3 := (abs_le.1 g2).2
    clear g2
    generalize (k.factorial : ℝ) = F at *
    norm_num at this g3 ⊢
    linarith

end

/-! ### Arithmetic that is precise enough exists -/

open Classical in
/-- A float near `x`. -/
noncomputable def near (x : ℝ) : F64 := if h : ∃ r, Close x r then h.choose else F64.zero

theorem near_close {x : ℝ} (h : |x| ≤ 2 ^ 1000) : Close x (near x) := by
  have e := F64.exists_close h
  rw [near, dif_pos e]
  exact e.choose_spec

/-- Nearly exact arithmetic. -/
noncomputable def precisePlat : Plat :=
  { Demo.plat with
    fAdd := fun a b => near (a.val + b.val)
    fSub := fun a b => near (a.val - b.val)
    fMul := fun a b => near (a.val * b.val)
    fDiv := fun a b => near (a.val / b.val)
    fFun := fun s a =>
      if s = c!"ln" then near (Real.log a.val) else if s = c!"exp" then near (Real.exp a.val)
      else if s = c!"sqrt" then near (√a.val) else a }

theorem val_le {a : F64} (h : a.Finite) : |a.val| ≤ 2 ^ 1024 := by
  have hm : F64.magVal a.mag ≤ F64.magVal (2047 * 2 ^ 52) :=
    F64.magVal_mono.monotone (by unfold F64.Finite at h; omega)
  have e : F64.magVal (2047 * 2 ^ 52) = 2 ^ 1024 := by
    unfold F64.magVal
    rw [if_neg (by norm_num), show 2047 * 2 ^ 52 % 2 ^ 52 = 0 by norm_num, show 2047 * 2 ^ 52 / 2 ^ 52 = 2047 by norm_num,
      show (((2 ^ 52 + 0 : ℕ)) : ℝ) = 2 ^ (52 : ℤ) by norm_num, ← zpow_add₀ (by norm_num),
      show (52 + (((2047 : ℕ) : ℤ) - 1075)) = ((1024 : ℕ) : ℤ) by norm_num, zpow_natCast]
  rw [e] at hm
  rw [F64.val_eq, abs_mul, abs_of_nonneg (F64.magVal_nonneg _)]
  have : |(if a.bits.toNat < 9223372036854775808 then (1 : ℝ) else -1)| = 1 := by split <;> simp
  rw [this, one_mul]
  exact hm

theorem val_ge {a : F64} (h : 0 < a.val) : (2⁻¹ : ℝ) ^ 1074 ≤ a.val := by
  have hb : a.val = F64.magVal a.mag ∧ 0 < a.mag := by
    rw [F64.val_eq] at h ⊢
    have h0 := F64.magVal_nonneg a.mag
    split at h
    · rename_i hb
      rw [if_pos hb, one_mul]
      refine ⟨rfl, Nat.pos_of_ne_zero fun e => ?_⟩
      rw [e, F64.magVal_zero] at h
      simp at h
    · linarith
  rw [hb.1]
  refine le_trans (le_of_eq ?_) (F64.magVal_mono.monotone hb.2)
  unfold F64.magVal
  rw [if_pos (by norm_num), show ((Nat.succ 0 : ℕ) : ℝ) = 1 by norm_num, one_mul, zpow_neg, inv_pow,
    show (1074 : ℤ) = ((1074 : ℕ) : ℤ) by norm_num, zpow_natCast]

theorem big_of {x : ℝ} (h : x ≤ 2 ^ 20) : x ≤ 2 ^ 1000 := h.trans (pow_le_pow_right₀ (by norm_num) (by norm_num))

theorem precise_plat : Precise precisePlat where
  add _ _ _ _ h := near_close h
  sub _ _ _ _ h := near_close h
  mul _ _ _ _ h := near_close h
  div _ _ _ _ _ h := near_close h
  ln a ha h0 := by
    refine near_close (big_of ?_)
    have h2 := Real.log_two_lt_d9
    have h3 := Real.log_two_gt_d9
    have u : Real.log a.val ≤ 1024 * Real.log 2 := by
      have := Real.log_le_log h0 ((le_abs_self _).trans (val_le ha))
      rwa [Real.log_pow] at this
    have l : -(1074 * Real.log 2) ≤ Real.log a.val := by
      have := Real.log_le_log (pow_pos (by norm_num) _) (val_ge h0)
      rw [Real.log_pow, Real.log_inv] at this
      push_cast at this
      linarith
    rw [abs_le]
    norm_num at h2 h3 ⊢
    constructor <;> linarith
  exp a _ h := near_close (by rwa [abs_of_pos (Real.exp_pos _)])
  sqrt a ha _ := by
    refine near_close ?_
    rw [abs_of_nonneg (Real.sqrt_nonneg _)]
    calc √a.val ≤ √((2 ^ 512) ^ 2) := Real.sqrt_le_sqrt (by
          rw [← pow_mul]
          exact (le_abs_self _).trans (val_le ha))
      _ = 2 ^ 512 := Real.sqrt_sq (pow_nonneg (by norm_num) _)
      _ ≤ 2 ^ 1000 := pow_le_pow_right₀ (by norm_num) (by norm_num)
  round a ha := by
    refine ⟨ha, ?_⟩
    show |a.val - a.val| ≤ 1 / 2
    norm_num

/-- `math@fact 5.0` is at most 84; the factorial is 120. -/
example : ∃ g : F64, g.Finite ∧
    evalN precisePlat Demo.host (stdB precisePlat Demo.lib) 1
      (call c!"math" c!"fact" [.float ⟨0x4014000000000000#64⟩]) Demo.env [] = (.ok (.float g), Demo.env, []) ∧
    g.val ≤ 84 := by
  obtain ⟨g, h1, h2, _, h3⟩ := C110_float_factorial_refuted (P := precisePlat) (H := Demo.host) (L := Demo.lib) (n := 0)
    (w := []) (a := .float ⟨0x4014000000000000#64⟩) (x := ⟨0x4014000000000000#64⟩) (k := 5)
    demo_std precise_plat (by norm_num [F64.Finite, F64.mag])
    (by norm_num [F64.val, F64.mag]) (by norm_num) (by norm_num) rfl
  refine ⟨g, h1, h2, (h3 (by norm_num)).trans ?_⟩
  norm_num [Nat.factorial]

end Dune.Props
