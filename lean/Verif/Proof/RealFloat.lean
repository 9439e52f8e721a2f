import Verif.Spec.Real
import Mathlib.Data.Int.Log

/-! Floats are ordered as the real numbers they stand for, and lie near every real number. -/

namespace Dune

open Real Spec

namespace F64

/-- The real number of the bits without the sign. -/
noncomputable def magVal (m : Nat) : ℝ :=
  if m / 2 ^ 52 = 0 then (m : ℝ) * 2 ^ (-1074 : ℤ)
  else ((2 ^ 52 + m % 2 ^ 52 : ℕ) : ℝ) * 2 ^ ((m / 2 ^ 52 : ℕ) - 1075 : ℤ)

theorem val_eq (f : F64) : f.val = (if f.bits.toNat < 9223372036854775808 then 1 else -1) * magVal f.mag := rfl

theorem magVal_zero : magVal 0 = 0 := by simp [magVal]

theorem magVal_step (m : Nat) : magVal m < magVal (m + 1) := by
  have hp : ∀ e : ℤ, (0 : ℝ) < 2 ^ e := fun e => zpow_pos (by norm_num) e
  unfold magVal
  by_cases h0 : m / 2 ^ 52 = 0
  · rw [if_pos h0]
    by_cases h1 : (m + 1) / 2 ^ 52 = 0
    · rw [if_pos h1]
      exact mul_lt_mul_of_pos_right (by push_cast; linarith) (hp _)
    · rw [if_neg h1]
      have e1 : (m + 1) / 2 ^ 52 = 1 := by omega
      have e2 : (m + 1) % 2 ^ 52 = 0 := by omega
      rw [e1, e2]
      have e3 : (m : ℝ) < ((2 ^ 52 + 0 : ℕ) : ℝ) := by exact_mod_cast (by omega : m < 2 ^ 52 + 0)
      exact mul_lt_mul_of_pos_right e3 (hp _)
  · have h1 : (m + 1) / 2 ^ 52 ≠ 0 := by omega
    rw [if_neg h0, if_neg h1]
    by_cases h2 : (m + 1) / 2 ^ 52 = m / 2 ^ 52
    · rw [h2]
      have e3 : ((2 ^ 52 + m % 2 ^ 52 : ℕ) : ℝ) < ((2 ^ 52 + (m + 1) % 2 ^ 52 : ℕ) : ℝ) := by
        exact_mod_cast (by omega : 2 ^ 52 + m % 2 ^ 52 < 2 ^ 52 + (m + 1) % 2 ^ 52)
      exact mul_lt_mul_of_pos_right e3 (hp _)
    · have e1 : (m + 1) / 2 ^ 52 = m / 2 ^ 52 + 1 := by omega
      have e2 : (m + 1) % 2 ^ 52 = 0 := by omega
      have e3 : (((m / 2 ^ 52 + 1 : ℕ) : ℤ) - 1075) = ((m / 2 ^ 52 : ℕ) : ℤ) - 1075 + 1 := by push_cast; ring
      rw [e1, e2, e3, zpow_add_one₀ (by norm_num), mul_comm _ (2 : ℝ), ← mul_assoc]
      have e4 : ((2 ^ 52 + m % 2 ^ 52 : ℕ) : ℝ) < ((2 ^ 52 + 0 : ℕ) : ℝ) * 2 := by
        exact_mod_cast (by omega : 2 ^ 52 + m % 2 ^ 52 < (2 ^ 52 + 0) * 2)
      exact mul_lt_mul_of_pos_right e4 (hp _)

theorem magVal_mono : StrictMono magVal := strictMono_nat_of_lt_succ magVal_step

theorem magVal_nonneg (m : Nat) : 0 ≤ magVal m := by
  rw [← magVal_zero]
  exact magVal_mono.monotone (Nat.zero_le m)

theorem magVal_pos {m : Nat} (h : 0 < m) : 0 < magVal m := by
  rw [← magVal_zero]
  exact magVal_mono h

/-- A float as a function of its rank. -/
theorem val_key (f : F64) : f.val = if 0 ≤ f.key then magVal f.key.toNat else - magVal (-f.key).toNat := by
  rw [val_eq]
  unfold key
  by_cases h : f.bits.toNat < 9223372036854775808
  · simp [h]
  · by_cases h0 : f.mag = 0
    · simp [h, h0, magVal_zero]
    · have : 0 < f.mag := by omega
      simp [h, h0]

theorem keyVal_mono : StrictMono fun k : Int => if 0 ≤ k then magVal k.toNat else - magVal (-k).toNat := by
  intro a b hab
  by_cases ha : 0 ≤ a
  · have hb : 0 ≤ b := by omega
    simp only [ha, hb, if_true]
    exact magVal_mono (by omega)
  · simp only [ha, if_false]
    have := magVal_pos (m := (-a).toNat) (by omega)
    by_cases hb : 0 ≤ b
    · simp only [hb, if_true]
      have := magVal_nonneg b.toNat
      linarith
    · simp only [hb, if_false]
      have := magVal_mono (a := (-b).toNat) (b := (-a).toNat) (by omega)
      linarith

theorem key_lt {a b : F64} : a.key < b.key ↔ a.val < b.val := by
  rw [val_key, val_key]
  exact (keyVal_mono.lt_iff_lt (a := a.key) (b := b.key)).symm

theorem key_eq {a b : F64} : a.key = b.key ↔ a.val = b.val := by
  rw [val_key, val_key]
  exact (keyVal_mono.injective.eq_iff (a := a.key) (b := b.key)).symm

theorem zero_val : zero.val = 0 := by
  rw [val_key]
  have : zero.key = 0 := by decide
  rw [this]
  simp [magVal_zero]

theorem Finite.not_nan {f : F64} (h : f.Finite) : f.isNaN = false := by
  unfold isNaN
  unfold Finite at h
  simp
  omega

/-- Every number with 53 significant bits is that of a float. -/
theorem exists_float {m : ℕ} {e : ℤ} (m1 : 2 ^ 52 ≤ m) (m2 : m < 2 ^ 53) (e1 : -1022 ≤ e) (e2 : e ≤ 1023) (neg : Bool) :
    ∃ r : F64, r.Finite ∧ r.val = (if neg then -1 else 1) * ((m : ℝ) * 2 ^ (e - 52)) := by
  obtain ⟨E, hE⟩ : ∃ E : ℕ, (E : ℤ) = e + 1023 := ⟨(e + 1023).toNat, by omega⟩
  have E1 : 1 ≤ E := by omega
  have E2 : E ≤ 2046 := by omega
  obtain ⟨M, hM⟩ : ∃ M, M = E * 2 ^ 52 + (m - 2 ^ 52) := ⟨_, rfl⟩
  have M1 : M / 2 ^ 52 = E := by omega
  have M2 : M % 2 ^ 52 = m - 2 ^ 52 := by omega
  have M3 : M < 9218868437227405312 := by omega
  have hv : magVal M = m * 2 ^ (e - 52) := by
    unfold magVal
    rw [M1, M2, if_neg (by omega), show 2 ^ 52 + (m - 2 ^ 52) = m by omega, hE]
    congr 2
    ring
  cases neg
  · refine ⟨⟨BitVec.ofNat 64 M⟩, ?_, ?_⟩
    · unfold Finite mag
      simp only [BitVec.toNat_ofNat]
      omega
    · have hm : (⟨BitVec.ofNat 64 M⟩ : F64).mag = M := by
        unfold mag
        simp only [BitVec.toNat_ofNat]
        omega
      have hb : (BitVec.ofNat 64 M).toNat < 9223372036854775808 := by
        simp only [BitVec.toNat_ofNat]
        omega
      rw [val_eq, hm, if_pos hb, hv]
      simp
  · refine ⟨⟨BitVec.ofNat 64 (M + 9223372036854775808)⟩, ?_, ?_⟩
    · unfold Finite mag
      simp only [BitVec.toNat_ofNat]
      omega
    · have hm : (⟨BitVec.ofNat 64 (M + 9223372036854775808)⟩ : F64).mag = M := by
        unfold mag
        simp only [BitVec.toNat_ofNat]
        omega
      have hb : ¬ (BitVec.ofNat 64 (M + 9223372036854775808)).toNat < 9223372036854775808 := by
        simp only [BitVec.toNat_ofNat]
        omega
      rw [val_eq, hm, if_neg hb, hv]
      simp

theorem zero_finite : zero.Finite := by unfold Finite; decide

/-- Every real number of this size has a float near it. -/
theorem exists_near {x : ℝ} (hx : |x| ≤ 2 ^ 1000) :
    ∃ r : F64, r.Finite ∧ |r.val - x| ≤ |x| * (2⁻¹ : ℝ) ^ 52 + (2⁻¹ : ℝ) ^ 1000 := by
  by_cases h0 : |x| ≤ (2⁻¹ : ℝ) ^ 1000
  · refine ⟨zero, zero_finite, ?_⟩
    rw [zero_val, zero_sub, abs_neg]
    refine h0.trans ?_
    have : 0 ≤ |x| * (2⁻¹ : ℝ) ^ 52 := by positivity
    exact le_add_of_nonneg_left this
  · have h1 : (2⁻¹ : ℝ) ^ 1000 < |x| := lt_of_not_ge h0
    have hpos : 0 < |x| := lt_of_le_of_lt (pow_nonneg (by norm_num) _) h1
    obtain ⟨e, he⟩ : ∃ e, e = Int.log 2 |x| := ⟨_, rfl⟩
    have b1 : (2 : ℝ) ^ e ≤ |x| := by
      have := Int.zpow_log_le_self (b := 2) (r := |x|) (by norm_num) hpos
      rw [he]; exact_mod_cast this
    have b2 : |x| < (2 : ℝ) ^ (e + 1) := by
      have := Int.lt_zpow_succ_log_self (b := 2) (by norm_num) |x|
      rw [he]; exact_mod_cast this
    have r1 : e ≤ 1000 := by
      by_contra hc
      have : (2 : ℝ) ^ (1001 : ℤ) ≤ 2 ^ e := zpow_le_zpow_right₀ (by norm_num) (by omega)
      have h2 : (2 : ℝ) ^ (1001 : ℤ) = 2 ^ 1000 * 2 := by
        rw [show (1001 : ℤ) = ((1000 : ℕ) : ℤ) + 1 by norm_num, zpow_add_one₀ (by norm_num), zpow_natCast]
      rw [h2] at this
      have hp : (0 : ℝ) < 2 ^ 1000 := pow_pos (by norm_num) _
      generalize (2 : ℝ) ^ 1000 = z at *
      linarith
    have r2 : -1001 ≤ e := by
      by_contra hc
      have : (2 : ℝ) ^ (e + 1) ≤ 2 ^ (-1000 : ℤ) := zpow_le_zpow_right₀ (by norm_num) (by omega)
      have h2 : (2 : ℝ) ^ (-1000 : ℤ) = (2⁻¹ : ℝ) ^ 1000 := by
        rw [zpow_neg, inv_pow, show (1000 : ℤ) = ((1000 : ℕ) : ℤ) by norm_num, zpow_natCast]
      rw [h2] at this
      exact absurd (lt_trans (lt_of_lt_of_le b2 this) h1) (lt_irrefl _)
    obtain ⟨t, ht⟩ : ∃ t : ℝ, t = |x| * 2 ^ (52 - e) := ⟨_, rfl⟩
    have xt : |x| = t * 2 ^ (e - 52) := by
      rw [ht, mul_assoc, ← zpow_add₀ (by norm_num)]
      simp
    have t1 : ((2 ^ 52 : ℕ) : ℝ) ≤ t := by
      rw [ht]
      calc ((2 ^ 52 : ℕ) : ℝ) = 2 ^ e * 2 ^ (52 - e) := by
            rw [← zpow_add₀ (by norm_num)]; norm_num
        _ ≤ _ := mul_le_mul_of_nonneg_right b1 (zpow_pos (by norm_num) _).le
    have t2 : t < ((2 ^ 53 : ℕ) : ℝ) := by
      rw [ht]
      calc |x| * 2 ^ (52 - e) < 2 ^ (e + 1) * 2 ^ (52 - e) :=
            mul_lt_mul_of_pos_right b2 (zpow_pos (by norm_num) _)
        _ = ((2 ^ 53 : ℕ) : ℝ) := by
          rw [← zpow_add₀ (by norm_num), show e + 1 + (52 - e) = 53 by ring]; norm_num
    have tp : 0 ≤ t := le_trans (by positivity) t1
    have m1 : 2 ^ 52 ≤ ⌊t⌋₊ := Nat.le_floor t1
    have m2 : ⌊t⌋₊ < 2 ^ 53 := (Nat.floor_lt tp).2 t2
    have f1 := Nat.floor_le tp
    have f2 := Nat.lt_floor_add_one t
    generalize ⌊t⌋₊ = m at m1 m2 f1 f2
    obtain ⟨r, hr, hv⟩ := exists_float m1 m2 (show -1022 ≤ e by omega) (show e ≤ 1023 by omega) (decide (x < 0))
    refine ⟨r, hr, ?_⟩
    have near : abs ((m : ℝ) * 2 ^ (e - 52) - abs x) ≤ |x| * (2⁻¹ : ℝ) ^ 52 := by
      have q := zpow_pos (a := (2 : ℝ)) (by norm_num) (e - 52)
      have big : (1 : ℝ) ≤ t * (2⁻¹ : ℝ) ^ 52 := by
        calc (1 : ℝ) ≤ ((2 ^ 52 : ℕ) : ℝ) * (2⁻¹ : ℝ) ^ 52 := by norm_num
          _ ≤ _ := mul_le_mul_of_nonneg_right t1 (by positivity)
      rw [xt, ← sub_mul, abs_mul, abs_of_pos q]
      have : |(m : ℝ) - t| ≤ 1 := by rw [abs_le]; constructor <;> linarith
      calc |(m : ℝ) - t| * 2 ^ (e - 52) ≤ (t * (2⁻¹ : ℝ) ^ 52) * 2 ^ (e - 52) :=
            mul_le_mul_of_nonneg_right (this.trans big) q.le
        _ = _ := by ring
    have tiny : (0 : ℝ) ≤ (2⁻¹ : ℝ) ^ 1000 := pow_nonneg (by norm_num) _
    refine le_trans ?_ (near.trans (le_add_of_nonneg_right tiny))
    rw [hv]
    by_cases hs : x < 0
    · rw [abs_of_neg hs]
      simp only [hs, decide_true, if_true]
      rw [← abs_neg]
      apply le_of_eq
      congr 1
      ring
    · rw [abs_of_nonneg (not_lt.1 hs)]
      simp only [hs, decide_false]
      simp

/-- Every real number of this size has a float close to it. -/
theorem exists_close {x : ℝ} (hx : |x| ≤ 2 ^ 1000) : ∃ r : F64, Close x r := by
  obtain ⟨r, h1, h2⟩ := exists_near hx
  refine ⟨r, h1, h2.trans ?_⟩
  have : (2⁻¹ : ℝ) ^ 52 ≤ (2⁻¹ : ℝ) ^ 40 := by norm_num
  refine add_le_add ?_ le_rfl
  gcongr |x| * ?_

/-- Whole numbers up to 2^53 are numbers of floats. -/
theorem exists_whole {k : ℤ} (hk : |k| ≤ 2 ^ 53) : ∃ r : F64, r.Finite ∧ r.val = k := by
  by_cases h0 : k = 0
  · exact ⟨zero, zero_finite, by rw [zero_val, h0]; simp⟩
  · have hn : k.natAbs ≠ 0 := by omega
    have key : ∃ r : F64, r.Finite ∧ r.val = (if decide (k < 0) then -1 else 1) * (k.natAbs : ℝ) := by
      by_cases h3 : k.natAbs < 2 ^ 53
      · have l1 := Nat.pow_log_le_self 2 hn
        have l2 := Nat.lt_pow_succ_log_self (b := 2) (by norm_num) k.natAbs
        have l3 : Nat.log 2 k.natAbs < 53 := Nat.log_lt_of_lt_pow hn h3
        generalize Nat.log 2 k.natAbs = e at l1 l2 l3
        have p : 2 ^ e * 2 ^ (52 - e) = 2 ^ 52 := by rw [← pow_add]; congr 1; omega
        obtain ⟨r, h1, h2⟩ := exists_float (m := k.natAbs * 2 ^ (52 - e)) (e := e)
          (by rw [← p]; exact Nat.mul_le_mul_right _ l1)
          (by
            calc k.natAbs * 2 ^ (52 - e) < 2 ^ (e + 1) * 2 ^ (52 - e) := Nat.mul_lt_mul_of_pos_right l2 (by positivity)
              _ = 2 ^ 53 := by rw [pow_succ, mul_right_comm, p]; norm_num)
          (by omega) (by omega) (decide (k < 0))
        refine ⟨r, h1, ?_⟩
        rw [h2]
        congr 1
        push_cast
        rw [mul_assoc, show ((e : ℤ) - 52) = -((52 - e : ℕ) : ℤ) by omega, zpow_neg, zpow_natCast,
          mul_inv_cancel₀ (by positivity), mul_one]
      · have h4 : k.natAbs = 2 ^ 53 := by
          rw [abs_le] at hk
          omega
        obtain ⟨r, h1, h2⟩ := exists_float (m := 2 ^ 52) (e := 53) le_rfl (by norm_num) (by omega) (by omega) (decide (k < 0))
        refine ⟨r, h1, ?_⟩
        rw [h2, h4]
        norm_num
    obtain ⟨r, h1, h2⟩ := key
    refine ⟨r, h1, ?_⟩
    rw [h2, Nat.cast_natAbs]
    by_cases hs : k < 0
    · simp [hs, abs_of_neg hs]
    · simp [hs, abs_of_nonneg (not_lt.1 hs)]

/-- There is a float nearest to every real number. -/
theorem exists_nearest (x : ℝ) : ∃ r : F64, Nearest x r := by
  have : _root_.Finite F64 := _root_.Finite.of_injective (fun a => a.bits.toFin) fun a b h => by
    cases a; cases b; simp only [BitVec.toFin_inj] at h; rw [h]
  obtain ⟨r, h1, h2⟩ := Set.exists_min_image {r : F64 | r.Finite} (fun r => |r.val - x|) (Set.toFinite _) ⟨zero, zero_finite⟩
  exact ⟨r, h1, h2⟩

theorem _root_.Dune.Spec.Nearest.exact {x : ℝ} {r s : F64} (h : Nearest x r) (hs : s.Finite) (hx : s.val = x) : r.val = x := by
  have := h.2 s hs
  rw [hx, sub_self, abs_zero] at this
  have := abs_eq_zero.1 (le_antisymm this (abs_nonneg _))
  linarith

theorem _root_.Dune.Spec.Nearest.whole {k : ℤ} {r : F64} (h : Nearest k r) (hk : |k| ≤ 2 ^ 53) : r.val = k := by
  obtain ⟨s, h1, h2⟩ := exists_whole hk
  exact h.exact h1 h2

theorem _root_.Dune.Spec.Nearest.near {x : ℝ} {r : F64} (h : Nearest x r) (hx : |x| ≤ 2 ^ 1000) :
    |r.val - x| ≤ |x| * (2⁻¹ : ℝ) ^ 52 + (2⁻¹ : ℝ) ^ 1000 := by
  obtain ⟨s, h1, h2⟩ := exists_near hx
  exact (h.2 s h1).trans h2

end F64

end Dune
