import Verif.Spec.Real
import Verif.Proof.FactorialReal
import Verif.Model.Builtins

/-! Errors of the floating-point formula of `math@fact`. -/

namespace Dune.Fact

open Real Spec

/-- `y` differs from the positive `x` by at most `k` 2^38ths of `x` -/
def Rel (k x y : ℝ) : Prop := 0 < x ∧ |y - x| ≤ k * (2⁻¹ : ℝ) ^ 38 * x

theorem Rel.exact {x : ℝ} (h : 0 < x) : Rel 0 x x := ⟨h, by simp⟩

theorem Rel.bounds {k x y : ℝ} (h : Rel k x y) (hk : k ≤ 5000) : x * (1 - (2⁻¹ : ℝ) ^ 24) ≤ y ∧ y ≤ x * (1 + (2⁻¹ : ℝ) ^ 24) := by
  obtain ⟨h0, h1⟩ := h
  have h2 : k * (2⁻¹ : ℝ) ^ 38 ≤ (2⁻¹ : ℝ) ^ 24 := by
    calc k * (2⁻¹ : ℝ) ^ 38 ≤ 5000 * (2⁻¹ : ℝ) ^ 38 := by gcongr
      _ ≤ _ := by norm_num
  have h3 : |y - x| ≤ (2⁻¹ : ℝ) ^ 24 * x := h1.trans (by gcongr)
  rw [abs_le] at h3
  constructor <;> linarith [h3.1, h3.2]

theorem Rel.pos {k x y : ℝ} (h : Rel k x y) (hk : k ≤ 5000) : 0 < y := by
  have := (h.bounds hk).1
  have h0 := h.1
  have : 0 < x * (1 - (2⁻¹ : ℝ) ^ 24) := by
    apply mul_pos h0; norm_num
  linarith

/-- one more rounding -/
theorem Rel.close {k x y : ℝ} {r : F64} (h : Rel k x y) (hk : k ≤ 5000) (hx : (2⁻¹ : ℝ) ^ 900 ≤ x) (hr : Close y r) :
    r.Finite ∧ Rel (k + 1) x r.val := by
  refine ⟨hr.1, h.1, ?_⟩
  have hy := h.pos hk
  have hb := (h.bounds hk).2
  have h1 := h.2
  have h2 := hr.2
  rw [abs_of_pos hy] at h2
  have ht : (2⁻¹ : ℝ) ^ 1000 ≤ (2⁻¹ : ℝ) ^ 100 * x := by
    calc (2⁻¹ : ℝ) ^ 1000 = (2⁻¹ : ℝ) ^ 100 * (2⁻¹ : ℝ) ^ 900 := by rw [← pow_add]
      _ ≤ _ := by gcongr
  have h3 : y * (2⁻¹ : ℝ) ^ 40 ≤ x * (1 + (2⁻¹ : ℝ) ^ 24) * (2⁻¹ : ℝ) ^ 40 := by gcongr
  have h4 : x * (1 + (2⁻¹ : ℝ) ^ 24) * (2⁻¹ : ℝ) ^ 40 + (2⁻¹ : ℝ) ^ 100 * x ≤ (2⁻¹ : ℝ) ^ 38 * x := by
    have : (1 + (2⁻¹ : ℝ) ^ 24) * (2⁻¹ : ℝ) ^ 40 + (2⁻¹ : ℝ) ^ 100 ≤ (2⁻¹ : ℝ) ^ 38 := by norm_num
    calc _ = ((1 + (2⁻¹ : ℝ) ^ 24) * (2⁻¹ : ℝ) ^ 40 + (2⁻¹ : ℝ) ^ 100) * x := by ring
      _ ≤ _ := by gcongr; exact h.1.le
  calc |r.val - x| ≤ |r.val - y| + |y - x| := abs_sub_le _ _ _
    _ ≤ (2⁻¹ : ℝ) ^ 38 * x + k * (2⁻¹ : ℝ) ^ 38 * x := add_le_add (h2.trans ((add_le_add h3 ht).trans h4)) h1
    _ = (k + 1) * (2⁻¹ : ℝ) ^ 38 * x := by ring

theorem Rel.mul {i j x y u v : ℝ} (h : Rel i x y) (h' : Rel j u v) (hi : 0 ≤ i) (hj : 0 ≤ j) (hi' : i ≤ 5000) (hj' : j ≤ 5000) :
    Rel (i + j + 1) (x * u) (y * v) := by
  obtain ⟨h0, h1⟩ := h
  obtain ⟨g0, g1⟩ := h'
  refine ⟨mul_pos h0 g0, ?_⟩
  have e : y * v - x * u = (y - x) * (v - u) + (y - x) * u + x * (v - u) := by ring
  rw [e]
  have hp : |(y - x) * (v - u)| ≤ (i * (2⁻¹ : ℝ) ^ 38 * x) * (j * (2⁻¹ : ℝ) ^ 38 * u) := by
    rw [abs_mul]; gcongr
  have hq : |(y - x) * u| ≤ (i * (2⁻¹ : ℝ) ^ 38 * x) * u := by
    rw [abs_mul, abs_of_pos g0]; gcongr
  have hr : |x * (v - u)| ≤ x * (j * (2⁻¹ : ℝ) ^ 38 * u) := by
    rw [abs_mul, abs_of_pos h0]; gcongr
  have hs : (i * (2⁻¹ : ℝ) ^ 38 * x) * (j * (2⁻¹ : ℝ) ^ 38 * u) ≤ (2⁻¹ : ℝ) ^ 38 * (x * u) := by
    have : i * (2⁻¹ : ℝ) ^ 38 * (j * (2⁻¹ : ℝ) ^ 38) ≤ (2⁻¹ : ℝ) ^ 38 := by
      calc i * (2⁻¹ : ℝ) ^ 38 * (j * (2⁻¹ : ℝ) ^ 38) ≤ 5000 * (2⁻¹ : ℝ) ^ 38 * (5000 * (2⁻¹ : ℝ) ^ 38) := by gcongr
        _ ≤ _ := by norm_num
    calc _ = (i * (2⁻¹ : ℝ) ^ 38 * (j * (2⁻¹ : ℝ) ^ 38)) * (x * u) := by ring
      _ ≤ _ := by gcongr
  calc _ ≤ |(y - x) * (v - u)| + |(y - x) * u| + |x * (v - u)| := abs_add_three _ _ _
    _ ≤ (2⁻¹ : ℝ) ^ 38 * (x * u) + (i * (2⁻¹ : ℝ) ^ 38 * x) * u + x * (j * (2⁻¹ : ℝ) ^ 38 * u) :=
      add_le_add (add_le_add (hp.trans hs) hq) hr
    _ = (i + j + 1) * (2⁻¹ : ℝ) ^ 38 * (x * u) := by ring

theorem Rel.inv {i x y : ℝ} (h : Rel i x y) (hi : 0 ≤ i) (hi' : i ≤ 2000) : Rel (2 * i) x⁻¹ y⁻¹ := by
  have hy := h.pos (by linarith)
  have hb := (h.bounds (by linarith)).1
  obtain ⟨h0, h1⟩ := h
  refine ⟨inv_pos.2 h0, ?_⟩
  have e : y⁻¹ - x⁻¹ = -(y - x) * (x⁻¹ * y⁻¹) := by field_simp; ring
  have hy2 : y⁻¹ ≤ 2 * x⁻¹ := by
    rw [show 2 * x⁻¹ = (x / 2)⁻¹ by field_simp]
    apply inv_anti₀ (by linarith)
    have : x * (1 - (2⁻¹ : ℝ) ^ 24) ≥ x / 2 := by
      have : (1 : ℝ) / 2 ≤ 1 - (2⁻¹ : ℝ) ^ 24 := by norm_num
      nlinarith
    linarith
  rw [e, abs_mul, abs_neg, abs_of_pos (mul_pos (inv_pos.2 h0) (inv_pos.2 hy))]
  calc |y - x| * (x⁻¹ * y⁻¹) ≤ (i * (2⁻¹ : ℝ) ^ 38 * x) * (x⁻¹ * (2 * x⁻¹)) := by gcongr
    _ = _ := by field_simp

theorem Rel.sqrt {i x y : ℝ} (h : Rel i x y) (hi' : i ≤ 5000) : Rel i (√x) (√y) := by
  have hy := h.pos hi'
  obtain ⟨h0, h1⟩ := h
  have sx := sqrt_pos.2 h0
  have sy := sqrt_pos.2 hy
  refine ⟨sx, ?_⟩
  have e : (√y - √x) * (√y + √x) = y - x := by
    have := mul_self_sqrt h0.le
    have := mul_self_sqrt hy.le
    nlinarith
  have h2 : |√y - √x| * (√y + √x) = |y - x| := by
    rw [← e, abs_mul, abs_of_pos (add_pos sy sx)]
  have h3 : |√y - √x| * √x ≤ |y - x| := by
    rw [← h2]
    have := abs_nonneg (√y - √x)
    nlinarith
  have h4 : |√y - √x| * √x ≤ (i * (2⁻¹ : ℝ) ^ 38 * √x) * √x := by
    calc _ ≤ _ := h3
      _ ≤ _ := h1
      _ = i * (2⁻¹ : ℝ) ^ 38 * (√x * √x) := by rw [mul_self_sqrt h0.le]
      _ = _ := by ring
  exact le_of_mul_le_mul_right h4 sx

/-! ### Operations -/

/-- A finite float near `x`. -/
def Fl (k x : ℝ) (a : F64) : Prop := a.Finite ∧ Rel k x a.val

theorem Fl.exact {a : F64} {x : ℝ} (h : a.Finite) (hv : a.val = x) (hx : 0 < x) : Fl 0 x a := ⟨h, by rw [hv]; exact Rel.exact hx⟩

theorem Fl.mono {a : F64} {x i j : ℝ} (h : Fl i x a) (hij : i ≤ j) : Fl j x a :=
  ⟨h.1, h.2.1, h.2.2.trans (by have := h.2.1; gcongr)⟩

/-- neither too small nor too large -/
def Mid (x : ℝ) : Prop := (2⁻¹ : ℝ) ^ 900 ≤ x ∧ x ≤ 2 ^ 990

theorem Mid.abs {k x y : ℝ} (h : Mid x) (hr : Rel k x y) (hk : k ≤ 5000) : |y| ≤ 2 ^ 1000 := by
  rw [abs_of_pos (hr.pos hk)]
  calc y ≤ x * (1 + (2⁻¹ : ℝ) ^ 24) := (hr.bounds hk).2
    _ ≤ 2 ^ 990 * 2 ^ 10 :=
      mul_le_mul h.2 (by norm_num) (by norm_num) (pow_nonneg (by norm_num) _)
    _ = 2 ^ 1000 := by rw [← pow_add]

variable {P : Plat} (hP : Precise P)

include hP

theorem Fl.mul {i j x y : ℝ} {a b : F64} (h : Fl i x a) (h' : Fl j y b) (hi : 0 ≤ i) (hj : 0 ≤ j)
    (hi' : i ≤ 2000) (hj' : j ≤ 2000) (hm : Mid (x * y)) : Fl (i + j + 2) (x * y) (P.fMul a b) := by
  have r := h.2.mul h'.2 hi hj (by linarith) (by linarith)
  have c := hP.mul a b h.1 h'.1 (hm.abs r (by linarith))
  have := r.close (by linarith) hm.1 c
  rwa [show i + j + 1 + 1 = i + j + 2 by ring] at this

theorem Fl.div {i j x y : ℝ} {a b : F64} (h : Fl i x a) (h' : Fl j y b) (hi : 0 ≤ i) (hj : 0 ≤ j)
    (hi' : i ≤ 1000) (hj' : j ≤ 1000) (hm : Mid (x / y)) : Fl (i + 2 * j + 2) (x / y) (P.fDiv a b) := by
  have r := h.2.mul (h'.2.inv hj (by linarith)) hi (by linarith) (by linarith) (by linarith)
  rw [← div_eq_mul_inv, ← div_eq_mul_inv] at r
  have c := hP.div a b h.1 h'.1 (h'.2.pos (by linarith)).ne' (hm.abs r (by linarith))
  have := r.close (by linarith) hm.1 c
  rwa [show i + 2 * j + 1 + 1 = i + 2 * j + 2 by ring] at this

theorem Fl.sqrt {i x : ℝ} {a : F64} (h : Fl i x a) (hi' : i ≤ 4000) (hm : Mid (√x)) :
    Fl (i + 1) (√x) (P.fFun c!"sqrt" a) := by
  have r := h.2.sqrt (by linarith)
  exact r.close (by linarith) hm.1 (hP.sqrt a h.1 (h.2.pos (by linarith)).le)

omit hP in
theorem mid_of {x : ℝ} (h : (10⁻¹ : ℝ) ^ 60 ≤ x) (h' : x ≤ 10 ^ 60) : Mid x := by
  refine ⟨le_trans ?_ h, le_trans h' ?_⟩
  · calc (2⁻¹ : ℝ) ^ 900 ≤ (2⁻¹ : ℝ) ^ 240 := by
          apply pow_le_pow_of_le_one <;> norm_num
      _ ≤ _ := by norm_num
  · calc (10 : ℝ) ^ 60 ≤ 2 ^ 240 := by norm_num
      _ ≤ 2 ^ 990 := by gcongr <;> norm_num

/-! ### Constants -/

omit hP

theorem val_1 : Builtins.fOne.Finite ∧ Builtins.fOne.val = 1 := by
  constructor
  · norm_num [F64.Finite, F64.mag, Builtins.fOne]
  · norm_num [F64.val, F64.mag, Builtins.fOne]

theorem val_2 : (⟨0x4000000000000000#64⟩ : F64).Finite ∧ (⟨0x4000000000000000#64⟩ : F64).val = 2 := by
  constructor
  · norm_num [F64.Finite, F64.mag]
  · norm_num [F64.val, F64.mag]

theorem val_12 : (⟨0x4028000000000000#64⟩ : F64).Finite ∧ (⟨0x4028000000000000#64⟩ : F64).val = 12 := by
  constructor
  · norm_num [F64.Finite, F64.mag]
  · norm_num [F64.val, F64.mag]

theorem val_288 : (⟨0x4072000000000000#64⟩ : F64).Finite ∧ (⟨0x4072000000000000#64⟩ : F64).val = 288 := by
  constructor
  · norm_num [F64.Finite, F64.mag]
  · norm_num [F64.val, F64.mag]

theorem val_139 : (⟨0x4061600000000000#64⟩ : F64).Finite ∧ (⟨0x4061600000000000#64⟩ : F64).val = 139 := by
  constructor
  · norm_num [F64.Finite, F64.mag]
  · norm_num [F64.val, F64.mag]

theorem val_51840 : (⟨0x40E9500000000000#64⟩ : F64).Finite ∧ (⟨0x40E9500000000000#64⟩ : F64).val = 51840 := by
  constructor
  · norm_num [F64.Finite, F64.mag]
  · norm_num [F64.val, F64.mag]

theorem val_571 : (⟨0x4081D80000000000#64⟩ : F64).Finite ∧ (⟨0x4081D80000000000#64⟩ : F64).val = 571 := by
  constructor
  · norm_num [F64.Finite, F64.mag]
  · norm_num [F64.val, F64.mag]

theorem val_2488320 : (⟨0x4142FC0000000000#64⟩ : F64).Finite ∧ (⟨0x4142FC0000000000#64⟩ : F64).val = 2488320 := by
  constructor
  · norm_num [F64.Finite, F64.mag]
  · norm_num [F64.val, F64.mag]

/-- the constant for pi -/
noncomputable def pie : ℝ := (⟨0x400921FB54442D18#64⟩ : F64).val

theorem val_pi : (⟨0x400921FB54442D18#64⟩ : F64).Finite ∧ 3.1415 ≤ pie ∧ pie ≤ 3.1416 := by
  refine ⟨?_, ?_, ?_⟩
  · norm_num [F64.Finite, F64.mag]
  · norm_num [pie, F64.val, F64.mag]
  · norm_num [pie, F64.val, F64.mag]

/-! ### The formula -/

include hP

section

variable {f : F64} {N : ℝ} (hf : f.Finite) (hv : f.val = N) (h1 : 1 ≤ N) (h9 : N ≤ 10 ^ 9)

include hf hv h1 h9

/-- a fraction of the series -/
theorem frac1 {c d : F64} {C D : ℝ} (hc : c.Finite ∧ c.val = C) (hd : d.Finite ∧ d.val = D) (hC : 1 ≤ C) (hD : 1 ≤ D)
    (hC' : C ≤ 10 ^ 7) (hD' : D ≤ 10 ^ 7) : Fl 2 (D * N) (P.fMul d f) ∧ Fl 10 (C / (D * N)) (P.fDiv c (P.fMul d f)) ∧
      Fl 4 (D * N * N) (P.fMul (P.fMul d f) f) ∧ Fl 20 (C / (D * N * N)) (P.fDiv c (P.fMul (P.fMul d f) f)) ∧
      Fl 6 (D * N * N * N) (P.fMul (P.fMul (P.fMul d f) f) f) ∧
      Fl 20 (C / (D * N * N * N)) (P.fDiv c (P.fMul (P.fMul (P.fMul d f) f) f)) ∧
      Fl 20 (C / (D * N * N * N * N)) (P.fDiv c (P.fMul (P.fMul (P.fMul (P.fMul d f) f) f) f)) := by
  have N0 : 0 < N := by linarith
  have n1 : ∀ {x : ℝ} {k : ℕ}, 1 ≤ x → x ≤ 10 ^ k → 1 ≤ x * N ∧ x * N ≤ 10 ^ (k + 9) := fun {x k} hx hx' => by
    refine ⟨by nlinarith, ?_⟩
    rw [pow_add]
    exact mul_le_mul hx' h9 N0.le (by positivity)
  have f0 : Fl 0 N f := .exact hf hv N0
  have c0 : Fl 0 C c := .exact hc.1 hc.2 (by linarith)
  have d0 : Fl 0 D d := .exact hd.1 hd.2 (by linarith)
  have big : ∀ {x : ℝ} {k : ℕ}, k ≤ 60 → 1 ≤ x → x ≤ 10 ^ k → Mid x := fun {x k} hk hx hx' =>
    mid_of (le_trans (by norm_num) hx) (hx'.trans (pow_le_pow_right₀ (by norm_num) hk))
  have small : ∀ {x : ℝ} {k : ℕ}, k ≤ 60 → 1 ≤ x → x ≤ 10 ^ k → Mid (C / x) := fun {x k} hk hx hx' => by
    have x0 : 0 < x := by linarith
    have hx60 : x ≤ 10 ^ 60 := hx'.trans (pow_le_pow_right₀ (by norm_num) hk)
    refine mid_of ?_ ?_
    · rw [le_div_iff₀ x0]
      calc (10⁻¹ : ℝ) ^ 60 * x ≤ (10⁻¹ : ℝ) ^ 60 * 10 ^ 60 := by gcongr
        _ ≤ C := by rw [← mul_pow]; norm_num; exact hC
    · rw [div_le_iff₀ x0]
      nlinarith
  have b1 := n1 hD hD'
  have b2 := n1 b1.1 b1.2
  have b3 := n1 b2.1 b2.2
  have b4 := n1 b3.1 b3.2
  have m1 := (d0.mul hP f0 le_rfl le_rfl (by norm_num) (by norm_num) (big (by norm_num) b1.1 b1.2)).mono (j := 2) (by norm_num)
  have m2 := (m1.mul hP f0 (by norm_num) le_rfl (by norm_num) (by norm_num) (big (by norm_num) b2.1 b2.2)).mono (j := 4) (by norm_num)
  have m3 := (m2.mul hP f0 (by norm_num) le_rfl (by norm_num) (by norm_num) (big (by norm_num) b3.1 b3.2)).mono (j := 6) (by norm_num)
  have m4 := (m3.mul hP f0 (by norm_num) le_rfl (by norm_num) (by norm_num) (big (by norm_num) b4.1 b4.2)).mono (j := 8) (by norm_num)
  refine ⟨m1, ?_, m2, ?_, m3, ?_, ?_⟩
  · exact (c0.div hP m1 le_rfl (by norm_num) (by norm_num) (by norm_num) (small (by norm_num) b1.1 b1.2)).mono (by norm_num)
  · exact (c0.div hP m2 le_rfl (by norm_num) (by norm_num) (by norm_num) (small (by norm_num) b2.1 b2.2)).mono (by norm_num)
  · exact (c0.div hP m3 le_rfl (by norm_num) (by norm_num) (by norm_num) (small (by norm_num) b3.1 b3.2)).mono (by norm_num)
  · exact (c0.div hP m4 le_rfl (by norm_num) (by norm_num) (by norm_num) (small (by norm_num) b4.1 b4.2)).mono (by norm_num)

omit hf hv h1 h9 hP in
/-- near, by an absolute distance -/
theorem Fl.abs {k x : ℝ} {a : F64} (h : Fl k x a) (hk : k ≤ 20) (hx : x ≤ 1) : |a.val - x| ≤ (2⁻¹ : ℝ) ^ 33 := by
  have h2 := h.2.1
  calc _ ≤ k * (2⁻¹ : ℝ) ^ 38 * x := h.2.2
    _ ≤ 20 * (2⁻¹ : ℝ) ^ 38 * 1 := by gcongr
    _ ≤ _ := by norm_num

omit hf hv h1 h9 hP in
theorem close_abs {x : ℝ} {r : F64} (h : Close x r) (hx : |x| ≤ 4) : |r.val - x| ≤ (2⁻¹ : ℝ) ^ 33 := by
  calc _ ≤ |x| * (2⁻¹ : ℝ) ^ 40 + (2⁻¹ : ℝ) ^ 1000 := h.2
    _ ≤ 4 * (2⁻¹ : ℝ) ^ 40 + (2⁻¹ : ℝ) ^ 40 := by
      refine add_le_add (mul_le_mul_of_nonneg_right hx (by positivity)) ?_
      apply pow_le_pow_of_le_one <;> norm_num
    _ ≤ _ := by norm_num

omit hf hv h1 h9 hP in
theorem four_le : (4 : ℝ) ≤ 2 ^ 1000 := by
  calc (4 : ℝ) = 2 ^ 2 := by norm_num
    _ ≤ _ := pow_le_pow_right₀ (by norm_num) (by norm_num)

omit hf hv h1 h9 in
theorem add_abs {a b : F64} {x y α β : ℝ} (ha : a.Finite ∧ |a.val - x| ≤ α) (hb : b.Finite ∧ |b.val - y| ≤ β) (h : α + β ≤ 1)
    (h0 : 0 ≤ x + y) (h3 : x + y ≤ 3) : (P.fAdd a b).Finite ∧ |(P.fAdd a b).val - (x + y)| ≤ α + β + (2⁻¹ : ℝ) ^ 33 := by
  obtain ⟨ha, ha'⟩ := ha
  obtain ⟨hb, hb'⟩ := hb
  have d : |a.val + b.val - (x + y)| ≤ α + β := by
    rw [show a.val + b.val - (x + y) = (a.val - x) + (b.val - y) by ring]
    exact (abs_add_le _ _).trans (add_le_add ha' hb')
  have d' := abs_le.1 d
  have m : |a.val + b.val| ≤ 4 := by rw [abs_le]; constructor <;> linarith [d'.1, d'.2]
  have c := hP.add a b ha hb (m.trans four_le)
  refine ⟨c.1, ?_⟩
  have := close_abs c m
  calc _ ≤ |(P.fAdd a b).val - (a.val + b.val)| + |a.val + b.val - (x + y)| := abs_sub_le _ _ _
    _ ≤ _ := by linarith

omit hf hv h1 h9 in
theorem sub_abs {a b : F64} {x y α β : ℝ} (ha : a.Finite ∧ |a.val - x| ≤ α) (hb : b.Finite ∧ |b.val - y| ≤ β) (h : α + β ≤ 1)
    (h0 : 0 ≤ x - y) (h3 : x - y ≤ 3) : (P.fSub a b).Finite ∧ |(P.fSub a b).val - (x - y)| ≤ α + β + (2⁻¹ : ℝ) ^ 33 := by
  obtain ⟨ha, ha'⟩ := ha
  obtain ⟨hb, hb'⟩ := hb
  have d : |a.val - b.val - (x - y)| ≤ α + β := by
    rw [show a.val - b.val - (x - y) = (a.val - x) - (b.val - y) by ring]
    exact (abs_sub _ _).trans (add_le_add ha' hb')
  have d' := abs_le.1 d
  have m : |a.val - b.val| ≤ 4 := by rw [abs_le]; constructor <;> linarith [d'.1, d'.2]
  have c := hP.sub a b ha hb (m.trans four_le)
  refine ⟨c.1, ?_⟩
  have := close_abs c m
  calc _ ≤ |(P.fSub a b).val - (a.val - b.val)| + |a.val - b.val - (x - y)| := abs_sub_le _ _ _
    _ ≤ _ := by linarith

theorem series_close : let s := P.fAdd Builtins.fOne (P.fDiv Builtins.fOne (P.fMul ⟨0x4028000000000000#64⟩ f))
    let s := P.fAdd s (P.fDiv Builtins.fOne (P.fMul (P.fMul ⟨0x4072000000000000#64⟩ f) f))
    let s := P.fSub s (P.fDiv ⟨0x4061600000000000#64⟩ (P.fMul (P.fMul (P.fMul ⟨0x40E9500000000000#64⟩ f) f) f))
    let s := P.fSub s (P.fDiv ⟨0x4081D80000000000#64⟩
      (P.fMul (P.fMul (P.fMul (P.fMul ⟨0x4142FC0000000000#64⟩ f) f) f) f))
    Fl 300 (series N) s := by
  intro s1 s2 s3 s4
  have N0 : 0 < N := by linarith
  have le1 : ∀ {C D : ℝ}, 0 < D → C ≤ D → C / D ≤ 1 := fun hD h => by rw [div_le_one hD]; exact h
  have nn : 1 ≤ N * N := by nlinarith
  have n3 : 1 ≤ N * N * N := by nlinarith
  have n4 : 1 ≤ N * N * N * N := by nlinarith
  have a1 := (frac1 hP hf hv h1 h9 val_1 val_12 le_rfl (by norm_num) (by norm_num) (by norm_num)).2.1
  have a2 := (frac1 hP hf hv h1 h9 val_1 val_288 le_rfl (by norm_num) (by norm_num) (by norm_num)).2.2.2.1
  have a3 := (frac1 hP hf hv h1 h9 val_139 val_51840 (by norm_num) (by norm_num) (by norm_num) (by norm_num)).2.2.2.2.2.1
  have a4 := (frac1 hP hf hv h1 h9 val_571 val_2488320 (by norm_num) (by norm_num) (by norm_num) (by norm_num)).2.2.2.2.2.2
  have t1 : 1 / (12 * N) ≤ 1 := le1 (by positivity) (by nlinarith)
  have t2 : 1 / (288 * N * N) ≤ 1 := le1 (by positivity) (by nlinarith)
  have t3 : 139 / (51840 * N * N * N) ≤ 1 := le1 (by positivity) (by nlinarith)
  have t4 : 571 / (2488320 * N * N * N * N) ≤ 1 := le1 (by positivity) (by nlinarith)
  have d1 := a1.abs (by norm_num) t1
  have d2 := a2.abs (by norm_num) t2
  have d3 := a3.abs (by norm_num) t3
  have d4 := a4.abs (by norm_num) t4
  have p1 := a1.2.1
  have p2 := a2.2.1
  have p3 := a3.2.1
  have p4 := a4.2.1
  have hb := series_bounds h1
  have hs : series N = 1 + 1 / (12 * N) + 1 / (288 * N * N) - 139 / (51840 * N * N * N) - 571 / (2488320 * N * N * N * N) := rfl
  have u : (2⁻¹ : ℝ) ^ 33 = 32 * (2⁻¹ : ℝ) ^ 38 := by norm_num
  have u' : (2⁻¹ : ℝ) ^ 33 ≤ 1 / 100 := by norm_num
  have e1 := add_abs hP (x := 1) (α := 0) ⟨val_1.1, by rw [val_1.2]; simp⟩ ⟨a1.1, d1⟩ (by linarith) (by linarith) (by linarith)
  have e2 := add_abs hP e1 ⟨a2.1, d2⟩ (by linarith) (by linarith) (by linarith)
  have e3 := sub_abs hP e2 ⟨a3.1, d3⟩ (by linarith) (by linarith) (by linarith)
  have e4 := sub_abs hP e3 ⟨a4.1, d4⟩ (by linarith) (by linarith) (by linarith)
  refine ⟨e4.1, by linarith, e4.2.trans ?_⟩
  rw [u]
  have : 0 < (2⁻¹ : ℝ) ^ 38 := by positivity
  nlinarith

omit hf hv hP in
theorem log_le : 0 ≤ log N ∧ log N ≤ 21 := by
  refine ⟨log_nonneg h1, ?_⟩
  rw [log_le_iff_le_exp (by linarith)]
  refine h9.trans ?_
  rw [show (21 : ℝ) = ((21 : ℕ) : ℝ) * 1 by norm_num, exp_nat_mul]
  calc (10 : ℝ) ^ 9 ≤ 2.7182818283 ^ 21 := by norm_num
    _ ≤ exp 1 ^ 21 := by
      gcongr
      exact exp_one_gt_d9.le

omit hf hv hP in
theorem exp_le : 1 ≤ exp (log N * log N) ∧ exp (log N * log N) ≤ 2 ^ 882 := by
  obtain ⟨l0, l1⟩ := log_le h1 h9
  refine ⟨one_le_exp (mul_self_nonneg _), ?_⟩
  calc exp (log N * log N) ≤ exp (((441 : ℕ) : ℝ) * 1) := by
        apply exp_le_exp.2
        norm_num
        nlinarith
    _ = exp 1 ^ 441 := exp_nat_mul _ _
    _ ≤ (2 ^ 2) ^ 441 := by
      apply pow_le_pow_left₀ (exp_pos _).le
      have := exp_one_lt_d9
      norm_num at this ⊢
      linarith
    _ = 2 ^ 882 := by rw [← pow_mul]

theorem exp_close : Fl 1025 (exp (log N * log N)) (P.fFun c!"exp" (P.fMul (P.fFun c!"ln" f) (P.fFun c!"ln" f))) := by
  obtain ⟨l0, l1⟩ := log_le h1 h9
  obtain ⟨m0, m1⟩ := exp_le h1 h9
  have tiny : (2⁻¹ : ℝ) ^ 1000 ≤ (2⁻¹ : ℝ) ^ 40 := by apply pow_le_pow_of_le_one <;> norm_num
  have hl := hP.ln f hf (by rw [hv]; linarith)
  rw [hv] at hl
  generalize P.fFun c!"ln" f = l at hl ⊢
  generalize log N = L at l0 l1 m0 m1 hl ⊢
  have d1 : |l.val - L| ≤ 22 * (2⁻¹ : ℝ) ^ 40 := by
    refine hl.2.trans ?_
    rw [abs_of_nonneg l0]
    calc L * (2⁻¹ : ℝ) ^ 40 + (2⁻¹ : ℝ) ^ 1000 ≤ 21 * (2⁻¹ : ℝ) ^ 40 + (2⁻¹ : ℝ) ^ 40 := by
          refine add_le_add ?_ tiny
          gcongr
      _ = _ := by ring
  have b1 := abs_le.1 d1
  have hsmall : 22 * (2⁻¹ : ℝ) ^ 40 ≤ 1 / 1000 := by norm_num
  have lb : |l.val| ≤ 22 := by rw [abs_le]; constructor <;> linarith [b1.1, b1.2]
  have ls : |l.val * l.val| ≤ 484 := by
    rw [abs_mul]
    have := abs_nonneg l.val
    nlinarith
  have hq := hP.mul l l hl.1 hl.1 (ls.trans (by
    calc (484 : ℝ) ≤ 2 ^ 9 := by norm_num
      _ ≤ _ := pow_le_pow_right₀ (by norm_num) (by norm_num)))
  generalize P.fMul l l = q at hq ⊢
  have d2 : |q.val - l.val * l.val| ≤ 485 * (2⁻¹ : ℝ) ^ 40 := by
    refine hq.2.trans ?_
    calc |l.val * l.val| * (2⁻¹ : ℝ) ^ 40 + (2⁻¹ : ℝ) ^ 1000 ≤ 484 * (2⁻¹ : ℝ) ^ 40 + (2⁻¹ : ℝ) ^ 40 := by
          refine add_le_add ?_ tiny
          gcongr
      _ = _ := by ring
  have d3 : |l.val * l.val - L * L| ≤ 43 * (22 * (2⁻¹ : ℝ) ^ 40) := by
    rw [show l.val * l.val - L * L = (l.val + L) * (l.val - L) by ring, abs_mul]
    have : |l.val + L| ≤ 43 := by
      refine (abs_add_le _ _).trans ?_
      rw [abs_of_nonneg l0]
      linarith
    gcongr
  have d4 : |q.val - L * L| ≤ (2⁻¹ : ℝ) ^ 29 := by
    calc |q.val - L * L| ≤ |q.val - l.val * l.val| + |l.val * l.val - L * L| := abs_sub_le _ _ _
      _ ≤ 485 * (2⁻¹ : ℝ) ^ 40 + 43 * (22 * (2⁻¹ : ℝ) ^ 40) := add_le_add d2 d3
      _ ≤ _ := by norm_num
  have r : Rel 1024 (exp (L * L)) (exp q.val) := by
    refine ⟨exp_pos _, ?_⟩
    have e : exp q.val - exp (L * L) = exp (L * L) * (exp (q.val - L * L) - 1) := by
      rw [mul_sub, ← exp_add]; ring_nf
    rw [e, abs_mul, abs_of_pos (exp_pos _)]
    have := abs_exp_sub_one_le (x := q.val - L * L) (d4.trans (by norm_num))
    have h2 : 2 * |q.val - L * L| ≤ 1024 * (2⁻¹ : ℝ) ^ 38 := by
      calc 2 * |q.val - L * L| ≤ 2 * (2⁻¹ : ℝ) ^ 29 := by gcongr
        _ ≤ _ := by norm_num
    calc exp (L * L) * |exp (q.val - L * L) - 1| ≤ exp (L * L) * (1024 * (2⁻¹ : ℝ) ^ 38) := by
          gcongr
          exact this.trans h2
      _ = _ := by ring
  have hm : Mid (exp (L * L)) := by
    refine ⟨le_trans ?_ m0, m1.trans (pow_le_pow_right₀ (by norm_num) (by norm_num))⟩
    exact pow_le_one₀ (by norm_num) (by norm_num)
  have hx := hP.exp q hq.1 (by
    have := hm.abs r (by norm_num)
    rwa [abs_of_pos (exp_pos _)] at this)
  have := r.close (by norm_num) hm.1 hx
  norm_num at this
  exact this

theorem root_close : Fl 5 (√(2 * pie * N)) (P.fFun c!"sqrt" (P.fMul (P.fMul ⟨0x4000000000000000#64⟩ ⟨0x400921FB54442D18#64⟩) f)) ∧
    1 ≤ √(2 * pie * N) ∧ √(2 * pie * N) ≤ 10 ^ 6 := by
  have N0 : 0 < N := by linarith
  obtain ⟨pf, p1, p2⟩ := val_pi
  have p0 : 0 < pie := by norm_num at p1; linarith
  have f0 : Fl 0 N f := .exact hf hv N0
  have c2 : Fl 0 2 (⟨0x4000000000000000#64⟩ : F64) := .exact val_2.1 val_2.2 (by norm_num)
  have cp : Fl 0 pie (⟨0x400921FB54442D18#64⟩ : F64) := .exact pf rfl p0
  have g1 : 1 ≤ 2 * pie := by norm_num at p1; linarith
  have g2 : 2 * pie ≤ 10 := by norm_num at p2; linarith
  have h2 : 1 ≤ 2 * pie * N := by nlinarith
  have h3 : 2 * pie * N ≤ 10 ^ 10 := by
    calc 2 * pie * N ≤ 10 * 10 ^ 9 := by gcongr
      _ = _ := by norm_num
  have m1 := (c2.mul hP cp le_rfl le_rfl (by norm_num) (by norm_num) (mid_of (le_trans (by norm_num) g1) (g2.trans (by norm_num)))).mono (j := 2) (by norm_num)
  have m2 := (m1.mul hP f0 (by norm_num) le_rfl (by norm_num) (by norm_num) (mid_of (le_trans (by norm_num) h2) (h3.trans (by norm_num)))).mono (j := 4) (by norm_num)
  have s1 : 1 ≤ √(2 * pie * N) := by rw [one_le_sqrt]; exact h2
  have s2 : √(2 * pie * N) ≤ 10 ^ 6 := by
    rw [sqrt_le_left (by norm_num)]
    exact h3.trans (by norm_num)
  exact ⟨(m2.sqrt hP (by norm_num) (mid_of (le_trans (by norm_num) s1) (s2.trans (by norm_num)))).mono (by norm_num), s1, s2⟩

/-- The float formula computes the formula. -/
theorem floatFact_close : (Builtins.floatFact P f).Finite ∧
    |(Builtins.floatFact P f).val - formula pie N| ≤ formula pie N * (2⁻¹ : ℝ) ^ 24 + 1 / 2 := by
  obtain ⟨hr, r1, r2⟩ := root_close hP hf hv h1 h9
  have he := exp_close hP hf hv h1 h9
  obtain ⟨e1, e2⟩ := exp_le h1 h9
  have hs := series_close hP hf hv h1 h9
  obtain ⟨s1, s2⟩ := series_bounds h1
  have one : (2⁻¹ : ℝ) ^ 900 ≤ 1 := pow_le_one₀ (by norm_num) (by norm_num)
  have x1 : 1 ≤ exp (log N * log N) * √(2 * pie * N) := by nlinarith
  have x2 : exp (log N * log N) * √(2 * pie * N) ≤ 2 ^ 902 := by
    calc exp (log N * log N) * √(2 * pie * N) ≤ 2 ^ 882 * 2 ^ 20 :=
          mul_le_mul e2 (r2.trans (by norm_num)) (by positivity) (pow_nonneg (by norm_num) _)
      _ = _ := by rw [← pow_add]
  have y1 : 1 ≤ formula pie N := by unfold formula; nlinarith
  have y2 : formula pie N ≤ 2 ^ 904 := by
    calc formula pie N ≤ 2 ^ 902 * 2 ^ 2 := by
          unfold formula
          exact mul_le_mul x2 (s2.trans (by norm_num)) (by linarith) (pow_nonneg (by norm_num) _)
      _ = _ := by rw [← pow_add]
  have g1 := (he.mul hP hr (by norm_num) (by norm_num) (by norm_num) (by norm_num)
    ⟨one.trans x1, x2.trans (pow_le_pow_right₀ (by norm_num) (by norm_num))⟩).mono (j := 1032) (by norm_num)
  have g2 := (g1.mul hP hs (by norm_num) (by norm_num) (by norm_num) (by norm_num)
    ⟨one.trans y1, y2.trans (pow_le_pow_right₀ (by norm_num) (by norm_num))⟩).mono (j := 2000) (by norm_num)
  obtain ⟨z1, z2⟩ := hP.round _ g2.1
  refine ⟨z1, ?_⟩
  have d : ∀ y x : ℝ, Rel 2000 x y → |y - x| ≤ x * (2⁻¹ : ℝ) ^ 24 := by
    intro y x h
    have b := h.bounds (by norm_num)
    rw [abs_le]
    constructor <;> linarith [b.1, b.2, h.1]
  exact (abs_sub_le _ _ _).trans ((add_le_add z2 (d _ _ g2.2)).trans (add_comm _ _).le)

end

end Dune.Fact
