import Verif.Props.Ieee
import Mathlib.Analysis.Real.Pi.Bounds

/-! C116: the constants of `math`. -/

namespace Dune

open Spec

namespace F64

/-- A float is nearest to what lies between the midpoints to its neighbours. -/
theorem nearest_between {m : Nat} {x : ℝ} (hm : m + 1 < 9218868437227405312)
    (h1 : magVal m + magVal (m + 1) ≤ 2 * x) (h2 : 2 * x ≤ magVal (m + 1) + magVal (m + 2)) :
    Nearest x ⟨BitVec.ofNat 64 (m + 1)⟩ := by
  have hb : (BitVec.ofNat 64 (m + 1)).toNat = m + 1 := by
    rw [BitVec.toNat_ofNat]; exact Nat.mod_eq_of_lt (by omega)
  have hg : (⟨BitVec.ofNat 64 (m + 1)⟩ : F64).mag = m + 1 := by
    rw [mag, hb]; exact Nat.mod_eq_of_lt (by omega)
  have hv : (⟨BitVec.ofNat 64 (m + 1)⟩ : F64).val = magVal (m + 1) := by
    rw [val_eq, hg, if_pos (by rw [hb]; omega), one_mul]
  refine ⟨by rw [Finite, hg]; exact hm, fun s _ => ?_⟩
  rw [hv]
  have l1 := magVal_step m
  have l2 := magVal_step (m + 1)
  have key (k : ℕ) (h : 0 ≤ s.key) : magVal k ≤ s.val ↔ (k : ℤ) ≤ s.key := by
    rw [val_key, if_pos h, magVal_mono.le_iff_le]; omega
  by_cases h0 : 0 ≤ s.key
  · by_cases hk : (m + 1 : ℕ) ≤ s.key
    · by_cases hk2 : (m + 2 : ℕ) ≤ s.key
      · have := (key _ h0).2 hk2
        rw [abs_le, abs_of_nonneg (a := s.val - x) (by linarith)]
        constructor <;> linarith
      · have e : s.val = magVal (m + 1) := by
          rw [val_key, if_pos h0]; congr 1; omega
        rw [e]
    · have : s.val ≤ magVal m := by
        rw [val_key, if_pos h0, magVal_mono.le_iff_le]; omega
      rw [abs_le, abs_of_nonpos (a := s.val - x) (by linarith)]
      constructor <;> linarith
  · have : s.val ≤ magVal m := by
      rw [val_key, if_neg h0]
      have := magVal_nonneg m
      have := magVal_nonneg (-s.key).toNat
      linarith
    rw [abs_le, abs_of_nonpos (a := s.val - x) (by linarith)]
    constructor <;> linarith

theorem nearest_pi : Nearest Real.pi ⟨4614256656552045848#64⟩ := by
  have h1 := Real.pi_gt_d20
  have h2 := Real.pi_lt_d20
  refine nearest_between (m := 4614256656552045847) (by norm_num) ?_ ?_
  · have e1 : magVal 4614256656552045847 = 7074237752028439 / 2 ^ 51 := by norm_num [magVal]
    have e2 : magVal (4614256656552045847 + 1) = 7074237752028440 / 2 ^ 51 := by norm_num [magVal]
    rw [e1, e2]; norm_num at *; linarith
  · have e2 : magVal (4614256656552045847 + 1) = 7074237752028440 / 2 ^ 51 := by norm_num [magVal]
    have e3 : magVal (4614256656552045847 + 2) = 7074237752028441 / 2 ^ 51 := by norm_num [magVal]
    rw [e3, e2]; norm_num at *; linarith

theorem nearest_tau : Nearest (2 * Real.pi) ⟨4618760256179416344#64⟩ := by
  have h1 := Real.pi_gt_d20
  have h2 := Real.pi_lt_d20
  refine nearest_between (m := 4618760256179416343) (by norm_num) ?_ ?_
  · have e1 : magVal 4618760256179416343 = 7074237752028439 / 2 ^ 50 := by norm_num [magVal]
    have e2 : magVal (4618760256179416343 + 1) = 7074237752028440 / 2 ^ 50 := by norm_num [magVal]
    rw [e1, e2]; norm_num at *; linarith
  · have e2 : magVal (4618760256179416343 + 1) = 7074237752028440 / 2 ^ 50 := by norm_num [magVal]
    have e3 : magVal (4618760256179416343 + 2) = 7074237752028441 / 2 ^ 50 := by norm_num [magVal]
    rw [e3, e2]; norm_num at *; linarith

theorem nearest_e : Nearest (Real.exp 1) ⟨4613303445314885481#64⟩ := by
  have h := abs_le.1 Real.exp_one_near_20
  refine nearest_between (m := 4613303445314885480) (by norm_num) ?_ ?_
  · have e1 : magVal 4613303445314885480 = 6121026514868072 / 2 ^ 51 := by norm_num [magVal]
    have e2 : magVal (4613303445314885480 + 1) = 6121026514868073 / 2 ^ 51 := by norm_num [magVal]
    rw [e1, e2]; norm_num at *; linarith
  · have e2 : magVal (4613303445314885480 + 1) = 6121026514868073 / 2 ^ 51 := by norm_num [magVal]
    have e3 : magVal (4613303445314885480 + 2) = 6121026514868074 / 2 ^ 51 := by norm_num [magVal]
    rw [e3, e2]; norm_num at *; linarith

theorem pi_val : (⟨4614256656552045848#64⟩ : F64).val = 7074237752028440 / 2 ^ 51 := by
  norm_num [val, mag]

theorem tau_val : (⟨4618760256179416344#64⟩ : F64).val = 7074237752028440 / 2 ^ 50 := by
  norm_num [val, mag]

/-- Floats of equal value are equal for `==`. -/
theorem eq_of_val {a b : F64} (ha : a.Finite) (hb : b.Finite) (h : a.val = b.val) : F64.eq a b = true := by
  rw [val_key, val_key] at h
  have hk : a.key = b.key := keyVal_mono.injective h
  have h1 : ¬ 9218868437227405312 < a.mag := by have := ha; unfold Finite at this; omega
  have h2 : ¬ 9218868437227405312 < b.mag := by have := hb; unfold Finite at this; omega
  simp [F64.eq, isNaN, h1, h2, hk]

end F64

namespace Props

/-! ### Specification -/

/-- The constants and the numbers they are named after. -/
noncomputable def constants : List (Str × ℝ) := [(c!"PI", Real.pi), (c!"TAU", 2 * Real.pi), (c!"E", Real.exp 1)]

/-- The value stands for the real number `x`; an integer is at most 2^53. -/
inductive Stands : Expr → ℝ → Prop
  | float {a : F64} : a.Finite → Stands (.float a) a.val
  | int {i : I64} : |i.val| ≤ 2 ^ 53 → Stands (.int i) i.val

/-- At most a 2^50th of `x` away from `x`, if `x` is not tiny. -/
def Accurate (x : ℝ) (g : F64) : Prop := g.Finite ∧ |g.val - x| ≤ |x| * (2⁻¹ : ℝ) ^ 50 + (2⁻¹ : ℝ) ^ 990

/-! ### Proofs -/

section

variable {W : Type} {P : Plat} {H : Host W} {L : Lib} {n d1 d2 : Nat} {env : Env} {w : W}

theorem yields_constant (hs : Std env) {c : Str} {v : Expr} (h : (c, v) ∈ Init.mathM) :
    Yields H P L 2 env (member c!"math" c) v := by
  intro n k w _ hk
  obtain ⟨k, rfl⟩ : ∃ j, k = j + 2 := ⟨k - 2, by omega⟩
  exact evalD_mem hs (tbl := Init.mathM) (by mem_tac) h

/-- C116, `math@PI`, `math@TAU` and `math@E` are the floats nearest to π, 2π and e: no other float is nearer. -/
theorem C116_constants (hs : Std env) {c : Str} {x : ℝ} (hc : (c, x) ∈ constants) (hn : 5 ≤ n) :
    ∃ g, runText P (evalN P H (stdB P L) n) (c!"math@" ++ c) env w = (.ok (.float g), env, w) ∧ Nearest x g := by
  simp only [constants, List.mem_cons, List.not_mem_nil, or_false, Prod.mk.injEq] at hc
  rcases hc with ⟨rfl, rfl⟩ | ⟨rfl, rfl⟩ | ⟨rfl, rfl⟩
  · have hp : parseText P (c!"math@" ++ c!"PI") = .ok (.do_ [member c!"math" c!"PI"]) := by kernel_rfl
    refine ⟨_, ?_, F64.nearest_pi⟩
    rw [run_of_parse hp]
    exact (yields_constant hs (by mem_tac)).last.block.evalN (by omega) (by omega) w
  · have hp : parseText P (c!"math@" ++ c!"TAU") = .ok (.do_ [member c!"math" c!"TAU"]) := by kernel_rfl
    refine ⟨_, ?_, F64.nearest_tau⟩
    rw [run_of_parse hp]
    exact (yields_constant hs (by mem_tac)).last.block.evalN (by omega) (by omega) w
  · have hp : parseText P (c!"math@" ++ c!"E") = .ok (.do_ [member c!"math" c!"E"]) := by kernel_rfl
    refine ⟨_, ?_, F64.nearest_e⟩
    rw [run_of_parse hp]
    exact (yields_constant hs (by mem_tac)).last.block.evalN (by omega) (by omega) w

theorem yields_mulv {x y a b : Expr} {r : F64} (hs : Std env) (hx : Yields H P L d1 env x a) (hy : Yields H P L d2 env y b)
    (ha : ∀ env, Yields H P L 1 env a a) (hr : Expr.mul P a b = .ok (.float r)) :
    Yields H P L (max d1 d2 + 5) env (infix_ c!"*" x y) (.float r) := by
  refine Run.group (yields_curried (hs.op (c!"*", _) (by mem_tac)) hx hy ha ?_)
  intro ev0 env h1 h2 h3 w
  simp only [stdB, Builtins.mulB, Builtins.evArg, Builtins.arg,
        List.getElem?_cons_zero, BProg.run_bind, BProg.run_ret, pure_bind, BProg.run_ev, List.tail_cons]
  rw [M.bind_ok (h1 w), opLoop_two (h3 w) (h2 w), hr]
  simp only [opResult]

theorem yields_divv {x y a b : Expr} {r : F64} (hs : Std env) (hx : Yields H P L d1 env x a) (hy : Yields H P L d2 env y b)
    (ha : ∀ env, Yields H P L 1 env a a) (hr : Expr.div P a b = .float r) :
    Yields H P L (max d1 d2 + 5) env (infix_ c!"//" x y) (.float r) := by
  refine Run.group (yields_curried (hs.op (c!"//", _) (by mem_tac)) hx hy ha ?_)
  intro ev0 env h1 h2 h3 w
  simp only [stdB, Builtins.divB, Builtins.evArg, Builtins.arg,
        List.getElem?_cons_zero, BProg.run_bind, BProg.run_ret, pure_bind, BProg.run_ev, List.tail_cons]
  rw [M.bind_ok (h1 w), opLoop_two (h3 w) (h2 w), hr]
  simp only [opResult]

theorem yields_eqf {x y : Expr} {f g : F64} (hs : Std env) (hx : Yields H P L d1 env x (.float f))
    (hy : Yields H P L d2 env y (.float g)) (hd : max d1 d2 ≤ 800) :
    Yields H P L (max d1 d2 + 3) env (infix_ c!"==" x y) (.bool (F64.eq f g)) := by
  refine Run.group (yields_builtin2 (hs.op (c!"==", _) (by mem_tac)) hx hy (yields_float f) ?_ hd)
  intro ev0 h1 h2 h3 w
  simp only [stdB, Builtins.cmpB, Builtins.evArg, Builtins.arg, List.getElem?_cons_succ,
        List.getElem?_cons_zero, BProg.run_bind, BProg.run_ret, pure_bind, BProg.run_ev]
  rw [M.bind_ok (h1 w), M.bind_ok (h2 w)]
  simp [Expr.beq]

theorem big {x : ℝ} (h : x ≤ 2 ^ 900 * 1024) : x ≤ 2 ^ 1000 :=
  h.trans (by rw [show (1024 : ℝ) = 2 ^ 10 by norm_num, ← pow_add]; exact pow_le_pow_right₀ (by norm_num) (by norm_num))

theorem two_le : (1024 : ℝ) ≤ 2 ^ 900 * 1024 := by
  have h2 : (1 : ℝ) ≤ 2 ^ 900 := one_le_pow₀ (by norm_num)
  generalize (2 : ℝ) ^ 900 = z at *
  linarith

theorem size_le {q y u t : ℝ} (u0 : 0 < u) (u1 : u ≤ 1 / 1000) (t1 : t ≤ 1) (h : |q - y| ≤ |y| * u + t)
    (hy : |y| ≤ 2 ^ 900 * 4) : |q| * 180 ≤ 2 ^ 900 * 1024 := by
  have h1 : |q| ≤ |y| + |q - y| := by
    have := abs_add_le y (q - y)
    rwa [add_sub_cancel] at this
  have h2 : (1 : ℝ) ≤ 2 ^ 900 := one_le_pow₀ (by norm_num)
  have h3 : |y| * u ≤ |y| * (1 / 1000) := mul_le_mul_of_nonneg_left u1 (abs_nonneg _)
  generalize (2 : ℝ) ^ 900 = z at *
  linarith

/-- C116, `math@TAU` is exactly twice `math@PI`. -/
theorem C116_double (hs : Std env) (hP : Ieee P) (hn : 20 ≤ n) :
    runText P (evalN P H (stdB P L) n) c!"2 * math@PI == math@TAU" env w = (.ok (.bool true), env, w) := by
  have hp : parseText P c!"2 * math@PI == math@TAU" =
      .ok (.do_ [infix_ c!"==" (infix_ c!"*" (.int (.lit 2)) (member c!"math" c!"PI")) (member c!"math" c!"TAU")]) := by
    kernel_rfl
  rw [run_of_parse hp]
  have hm := yields_mulv (H := H) (L := L) (P := P) hs (yields_int (.lit 2)) (yields_constant hs (c := c!"PI") (by mem_tac))
    (fun _ => yields_int _) rfl
  have h := (yields_eqf hs hm (yields_constant hs (c := c!"TAU") (by mem_tac)) (by decide)).last.block.evalN (n := n)
    (by omega) (by decide) w
  rw [h, F64.eq_of_val]
  · have h2 : (P.fOfInt (.lit 2)).val = 2 := by
      have := (hP.ofInt (.lit 2)).whole (by decide)
      exact_mod_cast this
    have hx := hP.mul _ ⟨4614256656552045848#64⟩ (hP.ofInt (.lit 2)).1 F64.nearest_pi.1
      (by rw [h2, F64.pi_val]; exact big (le_trans (by norm_num) two_le))
    exact hx.1
  · exact F64.nearest_tau.1
  · have h2 : (P.fOfInt (.lit 2)).val = 2 := by
      have := (hP.ofInt (.lit 2)).whole (by decide)
      exact_mod_cast this
    have hx := hP.mul _ ⟨4614256656552045848#64⟩ (hP.ofInt (.lit 2)).1 F64.nearest_pi.1
      (by rw [h2, F64.pi_val]; exact big (le_trans (by norm_num) two_le))
    rw [F64.tau_val]
    refine hx.exact F64.nearest_tau.1 ?_ |>.trans ?_
    · rw [F64.tau_val, h2, F64.pi_val]; norm_num
    · rw [h2, F64.pi_val]; norm_num

theorem pi_near : |(⟨4614256656552045848#64⟩ : F64).val - Real.pi| ≤ (2⁻¹ : ℝ) ^ 52 := by
  have h1 := Real.pi_gt_d20
  have h2 := Real.pi_lt_d20
  rw [F64.pi_val, abs_le]
  constructor <;> norm_num at * <;> linarith

/-- One more operation. -/
theorem acc_step {g y x u t e s : ℝ} (hu : 0 ≤ u) (h : |g - y| ≤ |y| * u + t) (h' : |y - x| ≤ |x| * e + s) :
    |g - x| ≤ |x| * (e + u * (1 + e)) + (s * (1 + u) + t) := by
  have h1 : |g - x| ≤ |g - y| + |y - x| := abs_sub_le _ _ _
  have h2 : |y| ≤ |x| + |y - x| := by
    have := abs_add_le x (y - x)
    rwa [add_sub_cancel] at this
  nlinarith

theorem acc_total {x g u t s : ℝ} (hu : u = (2⁻¹ : ℝ) ^ 52) (ht : t = (2⁻¹ : ℝ) ^ 1000) (hs : s ≤ 180 * t)
    (h : |g - x| ≤ |x| * ((u + u * (1 + u)) + u * (1 + (u + u * (1 + u)))) + (s * (1 + u) + t)) :
    |g - x| ≤ |x| * (2⁻¹ : ℝ) ^ 50 + (2⁻¹ : ℝ) ^ 990 := by
  have e1 : (2⁻¹ : ℝ) ^ 50 = 4 * u := by rw [hu]; norm_num
  have e2 : (2⁻¹ : ℝ) ^ 990 = 1024 * t := by
    rw [ht, show (1000 : ℕ) = 990 + 10 from rfl, pow_add]
    generalize (2⁻¹ : ℝ) ^ 990 = z
    norm_num
    ring
  have u0 : 0 < u := by rw [hu]; positivity
  have u1 : u ≤ 1 / 1000 := by rw [hu]; norm_num
  have t0 : 0 < t := by rw [ht]; positivity
  rw [e1, e2]
  have a0 := abs_nonneg x
  have v1 : u * u ≤ 1 / 1000 * u := by nlinarith
  have v2 : u * u * u ≤ 1 / 1000 * u := by nlinarith
  have c1 : (u + u * (1 + u)) + u * (1 + (u + u * (1 + u))) ≤ 4 * u := by nlinarith
  have c2 : s * (1 + u) + t ≤ 1024 * t := by nlinarith
  have := mul_le_mul_of_nonneg_left c1 a0
  linarith

theorem Stands.num {v : Expr} {x : ℝ} (hP : Ieee P) (h : Stands v x) :
    ∃ a : F64, a.Finite ∧ a.val = x ∧ (∀ b, Expr.mul P v (.float b) = .ok (.float (P.fMul a b))) ∧
      (∀ b, Expr.div P v (.float b) = .float (P.fDiv a b)) ∧ ∀ env, Yields H P L 1 env v v := by
  cases h with
  | float hf => exact ⟨_, hf, rfl, fun _ => rfl, fun _ => rfl, fun _ => yields_float _⟩
  | int hi => exact ⟨_, (hP.ofInt _).1, (hP.ofInt _).whole hi, fun _ => rfl, fun _ => rfl, fun _ => yields_int _⟩

/-- The float 180 is exactly 180. -/
theorem val_180 (hP : Ieee P) : (P.fOfInt (.lit 180)).Finite ∧ (P.fOfInt (.lit 180)).val = 180 := by
  have := (hP.ofInt (.lit 180)).whole (by decide)
  exact ⟨(hP.ofInt _).1, by exact_mod_cast this⟩

/-- C116, degrees to radians: `x * math@PI // 180` is accurate for every number x. -/
theorem C116_radians (hs : Std env) (hP : Ieee P) {v : Expr} {x : ℝ} (hx : env.get c!"x" = some v) (hv : Stands v x)
    (hb : |x| ≤ 2 ^ 900) (hn : 20 ≤ n) :
    ∃ g, runText P (evalN P H (stdB P L) n) c!"x * math@PI // 180" env w = (.ok (.float g), env, w) ∧
      Accurate (x * Real.pi / 180) g := by
  have hp : parseText P c!"x * math@PI // 180" =
      .ok (.do_ [infix_ c!"//" (infix_ c!"*" (.symbol c!"x") (member c!"math" c!"PI")) (.int (.lit 180))]) := by
    kernel_rfl
  obtain ⟨a, hf, rfl, hm, -, hy⟩ := hv.num (H := H) (L := L) hP
  obtain ⟨cf, cv⟩ := val_180 hP
  have y1 := yields_mulv (H := H) (L := L) hs (yields_symbol hx) (yields_constant hs (c := c!"PI") (by mem_tac)) hy (hm _)
  have y2 := yields_divv (H := H) (L := L) hs y1 (yields_int (.lit 180)) (fun _ => yields_float _) rfl
  refine ⟨P.fDiv (P.fMul a ⟨4614256656552045848#64⟩) (P.fOfInt (.lit 180)), ?_, ?_⟩
  · rw [run_of_parse hp]
    exact y2.last.block.evalN (by omega) (by decide) w
  have pn := pi_near
  have pf := F64.nearest_pi.1
  have p4 : (⟨4614256656552045848#64⟩ : F64).val ≤ 4 := by rw [F64.pi_val]; norm_num
  have p3 : 3 ≤ (⟨4614256656552045848#64⟩ : F64).val := by rw [F64.pi_val]; norm_num
  generalize (⟨4614256656552045848#64⟩ : F64) = p at *
  have q3 := Real.pi_gt_three
  have q4 := Real.pi_le_four
  have a0 := abs_nonneg a.val
  have b1 : |a.val * p.val| ≤ 2 ^ 900 * 4 := by
    rw [abs_mul, abs_of_nonneg (a := p.val) (by linarith)]
    exact mul_le_mul hb p4 (by linarith) (by positivity)
  have m1 := hP.mul a p hf pf (big (b1.trans (by gcongr; norm_num)))
  have n1 := m1.near (big (b1.trans (by gcongr; norm_num)))
  generalize P.fMul a p = q at *
  obtain ⟨u, hu⟩ : ∃ u, u = (2⁻¹ : ℝ) ^ 52 := ⟨_, rfl⟩
  obtain ⟨t, ht⟩ : ∃ t, t = (2⁻¹ : ℝ) ^ 1000 := ⟨_, rfl⟩
  have u0 : 0 < u := by rw [hu]; positivity
  have u1 : u ≤ 1 / 1000 := by rw [hu]; norm_num
  have t0 : 0 < t := by rw [ht]; positivity
  have t1 : t ≤ 1 := by rw [ht]; exact pow_le_one₀ (by norm_num) (by norm_num)
  rw [← hu, ← ht] at n1
  rw [← hu] at pn
  have s1 : |q.val - a.val * Real.pi| ≤ |a.val * Real.pi| * (u + u * (1 + u)) + (0 * (1 + u) + t) := by
    refine acc_step u0.le n1 ?_
    rw [← mul_sub, abs_mul, abs_mul, abs_of_nonneg Real.pi_pos.le, add_zero, mul_assoc]
    refine mul_le_mul_of_nonneg_left (pn.trans ?_) a0
    nlinarith
  have qb : |q.val| ≤ 2 ^ 900 * 1024 :=
    le_trans (by linarith [abs_nonneg q.val]) (size_le u0 u1 t1 n1 b1)
  have db : |q.val / 180| ≤ 2 ^ 1000 := by
    rw [abs_div, abs_of_pos (show (0 : ℝ) < 180 by norm_num)]
    exact big ((div_le_self (abs_nonneg _) (by norm_num)).trans qb)
  have m2 := hP.div q _ m1.1 cf (by rw [cv]; norm_num) (by rw [cv]; exact db)
  rw [cv] at m2
  have n2 := m2.near db
  rw [← hu, ← ht] at n2
  refine ⟨m2.1, acc_total (s := t / 180) hu ht (by linarith) (acc_step u0.le n2 ?_)⟩
  rw [← sub_div, abs_div, abs_div, abs_of_pos (show (0 : ℝ) < 180 by norm_num)]
  calc |q.val - a.val * Real.pi| / 180 ≤ (|a.val * Real.pi| * (u + u * (1 + u)) + (0 * (1 + u) + t)) / 180 := by gcongr
    _ = _ := by ring

/-- C116, radians to degrees: `x // math@PI * 180` likewise. -/
theorem C116_degrees (hs : Std env) (hP : Ieee P) {v : Expr} {x : ℝ} (hx : env.get c!"x" = some v) (hv : Stands v x)
    (hb : |x| ≤ 2 ^ 900) (hn : 20 ≤ n) :
    ∃ g, runText P (evalN P H (stdB P L) n) c!"x // math@PI * 180" env w = (.ok (.float g), env, w) ∧
      Accurate (x / Real.pi * 180) g := by
  have hp : parseText P c!"x // math@PI * 180" =
      .ok (.do_ [infix_ c!"*" (infix_ c!"//" (.symbol c!"x") (member c!"math" c!"PI")) (.int (.lit 180))]) := by
    kernel_rfl
  obtain ⟨a, hf, rfl, -, hm, hy⟩ := hv.num (H := H) (L := L) hP
  obtain ⟨cf, cv⟩ := val_180 hP
  have y1 := yields_divv (H := H) (L := L) hs (yields_symbol hx) (yields_constant hs (c := c!"PI") (by mem_tac)) hy (hm _)
  have y2 := yields_mulv (H := H) (L := L) hs y1 (yields_int (.lit 180)) (fun _ => yields_float _) rfl
  refine ⟨P.fMul (P.fDiv a ⟨4614256656552045848#64⟩) (P.fOfInt (.lit 180)), ?_, ?_⟩
  · rw [run_of_parse hp]
    exact y2.last.block.evalN (by omega) (by decide) w
  have pn := pi_near
  have pf := F64.nearest_pi.1
  have p4 : (⟨4614256656552045848#64⟩ : F64).val ≤ 4 := by rw [F64.pi_val]; norm_num
  have p3 : 3 ≤ (⟨4614256656552045848#64⟩ : F64).val := by rw [F64.pi_val]; norm_num
  generalize (⟨4614256656552045848#64⟩ : F64) = p at *
  have q3 := Real.pi_gt_three
  have q4 := Real.pi_le_four
  have a0 := abs_nonneg a.val
  have p0 : 0 < p.val := by linarith
  have b1 : |a.val / p.val| ≤ 2 ^ 900 := by
    rw [abs_div, abs_of_pos p0]
    exact (div_le_self a0 (by linarith)).trans hb
  have b2 : |a.val / p.val| ≤ 2 ^ 1000 := b1.trans (pow_le_pow_right₀ (by norm_num) (by norm_num))
  have m1 := hP.div a p hf pf p0.ne' b2
  have n1 := m1.near b2
  generalize P.fDiv a p = q at *
  obtain ⟨u, hu⟩ : ∃ u, u = (2⁻¹ : ℝ) ^ 52 := ⟨_, rfl⟩
  obtain ⟨t, ht⟩ : ∃ t, t = (2⁻¹ : ℝ) ^ 1000 := ⟨_, rfl⟩
  have u0 : 0 < u := by rw [hu]; positivity
  have u1 : u ≤ 1 / 1000 := by rw [hu]; norm_num
  have t0 : 0 < t := by rw [ht]; positivity
  have t1 : t ≤ 1 := by rw [ht]; exact pow_le_one₀ (by norm_num) (by norm_num)
  rw [← hu, ← ht] at n1
  rw [← hu] at pn
  have s1 : |q.val - a.val / Real.pi| ≤ |a.val / Real.pi| * (u + u * (1 + u)) + (0 * (1 + u) + t) := by
    refine acc_step u0.le n1 ?_
    have e : a.val / p.val - a.val / Real.pi = a.val / Real.pi * ((Real.pi - p.val) / p.val) := by
      have := Real.pi_pos.ne'
      have := p0.ne'
      field_simp
    rw [e, abs_mul, add_zero]
    refine mul_le_mul_of_nonneg_left ?_ (abs_nonneg _)
    rw [abs_div, abs_of_pos p0, div_le_iff₀ p0, abs_sub_comm]
    nlinarith
  have qb : |q.val * 180| ≤ 2 ^ 900 * 1024 := by
    rw [abs_mul, abs_of_pos (show (0 : ℝ) < 180 by norm_num)]
    exact size_le u0 u1 t1 n1 (b1.trans (le_mul_of_one_le_right (by positivity) (by norm_num)))
  have db : |q.val * 180| ≤ 2 ^ 1000 := big qb
  have m2 := hP.mul q _ m1.1 cf (by rw [cv]; exact db)
  rw [cv] at m2
  have n2 := m2.near db
  rw [← hu, ← ht] at n2
  refine ⟨m2.1, acc_total (s := 180 * t) hu ht le_rfl (acc_step u0.le n2 ?_)⟩
  rw [← sub_mul, abs_mul, abs_mul, abs_of_pos (show (0 : ℝ) < 180 by norm_num)]
  calc |q.val - a.val / Real.pi| * 180 ≤ (|a.val / Real.pi| * (u + u * (1 + u)) + (0 * (1 + u) + t)) * 180 := by gcongr
    _ = _ := by ring

end

/-! ### Instances -/

/-- An environment where x is 90. -/
def ninety : Env := Demo.env.define c!"x" (.int (.lit 90))

theorem std_x (v : Expr) : Std (Demo.env.define c!"x" v) := by
  refine ⟨fun p hp => ?_, fun p hp => ?_, fun m hm => ?_⟩
  · rw [Env.get_define, if_neg]
    · exact demo_std.op p hp
    · intro e; revert p; decide
  · rw [Env.get_define, if_neg]
    · exact demo_std.top p hp
    · intro e; revert p; decide
  · rw [Env.get_define, if_neg]
    · exact demo_std.mod m hm
    · intro e; revert m; decide

/-- 90 degrees are accurately π/2. -/
example : ∃ g, runText ieeePlat (evalN ieeePlat Demo.host (stdB ieeePlat Demo.lib) 20) c!"x * math@PI // 180" ninety [] =
    (.ok (.float g), ninety, []) ∧ Accurate (Real.pi / 2) g := by
  have h := C116_radians (P := ieeePlat) (H := Demo.host) (L := Demo.lib) (n := 20) (w := [])
    (std_x (.int (.lit 90))) ieee_plat (v := .int (.lit 90)) (x := (I64.lit 90).val) (by rw [Env.get_define, if_pos rfl]) (.int (by decide))
    (by
      have : (I64.lit 90).val = 90 := rfl
      rw [this]
      exact le_trans (b := (2 : ℝ) ^ 7) (by norm_num) (pow_le_pow_right₀ (by norm_num) (by norm_num)))
    le_rfl
  have e : (((I64.lit 90).val : ℤ) : ℝ) * Real.pi / 180 = Real.pi / 2 := by
    have : (I64.lit 90).val = 90 := rfl
    rw [this]
    push_cast
    ring
  rwa [e] at h

/-- 2 radians in degrees. -/
example : ∃ g, runText ieeePlat (evalN ieeePlat Demo.host (stdB ieeePlat Demo.lib) 20) c!"x // math@PI * 180"
      (Demo.env.define c!"x" (.float ⟨0x4000000000000000#64⟩)) [] =
    (.ok (.float g), Demo.env.define c!"x" (.float ⟨0x4000000000000000#64⟩), []) ∧ Accurate (2 / Real.pi * 180) g := by
  have h := C116_degrees (P := ieeePlat) (H := Demo.host) (L := Demo.lib) (n := 20) (w := []) (std_x _) ieee_plat
    (v := .float ⟨0x4000000000000000#64⟩) (x := (⟨0x4000000000000000#64⟩ : F64).val)
    (by rw [Env.get_define, if_pos rfl]) (.float Fact.val_2.1)
    (by rw [Fact.val_2.2]; exact le_trans (b := (2 : ℝ) ^ 7) (by norm_num) (pow_le_pow_right₀ (by norm_num) (by norm_num)))
    le_rfl
  rwa [Fact.val_2.2] at h

/-- `math@PI` of the demo platform. -/
example : ∃ g, runText Demo.plat (evalN Demo.plat Demo.host (stdB Demo.plat Demo.lib) 5) c!"math@PI" Demo.env [] =
    (.ok (.float g), Demo.env, []) ∧ Nearest Real.pi g :=
  C116_constants demo_std (c := c!"PI") (by simp [constants]) le_rfl

example : runText ieeePlat (evalN ieeePlat Demo.host (stdB ieeePlat Demo.lib) 20) c!"2 * math@PI == math@TAU" Demo.env [] =
    (.ok (.bool true), Demo.env, []) :=
  C116_double demo_std ieee_plat le_rfl

end Props

end Dune
