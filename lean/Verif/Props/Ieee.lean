import Verif.Props.Factorial
import Verif.Props.Prelude
import Verif.Props.Arith

/-! C111: arithmetic with floats; and C106 on floats of IEEE 754. -/

namespace Dune.Props

open Spec

/-! ### Specification -/

/-- Two operands, one of which is a float at least, that stand for the real numbers `x` and `y`; an integer is
at most 2^53. -/
inductive Mixed : Expr → Expr → ℝ → ℝ → Prop
  | floats {a b : F64} : a.Finite → b.Finite → Mixed (.float a) (.float b) a.val b.val
  | left {i : I64} {b : F64} : |i.val| ≤ 2 ^ 53 → b.Finite → Mixed (.int i) (.float b) i.val b.val
  | right {a : F64} {i : I64} : a.Finite → |i.val| ≤ 2 ^ 53 → Mixed (.float a) (.int i) a.val i.val

/-- The float is nearest to `z`, and exactly `z` if `z` is a whole number of at most 2^53. -/
def Best (z : ℝ) (g : F64) : Prop := Nearest z g ∧ ∀ k : ℤ, |k| ≤ 2 ^ 53 → z = k → g.val = k

/-- `i` is `x` without its fraction. -/
def CutOff (x : ℝ) (i : Int) : Prop :=
  (0 ≤ x → 0 ≤ i ∧ (i : ℝ) ≤ x ∧ x < i + 1) ∧ (x ≤ 0 → i ≤ 0 ∧ x ≤ i ∧ (i : ℝ) - 1 < x)

/-! ### Proofs -/

theorem Best.of {z : ℝ} {g : F64} (h : Nearest z g) : Best z g :=
  ⟨h, fun k hk e => by subst e; exact h.whole hk⟩

section

variable {W : Type} {P : Plat} {H : Host W} {L : Lib} {n : Nat} {env env1 env2 : Env} {w w1 w2 : W}

theorem Mixed.num {va vb : Expr} {x y : ℝ} (hP : Ieee P) (h : Mixed va vb x y) :
    ∃ a b : F64, a.Finite ∧ b.Finite ∧ a.val = x ∧ b.val = y ∧ Expr.add P va vb = .float (P.fAdd a b) ∧
      Expr.sub P va vb = .float (P.fSub a b) ∧ Expr.mul P va vb = .ok (.float (P.fMul a b)) ∧
      Expr.div P va vb = .float (P.fDiv a b) ∧
      ∀ n env w, evalN P H (stdB P L) n va env w = (.ok va, env, w) := by
  cases h with
  | floats ha hb => exact ⟨_, _, ha, hb, rfl, rfl, rfl, rfl, rfl, rfl, fun n _ _ => by cases n <;> rfl⟩
  | left hi hb =>
    exact ⟨_, _, (hP.ofInt _).1, hb, (hP.ofInt _).whole hi, rfl, rfl, rfl, rfl, rfl, fun n _ _ => by cases n <;> rfl⟩
  | right ha hi =>
    exact ⟨_, _, ha, (hP.ofInt _).1, rfl, (hP.ofInt _).whole hi, rfl, rfl, rfl, rfl, fun n _ _ => by cases n <;> rfl⟩

/-- C111, `a + b` with a float is the float nearest to the sum, and exact for whole numbers up to 2^53. -/
theorem C111_add (hs : Std env) (hP : Ieee P) {a b va vb : Expr} {x y : ℝ} (hm : Mixed va vb x y)
    (hz : |x + y| ≤ 2 ^ 1000)
    (ha : evalN P H (stdB P L) n a env w = (.ok va, env1, w1))
    (hb : evalN P H (stdB P L) n b env1 w1 = (.ok vb, env2, w2)) :
    ∃ g, evalN P H (stdB P L) (n + 1) (.apply (.symbol c!"+") [a, b]) env w = (.ok (.float g), env2, w2) ∧
      Best (x + y) g := by
  obtain ⟨fa, fb, h1, h2, rfl, rfl, e, _, _, _, hv⟩ := hm.num (H := H) (L := L) hP
  obtain ⟨msg, h⟩ := eval_add2 (hs.op (c!"+", _) (by mem_tac)) ha (hv _ _ _) hb
  rw [e] at h
  exact ⟨_, h, .of (hP.add _ _ h1 h2 hz)⟩

/-- C111, `a - b` likewise. -/
theorem C111_sub (hs : Std env) (hP : Ieee P) {a b va vb : Expr} {x y : ℝ} (hm : Mixed va vb x y)
    (hz : |x - y| ≤ 2 ^ 1000)
    (ha : evalN P H (stdB P L) n a env w = (.ok va, env1, w1))
    (hb : evalN P H (stdB P L) n b env1 w1 = (.ok vb, env2, w2)) :
    ∃ g, evalN P H (stdB P L) (n + 1) (.apply (.symbol c!"-") [a, b]) env w = (.ok (.float g), env2, w2) ∧
      Best (x - y) g := by
  obtain ⟨fa, fb, h1, h2, rfl, rfl, _, e, _, _, hv⟩ := hm.num (H := H) (L := L) hP
  obtain ⟨msg, h⟩ := eval_sub2 (hs.op (c!"-", _) (by mem_tac)) ha (hv _ _ _) hb
  rw [e] at h
  exact ⟨_, h, .of (hP.sub _ _ h1 h2 hz)⟩

/-- C111, `a * b` likewise. -/
theorem C111_mul (hs : Std env) (hP : Ieee P) {a b va vb : Expr} {x y : ℝ} (hm : Mixed va vb x y)
    (hz : |x * y| ≤ 2 ^ 1000)
    (ha : evalD P H (bodyRun P H (stdB P L) n) 800 a env w = (.ok va, env1, w1))
    (hb : evalD P H (bodyRun P H (stdB P L) n) 799 b env1 w1 = (.ok vb, env2, w2)) :
    ∃ g, evalN P H (stdB P L) (n + 1) (.apply (.symbol c!"*") [a, b]) env w = (.ok (.float g), env2, w2) ∧
      Best (x * y) g := by
  obtain ⟨fa, fb, h1, h2, rfl, rfl, _, _, e, _, hv⟩ := hm.num (H := H) (L := L) hP
  obtain ⟨msg, h⟩ := eval_curried_op (fun _ => rfl) (hs.op (c!"*", _) (by mem_tac)) ha hb (hv _ _ _)
  rw [e] at h
  exact ⟨_, h, .of (hP.mul _ _ h1 h2 hz)⟩

/-- C111, `a // b` likewise, unless `b` is 0: with a float it does not cut off the fraction. -/
theorem C111_div (hs : Std env) (hP : Ieee P) {a b va vb : Expr} {x y : ℝ} (hm : Mixed va vb x y)
    (h0 : y ≠ 0) (hz : |x / y| ≤ 2 ^ 1000)
    (ha : evalD P H (bodyRun P H (stdB P L) n) 800 a env w = (.ok va, env1, w1))
    (hb : evalD P H (bodyRun P H (stdB P L) n) 799 b env1 w1 = (.ok vb, env2, w2)) :
    ∃ g, evalN P H (stdB P L) (n + 1) (.apply (.symbol c!"//") [a, b]) env w = (.ok (.float g), env2, w2) ∧
      Best (x / y) g := by
  obtain ⟨fa, fb, h1, h2, rfl, rfl, _, _, _, e, hv⟩ := hm.num (H := H) (L := L) hP
  obtain ⟨msg, h⟩ := eval_curried_op (fun _ => rfl) (hs.op (c!"//", _) (by mem_tac)) ha hb (hv _ _ _)
  simp only [e] at h
  exact ⟨_, h, .of (hP.div _ _ h1 h2 h0 hz)⟩

theorem cut_iff {x : ℝ} : CutOff x (if 0 ≤ x then ⌊x⌋ else ⌈x⌉) := by
  by_cases h : 0 ≤ x
  · rw [if_pos h]
    refine ⟨fun _ => ⟨Int.floor_nonneg.2 h, Int.floor_le x, Int.lt_floor_add_one x⟩, fun h' => ?_⟩
    have : x = 0 := le_antisymm h' h
    subst this
    simp
  · rw [if_neg h]
    refine ⟨fun h' => absurd h' h, fun h' => ⟨?_, Int.le_ceil x, ?_⟩⟩
    · rw [Int.ceil_le]
      simpa using h'
    · have := Int.ceil_lt_add_one x
      linarith

/-- C111, `int` cuts off the fraction. -/
theorem C111_int (hs : Std env) (hP : Ieee P) {a : Expr} {x : F64} (hf : x.Finite) (hx : |x.val| < 2 ^ 63)
    (ha : evalN P H (stdB P L) n a env w = (.ok (.float x), env1, w1)) :
    ∃ i : I64, evalN P H (stdB P L) (n + 1) (.apply (.symbol c!"int") [a]) env w = (.ok (.int i), env1, w1) ∧
      CutOff x.val i.val := by
  refine ⟨P.fToInt x, ?_, by rw [hP.toInt x hf hx]; exact cut_iff⟩
  rw [evalN_symbol (hs.top (c!"int", .builtin c!"int" .int []) (by mem_tac)), evalN_builtin]
  brun [Builtins.intB, ha]

/-- No float stands for 2^53 + 1. -/
theorem no_float (g : F64) : g.val ≠ 9007199254740993 := by
  intro h
  rw [F64.val_eq] at h
  have h0 := F64.magVal_nonneg g.mag
  split at h
  · have e1 : F64.magVal 4845873199050653696 = 9007199254740992 := by norm_num [F64.magVal]
    have e2 : F64.magVal 4845873199050653697 = 9007199254740994 := by norm_num [F64.magVal]
    have l : 4845873199050653696 < g.mag := by
      rw [← F64.magVal_mono.lt_iff_lt, e1]; linarith
    have u : g.mag < 4845873199050653697 := by
      rw [← F64.magVal_mono.lt_iff_lt, e2]; linarith
    omega
  · linarith

/-- C111, beyond 2^53 an integer that meets a float is silently changed: the sum of 2^53 + 1 and 0.0 is not
2^53 + 1, on any platform. -/
theorem C111_beyond_refuted (hs : Std env) {a b : Expr}
    (ha : evalN P H (stdB P L) n a env w = (.ok (.int (.lit 9007199254740993)), env1, w1))
    (hb : evalN P H (stdB P L) n b env1 w1 = (.ok (.float F64.zero), env2, w2)) :
    ∃ g, evalN P H (stdB P L) (n + 1) (.apply (.symbol c!"+") [a, b]) env w = (.ok (.float g), env2, w2) ∧
      g.val ≠ 9007199254740993 + F64.zero.val := by
  obtain ⟨msg, h⟩ := eval_add2 (hs.op (c!"+", _) (by mem_tac)) ha (by cases n <;> rfl) hb
  refine ⟨_, h, ?_⟩
  rw [F64.zero_val, add_zero]
  exact no_float _

theorem divides_ieee (hP : Ieee P) {lit : Str} {f : F64} {c : Nat} (hl : P.fParse lit = some f) (hf : f.Finite)
    (hv : f.val = c) (c1 : 1 ≤ c) (c2 : c ≤ 1000) : Divides P lit c (2 ^ 50) := by
  refine ⟨f, hl, fun y h0 hN => ?_⟩
  obtain ⟨yf, yn⟩ := hP.ofInt y
  have hy : (P.fOfInt y).val = (y.val : ℝ) := (hP.ofInt y).whole (by rw [abs_of_nonneg h0]; omega)
  have c0 : (0 : ℝ) < c := by exact_mod_cast c1
  have y0 : (0 : ℝ) ≤ y.val := by exact_mod_cast h0
  have yN : (y.val : ℝ) < 2 ^ 50 := by exact_mod_cast hN
  have q0 : 0 ≤ (y.val : ℝ) / c := by positivity
  have qN : (y.val : ℝ) / c < 2 ^ 50 := by
    rw [div_lt_iff₀ c0]
    have : (1 : ℝ) ≤ c := by exact_mod_cast c1
    nlinarith
  have qb : |(y.val : ℝ) / c| ≤ 2 ^ 1000 := by
    rw [abs_of_nonneg q0]
    exact qN.le.trans (pow_le_pow_right₀ (by norm_num) (by norm_num))
  have hd : Nearest ((y.val : ℝ) / c) (P.fDiv (P.fOfInt y) f) := by
    have := hP.div (P.fOfInt y) f yf hf (by rw [hv]; exact c0.ne')
    rw [hy, hv] at this
    exact this qb
  have hn := hd.near qb
  rw [abs_of_nonneg q0] at hn
  generalize P.fDiv (P.fOfInt y) f = g at hd hn
  obtain ⟨q, hq⟩ : ∃ q, q = y.val / (c : ℤ) := ⟨_, rfl⟩
  have cz : (0 : ℤ) < c := by exact_mod_cast c1
  have e := Int.mul_ediv_add_emod y.val c
  rw [← hq] at e
  have r0 := Int.emod_nonneg y.val cz.ne'
  have r1 := Int.emod_lt_of_pos y.val cz
  generalize y.val % (c : ℤ) = r at e r0 r1
  have z0 : 0 ≤ q := by rw [hq]; exact Int.ediv_nonneg h0 cz.le
  have tiny : (2⁻¹ : ℝ) ^ 1000 ≤ (2⁻¹ : ℝ) ^ 64 := pow_le_pow_of_le_one (by norm_num) (by norm_num) (by norm_num)
  have er : (y.val : ℝ) = c * q + r := by exact_mod_cast e.symm
  have err : |g.val - (y.val : ℝ) / c| * c ≤ 1 / 2 := by
    have c3 : (c : ℝ) ≤ 1000 := by exact_mod_cast c2
    calc |g.val - (y.val : ℝ) / c| * c ≤ ((y.val : ℝ) / c * (2⁻¹ : ℝ) ^ 52 + (2⁻¹ : ℝ) ^ 64) * c :=
          mul_le_mul_of_nonneg_right (hn.trans (add_le_add le_rfl tiny)) c0.le
      _ = (y.val : ℝ) * (2⁻¹ : ℝ) ^ 52 + (2⁻¹ : ℝ) ^ 64 * c := by field_simp
      _ ≤ 2 ^ 50 * (2⁻¹ : ℝ) ^ 52 + (2⁻¹ : ℝ) ^ 64 * 1000 := by gcongr
      _ ≤ 1 / 2 := by norm_num
  have key : (q : ℝ) ≤ g.val ∧ g.val < q + 1 := by
    by_cases hr : r = 0
    · have ex : (y.val : ℝ) / c = (q : ℤ) := by
        rw [er, hr]
        field_simp
        simp
      have hq53 : |q| ≤ 2 ^ 53 := by
        rw [abs_of_nonneg z0]
        rw [ex] at qN
        have : q < 2 ^ 50 := by exact_mod_cast qN
        omega
      rw [ex] at hd
      rw [hd.whole hq53]
      constructor <;> linarith
    · have r2 : (1 : ℝ) ≤ r := by exact_mod_cast (by omega : 1 ≤ r)
      have r3 : (r : ℝ) ≤ c - 1 := by
        have : (r : ℝ) ≤ ((c : ℤ) - 1 : ℤ) := by exact_mod_cast (by omega : r ≤ (c : ℤ) - 1)
        push_cast at this
        exact this
      have q1 : (y.val : ℝ) / c = q + r / c := by rw [er]; field_simp
      rw [q1] at err
      have e2 : |g.val * c - q * c - r| ≤ 1 / 2 := by
        calc |g.val * c - q * c - r| = |(g.val - (q + r / c)) * c| := by congr 1; field_simp; ring
          _ = |g.val - (q + r / c)| * c := by rw [abs_mul, abs_of_pos c0]
          _ ≤ _ := err
      have b := abs_le.1 e2
      constructor
      · by_contra hc
        nlinarith [not_le.1 hc]
      · by_contra hc
        nlinarith [not_lt.1 hc]
  have gb : |g.val| < 2 ^ 63 := by
    have zr : (0 : ℝ) ≤ q := by exact_mod_cast z0
    have zr2 : (0 : ℝ) ≤ r := by exact_mod_cast r0
    have hq2 : (q : ℝ) ≤ y.val := by
      rw [er]
      have : (1 : ℝ) ≤ c := by exact_mod_cast c1
      nlinarith
    rw [abs_of_nonneg (by linarith [key.1])]
    norm_num at yN ⊢
    linarith [key.2]
  rw [hP.toInt g hd.1 gb, if_pos (by
    have : (0 : ℝ) ≤ q := by exact_mod_cast z0
    linarith [key.1])]
  rw [← hq, Int.floor_eq_iff]
  exact key

theorem parse_ieee (hP : Ieee P) {a b lit : Str} (c : Nat) (hl : lit = a ++ '.' :: b) (ha : a ≠ []) (hb : b ≠ [])
    (hd : ∀ x ∈ a ++ b, x.isDigit) (hc : decimalVal (a ++ b) = c * 10 ^ b.length) (c2 : c ≤ 1000) :
    ∃ f, P.fParse lit = some f ∧ f.Finite ∧ f.val = c := by
  have e : (decimalVal (a ++ b) : ℝ) / 10 ^ b.length = ((c : ℤ) : ℝ) := by
    rw [hc]
    push_cast
    field_simp
  have hx := hP.parse a b ha hb hd
  rw [e] at hx
  obtain ⟨f, h1, h2⟩ := hx (by
    have : (c : ℝ) ≤ 2 ^ 10 := by
      have : (c : ℝ) ≤ 1000 := by exact_mod_cast c2
      norm_num
      linarith
    exact_mod_cast this.trans (pow_le_pow_right₀ (by norm_num) (by norm_num)))
  refine ⟨f, by rw [hl]; exact h1, h2.1, ?_⟩
  have := h2.whole (k := c) (by rw [abs_of_nonneg (by omega)]; omega)
  exact_mod_cast this

/-- C106 on IEEE 754 floats: the calendar divides correctly by 4, 100 and 400 up to 2^50. -/
theorem C106_ieee (hP : Ieee P) : Centuries P (2 ^ 50) := by
  refine ⟨?_, ?_, ?_⟩
  · obtain ⟨f, h1, h2, h3⟩ := parse_ieee hP (lit := c!"4.0") (a := c!"4") (b := c!"0") 4 rfl (by simp) (by simp)
      (by decide) rfl (by omega)
    exact divides_ieee hP h1 h2 h3 (by omega) (by omega)
  · obtain ⟨f, h1, h2, h3⟩ := parse_ieee hP (lit := c!"100.0") (a := c!"100") (b := c!"0") 100 rfl (by simp) (by simp)
      (by decide) rfl (by omega)
    exact divides_ieee hP h1 h2 h3 (by omega) (by omega)
  · obtain ⟨f, h1, h2, h3⟩ := parse_ieee hP (lit := c!"400.0") (a := c!"400") (b := c!"0") 400 rfl (by simp) (by simp)
      (by decide) rfl (by omega)
    exact divides_ieee hP h1 h2 h3 (by omega) (by omega)

end

/-! ### A platform with IEEE 754 arithmetic -/

/-- A float nearest to `x`. -/
noncomputable def nearest (x : ℝ) : F64 := (F64.exists_nearest x).choose

theorem nearest_spec (x : ℝ) : Nearest x (nearest x) := (F64.exists_nearest x).choose_spec

/-- Arithmetic that gives nearest floats, and decimal numbers read accordingly. -/
noncomputable def ieeePlat : Plat :=
  { Demo.plat with
    fAdd := fun a b => nearest (a.val + b.val)
    fSub := fun a b => nearest (a.val - b.val)
    fMul := fun a b => nearest (a.val * b.val)
    fDiv := fun a b => nearest (a.val / b.val)
    fOfInt := fun i => nearest i.val
    fToInt := fun a => I64.wrap (if 0 ≤ a.val then ⌊a.val⌋ else ⌈a.val⌉)
    fParse := fun s =>
      some (nearest ((decimalVal (s.filter (· ≠ '.')) : ℝ) / 10 ^ (s.dropWhile (· ≠ '.')).tail.length)) }

theorem wrap_of_abs {z : Int} (h : |z| < 2 ^ 63) : (I64.wrap z).val = z := by
  rw [abs_lt] at h
  show Int.bmod z 18446744073709551616 = z
  exact Int.bmod_eq_of_le (by omega) (by omega)

theorem ieee_plat : Ieee ieeePlat where
  add _ _ _ _ _ := nearest_spec _
  sub _ _ _ _ _ := nearest_spec _
  mul _ _ _ _ _ := nearest_spec _
  div _ _ _ _ _ _ := nearest_spec _
  ofInt _ := nearest_spec _
  toInt a _ h := by
    apply wrap_of_abs
    have hc : CutOff a.val (if 0 ≤ a.val then ⌊a.val⌋ else ⌈a.val⌉) := cut_iff
    generalize (if 0 ≤ a.val then ⌊a.val⌋ else ⌈a.val⌉) = z at hc
    rw [abs_lt] at h ⊢
    rcases le_total 0 a.val with h0 | h0
    · obtain ⟨h1, h2, _⟩ := hc.1 h0
      have : (z : ℝ) < 2 ^ 63 := by linarith [h.2]
      have : z < 2 ^ 63 := by exact_mod_cast this
      omega
    · obtain ⟨h1, h2, _⟩ := hc.2 h0
      have : (-2 ^ 63 : ℝ) < z := by linarith [h.1]
      have : -2 ^ 63 < z := by exact_mod_cast this
      omega
  parse a b _ _ hd _ := by
    have nd : ∀ x ∈ a ++ b, x ≠ '.' := by
      rintro x hx rfl
      exact absurd (hd _ hx) (by decide)
    have na : ∀ x ∈ a, decide (x ≠ '.') = true := fun x hx => by simpa using nd x (List.mem_append_left _ hx)
    have nb : ∀ x ∈ b, decide (x ≠ '.') = true := fun x hx => by simpa using nd x (List.mem_append_right _ hx)
    have e1 : (a ++ '.' :: b).filter (· ≠ '.') = a ++ b := by
      rw [List.filter_append, List.filter_cons_of_neg (by simp), List.filter_eq_self.2 na, List.filter_eq_self.2 nb]
    have e2 : ((a ++ '.' :: b).dropWhile (· ≠ '.')).tail = b := by
      rw [List.dropWhile_append_of_pos na]
      simp
    refine ⟨_, rfl, ?_⟩
    rw [e1, e2]
    exact nearest_spec _

/-- `1 + 2.0` is 3, exactly. -/
example : ∃ g, evalN ieeePlat Demo.host (stdB ieeePlat Demo.lib) 1
    (.apply (.symbol c!"+") [.int (.lit 1), .float ⟨0x4000000000000000#64⟩]) Demo.env [] = (.ok (.float g), Demo.env, []) ∧
    g.val = 3 := by
  have hm := Mixed.left (i := .lit 1) (b := ⟨0x4000000000000000#64⟩) (by decide) Fact.val_2.1
  rw [Fact.val_2.2] at hm
  have hx : (((I64.lit 1).val : ℝ) + 2) = 3 := by
    have : (I64.lit 1).val = 1 := rfl
    rw [this]
    norm_num
  obtain ⟨g, h1, h2⟩ := C111_add (P := ieeePlat) (H := Demo.host) (L := Demo.lib) (n := 0) (w := [])
    (a := .int (.lit 1)) (b := .float ⟨0x4000000000000000#64⟩) demo_std ieee_plat hm (by
      rw [hx, abs_of_pos (by norm_num)]
      exact le_trans (by norm_num : (3 : ℝ) ≤ 2 ^ 2) (pow_le_pow_right₀ (by norm_num) (by norm_num))) rfl rfl
  exact ⟨g, h1, by simpa using h2.2 3 (by norm_num) (by rw [hx]; norm_num)⟩

theorem small_enough {z : ℝ} (h : |z| ≤ 2 ^ 10) : |z| ≤ 2 ^ 1000 :=
  h.trans (pow_le_pow_right₀ (by norm_num) (by norm_num))

/-- `12.0 - 2.0`, `12.0 * 2.0` and `12.0 // 2.0` are 10, 24 and 6, exactly. -/
example : ∃ g1 g2 g3,
    evalN ieeePlat Demo.host (stdB ieeePlat Demo.lib) 1
      (.apply (.symbol c!"-") [.float ⟨0x4028000000000000#64⟩, .float ⟨0x4000000000000000#64⟩]) Demo.env [] =
        (.ok (.float g1), Demo.env, []) ∧ g1.val = 10 ∧
    evalN ieeePlat Demo.host (stdB ieeePlat Demo.lib) 1
      (.apply (.symbol c!"*") [.float ⟨0x4028000000000000#64⟩, .float ⟨0x4000000000000000#64⟩]) Demo.env [] =
        (.ok (.float g2), Demo.env, []) ∧ g2.val = 24 ∧
    evalN ieeePlat Demo.host (stdB ieeePlat Demo.lib) 1
      (.apply (.symbol c!"//") [.float ⟨0x4028000000000000#64⟩, .float ⟨0x4000000000000000#64⟩]) Demo.env [] =
        (.ok (.float g3), Demo.env, []) ∧ g3.val = 6 := by
  have hm := Mixed.floats Fact.val_12.1 Fact.val_2.1
  rw [Fact.val_2.2, Fact.val_12.2] at hm
  obtain ⟨g1, h1, b1⟩ := C111_sub (P := ieeePlat) (H := Demo.host) (L := Demo.lib) (n := 0) (w := [])
    (a := .float ⟨0x4028000000000000#64⟩) (b := .float ⟨0x4000000000000000#64⟩) demo_std ieee_plat hm (small_enough (by rw [abs_le]; constructor <;> norm_num)) rfl rfl
  obtain ⟨g2, h2, b2⟩ := C111_mul (P := ieeePlat) (H := Demo.host) (L := Demo.lib) (n := 0) (w := [])
    (a := .float ⟨0x4028000000000000#64⟩) (b := .float ⟨0x4000000000000000#64⟩) demo_std ieee_plat hm (small_enough (by rw [abs_le]; constructor <;> norm_num)) rfl rfl
  obtain ⟨g3, h3, b3⟩ := C111_div (P := ieeePlat) (H := Demo.host) (L := Demo.lib) (n := 0) (w := [])
    (a := .float ⟨0x4028000000000000#64⟩) (b := .float ⟨0x4000000000000000#64⟩) demo_std ieee_plat hm (by norm_num) (small_enough (by rw [abs_le]; constructor <;> norm_num)) rfl rfl
  exact ⟨g1, g2, g3, h1, by simpa using b1.2 10 (by norm_num) (by norm_num), h2,
    by simpa using b2.2 24 (by norm_num) (by norm_num), h3, by simpa using b3.2 6 (by norm_num) (by norm_num)⟩

/-- `int 2.0` is 2. -/
example : ∃ i : I64, evalN ieeePlat Demo.host (stdB ieeePlat Demo.lib) 1
    (.apply (.symbol c!"int") [.float ⟨0x4000000000000000#64⟩]) Demo.env [] = (.ok (.int i), Demo.env, []) ∧
    i.val = 2 := by
  obtain ⟨i, h1, h2⟩ := C111_int (P := ieeePlat) (H := Demo.host) (L := Demo.lib) (n := 0) (w := [])
    (a := .float ⟨0x4000000000000000#64⟩) demo_std ieee_plat Fact.val_2.1 (by rw [Fact.val_2.2]; norm_num) rfl
  refine ⟨i, h1, ?_⟩
  rw [Fact.val_2.2] at h2
  obtain ⟨_, a, b⟩ := h2.1 (by norm_num)
  have : i.val ≤ 2 := by exact_mod_cast a
  have : 2 < i.val + 1 := by exact_mod_cast b
  omega

example := C111_beyond_refuted (P := Demo.plat) (H := Demo.host) (L := Demo.lib) (n := 0) (w := []) demo_std
  (a := .int (.lit 9007199254740993)) (b := .float F64.zero) rfl rfl

example : Centuries ieeePlat (2 ^ 50) := C106_ieee ieee_plat

end Dune.Props
