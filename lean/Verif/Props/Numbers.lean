import Verif.Proof.Lib
import Verif.Spec.Arith
import Verif.Props.Lists
import Mathlib.Data.Nat.Factorial.Basic
import Mathlib.Algebra.BigOperators.Group.List.Basic
import Mathlib.Tactic.Ring
import Mathlib.Tactic.Linarith
import Mathlib.Algebra.Order.Group.Abs

/-! C69: sums, products, factorials, absolute values and shifts of integers. -/

namespace Dune.Props

open Spec

/-- The integers in argument values: integers and lists of integers, from left to right. -/
inductive Ints : List Expr → List Int → Prop
  | nil : Ints [] []
  | int (i : I64) {vs zs} : Ints vs zs → Ints (.int i :: vs) (i.val :: zs)
  | list (l : List I64) {vs zs} : Ints vs zs →
      Ints (.list (l.map .int) :: vs) (l.map I64.val ++ zs)

/-- All running totals of `op` over the numbers fit into 64 bits. -/
def StaysIn (op : Int → Int → Int) (z : Int) (zs : List Int) : Prop :=
  ∀ k, k ≤ zs.length → Fits ((zs.take k).foldl op z)

/-- The same 64 bits. -/
def SameBits (a b : Int) : Prop := ∃ q : Int, a = b + q * 2 ^ 64

/-- the accumulator loop on integers alone -/
def foldArith (P : Plat) (op : Int → Int → Int) : List Int → I64 → Outcome I64
  | [], i => .ok i
  | z :: zs, i =>
    match Builtins.arith P (op i.val z) with
    | .ok r => foldArith P op zs r
    | o => o

theorem arith_fits {P : Plat} {z : Int} (h : Fits z) :
    ∃ r, Builtins.arith P z = .ok r ∧ r.val = z := by
  obtain ⟨h1, h2⟩ := h
  refine ⟨⟨z, by omega, by omega⟩, ?_, rfl⟩
  rw [Builtins.arith, I64.ofInt?, dif_pos ⟨by omega, by omega⟩]

theorem arith_not_fits {P : Plat} {z : Int} (h : ¬ Fits z) :
    Builtins.arith P z = if P.overflowChecks then .panic else .ok (I64.wrap z) := by
  have : ¬ (-9223372036854775808 ≤ z ∧ z < 9223372036854775808) := by
    intro g
    exact h ⟨by omega, by omega⟩
  rw [Builtins.arith, I64.ofInt?, dif_neg this]

theorem wrap_bits (z : Int) : SameBits (I64.wrap z).val z := by
  refine ⟨-((z + 9223372036854775808) / 18446744073709551616), ?_⟩
  simp only [I64.wrap]
  rw [Int.bmod_def]
  omega

theorem foldArith_ok {P : Plat} {op : Int → Int → Int} : ∀ {zs : List Int} {i : I64},
    StaysIn op i.val zs → ∃ r, foldArith P op zs i = .ok r ∧ r.val = zs.foldl op i.val
  | [], i, _ => ⟨i, rfl, rfl⟩
  | z :: zs, i, h => by
    obtain ⟨r, hr, e⟩ := arith_fits (P := P) (h 1 (by simp))
    simp only [List.take_succ_cons, List.take_zero, List.foldl_cons, List.foldl_nil] at hr e
    have h' : StaysIn op r.val zs := by
      intro k hk
      have := h (k + 1) (by simpa using hk)
      rw [e]
      simpa using this
    obtain ⟨r', hr', e'⟩ := foldArith_ok (P := P) h'
    exact ⟨r', by simp [foldArith, hr, hr'], by rw [e', e]; rfl⟩

theorem foldArith_panic {P : Plat} (hP : P.overflowChecks = true) {op : Int → Int → Int} :
    ∀ {zs : List Int} {i : I64}, ¬ StaysIn op i.val zs → foldArith P op zs i = .panic
  | [], i, h => by
    refine absurd ?_ h
    intro k _
    have := i.lo
    have := i.hi
    simp only [List.take_nil, List.foldl_nil]
    exact ⟨by omega, by omega⟩
  | z :: zs, i, h => by
    by_cases hz : Fits (op i.val z)
    · obtain ⟨r, hr, e⟩ := arith_fits (P := P) hz
      have h' : ¬ StaysIn op r.val zs := by
        intro g
        refine h fun k hk => ?_
        cases k with
        | zero =>
          have := i.lo
          have := i.hi
          simp only [List.take_zero, List.foldl_nil]
          exact ⟨by omega, by omega⟩
        | succ k =>
          have := g k (by simpa using hk)
          rw [e] at this
          simpa using this
      simp [foldArith, hr, foldArith_panic hP h']
    · simp [foldArith, arith_not_fits hz, hP]

theorem foldArith_wrap {P : Plat} (hP : P.overflowChecks = false) {op : Int → Int → Int}
    (hop : ∀ {a a' : Int} (b : Int), SameBits a a' → SameBits (op a b) (op a' b)) :
    ∀ {zs : List Int} {i : I64} {z : Int}, SameBits i.val z →
      ∃ r, foldArith P op zs i = .ok r ∧ SameBits r.val (zs.foldl op z)
  | [], i, _, h => ⟨i, rfl, h⟩
  | x :: zs, i, z, h => by
    have : ∃ r, Builtins.arith P (op i.val x) = .ok r ∧ SameBits r.val (op i.val x) := by
      by_cases hz : Fits (op i.val x)
      · obtain ⟨r, hr, e⟩ := arith_fits (P := P) hz
        exact ⟨r, hr, 0, by omega⟩
      · exact ⟨_, by simp [arith_not_fits hz, hP], wrap_bits _⟩
    obtain ⟨r, hr, e⟩ := this
    have h2 := hop x h
    obtain ⟨r', hr', e'⟩ := foldArith_wrap hP hop (zs := zs) (i := r) (z := op z x) (by
      obtain ⟨p, hp⟩ := e
      obtain ⟨q, hq⟩ := h2
      exact ⟨q + p, by omega⟩)
    exact ⟨r', by simp [foldArith, hr, hr'], e'⟩

theorem sameBits_add {a a' : Int} (b : Int) (h : SameBits a a') : SameBits (a + b) (a' + b) := by
  obtain ⟨q, rfl⟩ := h
  exact ⟨q, by omega⟩

theorem sameBits_mul {a a' : Int} (b : Int) (h : SameBits a a') : SameBits (a * b) (a' * b) := by
  obtain ⟨q, rfl⟩ := h
  exact ⟨q * b, by ring⟩

theorem sameBits_fits {a b : Int} (h : SameBits a b) (ha : Fits a) (hb : Fits b) : a = b := by
  obtain ⟨q, rfl⟩ := h
  obtain ⟨a1, a2⟩ := ha
  obtain ⟨b1, b2⟩ := hb
  omega

theorem i64_fits (i : I64) : Fits i.val := by
  have := i.lo
  have := i.hi
  exact ⟨by omega, by omega⟩

section

variable {W : Type} {P : Plat} {H : Host W} {L : Lib} {n : Nat} {env env1 env2 : Env}
  {w w1 w2 : W}

open Builtins

theorem accNum_int (name : Str) (op : Int → Int → Int) (ff : F64 → F64 → F64) (z i : I64) (f : F64)
    (ev0 : Expr → M W Expr) :
    (accNum P name op ff (.int z) i f).run H ev0 =
      match arith P (op i.val z.val) with
      | .ok r => pure (r, f)
      | _ => M.lift .panic := by
  simp only [accNum, BProg.run_bind, arith]
  cases I64.ofInt? (op i.val z.val) with
  | some r => rfl
  | none => cases P.overflowChecks <;> rfl

theorem accList_ints (name : Str) (op : Int → Int → Int) (ff : F64 → F64 → F64) (f : F64) :
    ∀ (l : List I64) (i : I64),
    (accList P name op ff (l.map .int) i f).run H (evalN P H (stdB P L) n) env w =
      match foldArith P op (l.map I64.val) i with
      | .ok r => (.ok (r, f), env, w)
      | _ => (.panic, env, w)
  | [], i => rfl
  | z :: l, i => by
    simp only [List.map_cons, accList, BProg.run_bind, BProg.run_ev, foldArith]
    rw [M.bind_ok (evalN_int ..), accNum_int]
    cases hA : arith P (op i.val z.val) with
    | ok r =>
      simp only [pure_bind]
      exact accList_ints name op ff f l r
    | _ => rfl

theorem foldArith_append (P : Plat) (op : Int → Int → Int) : ∀ (xs ys : List Int) (i : I64),
    foldArith P op (xs ++ ys) i =
      match foldArith P op xs i with
      | .ok r => foldArith P op ys r
      | o => o
  | [], ys, i => rfl
  | x :: xs, ys, i => by
    simp only [List.cons_append, foldArith]
    cases arith P (op i.val x) with
    | ok r => exact foldArith_append P op xs ys r
    | _ => rfl

theorem accArgs_ints (name : Str) (op : Int → Int → Int) (ff : F64 → F64 → F64) (f : F64)
    {args vs : List Expr} {zs : List Int} (hv : Ints vs zs) : ∀ {i : I64} {env : Env} {w : W},
    Evals (evalN P H (stdB P L) n) args vs env w env2 w2 →
    (∀ r, foldArith P op zs i = .ok r →
      (accArgs P name op ff args i f).run H (evalN P H (stdB P L) n) env w =
        (.ok (r, f), env2, w2)) ∧
    (foldArith P op zs i = .panic → ∃ env' w',
      (accArgs P name op ff args i f).run H (evalN P H (stdB P L) n) env w =
        (.panic, env', w')) := by
  induction hv generalizing args with
  | nil =>
    intro i env w h
    cases h
    refine ⟨?_, ?_⟩
    · intro r hr
      cases hr
      rfl
    · intro hr
      cases hr
  | int z _ ih =>
    intro i env w h
    cases h with
    | cons ha hr =>
    simp only [accArgs, BProg.run_bind, BProg.run_ev, foldArith]
    rw [M.bind_ok ha]
    simp only [accNum_int]
    cases hA : arith P (op i.val z.val) with
    | ok r => exact ih hr
    | err e => exact ⟨by simp, by simp⟩
    | panic => exact ⟨by simp, fun _ => ⟨_, _, rfl⟩⟩
    | exit c => exact ⟨by simp, by simp⟩
    | noFuel => exact ⟨by simp, by simp⟩
  | list l _ ih =>
    intro i env w h
    cases h with
    | @cons a as _ _ _ _ envA wA _ _ ha hr =>
    simp only [accArgs, BProg.run_bind, BProg.run_ev, foldArith_append]
    rw [M.bind_ok ha]
    have hl := accList_ints (P := P) (H := H) (L := L) (n := n) (env := envA) (w := wA) name op ff f
      l i
    cases hA : foldArith P op (l.map I64.val) i with
    | ok r =>
      simp only [hA] at hl
      rw [M.bind_ok (hl)]
      exact ih hr
    | err e => exact ⟨by simp, by simp⟩
    | panic =>
      simp only [hA] at hl
      exact ⟨by simp, fun _ => ⟨_, _, M.bind_panic hl⟩⟩
    | exit c => exact ⟨by simp, by simp⟩
    | noFuel => exact ⟨by simp, by simp⟩

/-! ### Sums -/

theorem foldl_add_sum (zs : List Int) (z : Int) : zs.foldl (· + ·) z = z + zs.sum := by
  induction zs generalizing z with
  | nil => simp
  | cons x zs ih => simp [ih]; omega

theorem foldl_mul_prod (zs : List Int) (z : Int) : zs.foldl (· * ·) z = z * zs.prod := by
  induction zs generalizing z with
  | nil => simp
  | cons x zs ih => simp [ih, mul_assoc]

theorem f_zero_eq : F64.eq F64.zero F64.zero = true := rfl
theorem f_one_eq : F64.eq fOne fOne = true := rfl

/-- C69, `math@sum` of integers and lists of integers is the exact sum if every running total fits
into 64 bits. -/
theorem C69_sum_exact (hs : Std env) {args vs : List Expr} {zs : List Int} (hv : Ints vs zs)
    (ha : Evals (evalN P H (stdB P L) n) args vs env w env2 w2) (hf : StaysIn (· + ·) 0 zs) :
    ∃ r : I64, r.val = zs.sum ∧
      evalN P H (stdB P L) (n + 1) (call c!"math" c!"sum" args) env w =
        (.ok (.int r), env2, w2) := by
  obtain ⟨r, hr, e⟩ := foldArith_ok (P := P) (i := .lit 0) hf
  refine ⟨r, by rw [e, foldl_add_sum]; simp [I64.lit], ?_⟩
  lib hs, Init.mathM
  have := (accArgs_ints (P := P) (L := L) c!"sum" (· + ·) P.fAdd F64.zero hv ha).1 r hr
  brun [Builtins.sumB, this, f_zero_eq]

/-- C69, in a build with overflow checks `math@sum` crashes as soon as a running total does not fit,
even if the final sum would. -/
theorem C69_sum_crash (hs : Std env) (hP : P.overflowChecks = true) {args vs : List Expr}
    {zs : List Int} (hv : Ints vs zs)
    (ha : Evals (evalN P H (stdB P L) n) args vs env w env2 w2) (hf : ¬ StaysIn (· + ·) 0 zs) :
    ∃ env' w', evalN P H (stdB P L) (n + 1) (call c!"math" c!"sum" args) env w =
        (.panic, env', w') := by
  have hr := foldArith_panic (P := P) hP (i := .lit 0) hf
  obtain ⟨env', w', h⟩ :=
    (accArgs_ints (P := P) (L := L) c!"sum" (· + ·) P.fAdd F64.zero hv ha).2 hr
  refine ⟨env', w', ?_⟩
  lib hs, Init.mathM
  brun [Builtins.sumB, h]

/-- C69, in a build without overflow checks `math@sum` never fails on integers and has the low 64
bits of the exact sum. -/
theorem C69_sum_wraps (hs : Std env) (hP : P.overflowChecks = false) {args vs : List Expr}
    {zs : List Int} (hv : Ints vs zs)
    (ha : Evals (evalN P H (stdB P L) n) args vs env w env2 w2) :
    ∃ r : I64, SameBits r.val zs.sum ∧
      evalN P H (stdB P L) (n + 1) (call c!"math" c!"sum" args) env w =
        (.ok (.int r), env2, w2) := by
  obtain ⟨r, hr, e⟩ := foldArith_wrap (P := P) hP (op := (· + ·)) (fun b h => sameBits_add b h)
    (zs := zs) (i := .lit 0) (z := 0) ⟨0, rfl⟩
  refine ⟨r, by simpa [foldl_add_sum] using e, ?_⟩
  lib hs, Init.mathM
  have := (accArgs_ints (P := P) (L := L) c!"sum" (· + ·) P.fAdd F64.zero hv ha).1 r hr
  brun [Builtins.sumB, this, f_zero_eq]

/-- C69, `math@product`, likewise. -/
theorem C69_product_exact (hs : Std env) {args vs : List Expr} {zs : List Int} (hv : Ints vs zs)
    (ha : Evals (evalN P H (stdB P L) n) args vs env w env2 w2) (hf : StaysIn (· * ·) 1 zs) :
    ∃ r : I64, r.val = zs.prod ∧
      evalN P H (stdB P L) (n + 1) (call c!"math" c!"product" args) env w =
        (.ok (.int r), env2, w2) := by
  obtain ⟨r, hr, e⟩ := foldArith_ok (P := P) (i := .lit 1) hf
  refine ⟨r, by rw [e, foldl_mul_prod]; simp [I64.lit], ?_⟩
  lib hs, Init.mathM
  have := (accArgs_ints (P := P) (L := L) c!"product" (· * ·) P.fMul fOne hv ha).1 r hr
  brun [Builtins.productB, this, f_one_eq]

/-- C69, the overflow of a product crashes a build with overflow checks. -/
theorem C69_product_crash (hs : Std env) (hP : P.overflowChecks = true) {args vs : List Expr}
    {zs : List Int} (hv : Ints vs zs)
    (ha : Evals (evalN P H (stdB P L) n) args vs env w env2 w2) (hf : ¬ StaysIn (· * ·) 1 zs) :
    ∃ env' w', evalN P H (stdB P L) (n + 1) (call c!"math" c!"product" args) env w =
        (.panic, env', w') := by
  have hr := foldArith_panic (P := P) hP (i := .lit 1) hf
  obtain ⟨env', w', h⟩ :=
    (accArgs_ints (P := P) (L := L) c!"product" (· * ·) P.fMul fOne hv ha).2 hr
  refine ⟨env', w', ?_⟩
  lib hs, Init.mathM
  brun [Builtins.productB, h]

/-- C69, without overflow checks the product has the low 64 bits of the exact product. -/
theorem C69_product_wraps (hs : Std env) (hP : P.overflowChecks = false) {args vs : List Expr}
    {zs : List Int} (hv : Ints vs zs)
    (ha : Evals (evalN P H (stdB P L) n) args vs env w env2 w2) :
    ∃ r : I64, SameBits r.val zs.prod ∧
      evalN P H (stdB P L) (n + 1) (call c!"math" c!"product" args) env w =
        (.ok (.int r), env2, w2) := by
  obtain ⟨r, hr, e⟩ := foldArith_wrap (P := P) hP (op := (· * ·)) (fun b h => sameBits_mul b h)
    (zs := zs) (i := .lit 1) (z := 1) ⟨0, rfl⟩
  refine ⟨r, by simpa [foldl_mul_prod] using e, ?_⟩
  lib hs, Init.mathM
  have := (accArgs_ints (P := P) (L := L) c!"product" (· * ·) P.fMul fOne hv ha).1 r hr
  brun [Builtins.productB, this, f_one_eq]

/-- C69, floats whose total is zero are forgotten: the sum of two floats that cancel is the integer 0,
not a float. -/
theorem C69_sum_float_lost (hs : Std env) {a b : Expr} {f g : F64}
    (hz : F64.eq (P.fAdd (P.fAdd F64.zero f) g) F64.zero = true)
    (ha : evalN P H (stdB P L) n a env w = (.ok (.float f), env1, w1))
    (hb : evalN P H (stdB P L) n b env1 w1 = (.ok (.float g), env2, w2)) :
    evalN P H (stdB P L) (n + 1) (call c!"math" c!"sum" [a, b]) env w =
      (.ok (.int (.lit 0)), env2, w2) := by
  lib hs, Init.mathM
  brun [Builtins.sumB, Builtins.accArgs, Builtins.accNum, ha, hb, hz]

/-! ### Factorials -/

theorem factLoop_ok : ∀ (k m : Nat) (r : I64), r.val = (m.factorial : Nat) →
    (m + k).factorial < 2 ^ 63 →
    ∃ r', factLoop P k (m + 1) r = .ok r' ∧ r'.val = ((m + k).factorial : Nat)
  | 0, m, r, hr, _ => ⟨r, rfl, hr⟩
  | k + 1, m, r, hr, h => by
    have e : r.val * ((m + 1 : Nat) : Int) = ((m + 1).factorial : Nat) := by
      rw [hr, Nat.factorial_succ]
      push_cast
      ring
    have hle : (m + 1).factorial ≤ (m + (k + 1)).factorial := Nat.factorial_le (by omega)
    obtain ⟨r1, h1, e1⟩ := arith_fits (P := P) (z := r.val * ((m + 1 : Nat) : Int))
      (by rw [e]; exact ⟨by omega, by omega⟩)
    have e2 : m + (k + 1) = m + 1 + k := by omega
    obtain ⟨r2, h2, e3⟩ := factLoop_ok k (m + 1) r1 (by rw [e1, e]) (by rw [← e2]; exact h)
    refine ⟨r2, ?_, by rw [e3, e2]⟩
    simp only [factLoop, h1, h2]

theorem factLoop_panic (hP : P.overflowChecks = true) : ∀ (k m : Nat) (r : I64),
    r.val = (m.factorial : Nat) → 2 ^ 63 ≤ (m + k).factorial →
    factLoop P k (m + 1) r = .panic
  | 0, m, r, hr, h => by
    have := r.hi
    rw [hr] at this
    simp only [Nat.add_zero] at h
    omega
  | k + 1, m, r, hr, h => by
    have e : r.val * ((m + 1 : Nat) : Int) = ((m + 1).factorial : Nat) := by
      rw [hr, Nat.factorial_succ]
      push_cast
      ring
    have e2 : m + (k + 1) = m + 1 + k := by omega
    by_cases hf : Fits (r.val * ((m + 1 : Nat) : Int))
    · obtain ⟨r1, h1, e1⟩ := arith_fits (P := P) hf
      have := factLoop_panic hP k (m + 1) r1 (by rw [e1, e]) (by rw [← e2]; exact h)
      simp only [factLoop, h1, this]
    · simp only [factLoop, arith_not_fits hf, hP]
      rfl

theorem factLoop_wrap (hP : P.overflowChecks = false) : ∀ (k m : Nat) (r : I64),
    SameBits r.val (m.factorial : Nat) →
    ∃ r', factLoop P k (m + 1) r = .ok r' ∧ SameBits r'.val ((m + k).factorial : Nat)
  | 0, m, r, hr => ⟨r, rfl, hr⟩
  | k + 1, m, r, hr => by
    have e : ((m.factorial : Nat) : Int) * ((m + 1 : Nat) : Int) = ((m + 1).factorial : Nat) := by
      rw [Nat.factorial_succ]
      push_cast
      ring
    have e2 : m + (k + 1) = m + 1 + k := by omega
    have : ∃ r1, arith P (r.val * ((m + 1 : Nat) : Int)) = .ok r1 ∧
        SameBits r1.val (r.val * ((m + 1 : Nat) : Int)) := by
      by_cases hf : Fits (r.val * ((m + 1 : Nat) : Int))
      · obtain ⟨r1, h1, e1⟩ := arith_fits (P := P) hf
        exact ⟨r1, h1, 0, by omega⟩
      · exact ⟨_, by rw [arith_not_fits hf, hP]; rfl, wrap_bits _⟩
    obtain ⟨r1, h1, p, hp⟩ := this
    obtain ⟨q, hq⟩ := sameBits_mul ((m + 1 : Nat) : Int) hr
    obtain ⟨r2, h2, e3⟩ := factLoop_wrap hP k (m + 1) r1 ⟨q + p, by rw [← e]; omega⟩
    refine ⟨r2, ?_, by rw [e2]; exact e3⟩
    simp only [factLoop, h1, h2]

/-- C69, `math@fact` is the factorial up to 20. -/
theorem C69_fact (hs : Std env) {a : Expr} {i : I64} {k : Nat} (hi : i.val = k) (hk : k ≤ 20)
    (ha : evalN P H (stdB P L) n a env w = (.ok (.int i), env1, w1)) :
    ∃ r : I64, r.val = (k.factorial : Nat) ∧
      evalN P H (stdB P L) (n + 1) (call c!"math" c!"fact" [a]) env w =
        (.ok (.int r), env1, w1) := by
  have h20 : (0 + k).factorial < 2 ^ 63 :=
    Nat.lt_of_le_of_lt (Nat.factorial_le (by omega)) (show (20).factorial < 2 ^ 63 by decide)
  obtain ⟨r, hr, e⟩ := factLoop_ok (P := P) k 0 (.lit 1) rfl h20
  refine ⟨r, by simpa using e, ?_⟩
  have hn : ¬ i.val < 0 := by omega
  have ht : i.val.toNat = k := by omega
  lib hs, Init.mathM
  brun [Builtins.factB, ha, hn, ht, hr]

/-- C69, from 21 on it crashes a build with overflow checks. -/
theorem C69_fact_crash (hs : Std env) (hP : P.overflowChecks = true) {a : Expr} {i : I64}
    (hi : 21 ≤ i.val)
    (ha : evalN P H (stdB P L) n a env w = (.ok (.int i), env1, w1)) :
    evalN P H (stdB P L) (n + 1) (call c!"math" c!"fact" [a]) env w = (.panic, env1, w1) := by
  have h21 : 2 ^ 63 ≤ (0 + i.val.toNat).factorial :=
    Nat.le_trans (show 2 ^ 63 ≤ (21).factorial by decide) (Nat.factorial_le (by omega))
  have hr := factLoop_panic hP i.val.toNat 0 (.lit 1) rfl h21
  have hn : ¬ i.val < 0 := by omega
  lib hs, Init.mathM
  brun [Builtins.factB, ha, hn, hr]

/-- C69, without overflow checks it has the low 64 bits of the factorial. -/
theorem C69_fact_wraps (hs : Std env) (hP : P.overflowChecks = false) {a : Expr} {i : I64} {k : Nat}
    (hi : i.val = k) (ha : evalN P H (stdB P L) n a env w = (.ok (.int i), env1, w1)) :
    ∃ r : I64, SameBits r.val (k.factorial : Nat) ∧
      evalN P H (stdB P L) (n + 1) (call c!"math" c!"fact" [a]) env w =
        (.ok (.int r), env1, w1) := by
  obtain ⟨r, hr, e⟩ := factLoop_wrap hP k 0 (.lit 1) ⟨0, rfl⟩
  refine ⟨r, by simpa using e, ?_⟩
  have hn : ¬ i.val < 0 := by omega
  have ht : i.val.toNat = k := by omega
  lib hs, Init.mathM
  brun [Builtins.factB, ha, hn, ht, hr]

/-- C69, so from 66 on the factorial is reported as 0. -/
theorem C69_fact_zero (hs : Std env) (hP : P.overflowChecks = false) {a : Expr} {i : I64}
    (hi : 66 ≤ i.val) (ha : evalN P H (stdB P L) n a env w = (.ok (.int i), env1, w1)) :
    evalN P H (stdB P L) (n + 1) (call c!"math" c!"fact" [a]) env w =
      (.ok (.int (.lit 0)), env1, w1) := by
  obtain ⟨r, ⟨q, hq⟩, h⟩ := C69_fact_wraps (k := i.val.toNat) hs hP (by omega) ha
  have hd : 2 ^ 64 ∣ (i.val.toNat).factorial :=
    Nat.dvd_trans (show 2 ^ 64 ∣ (66).factorial by decide +kernel)
      (Nat.factorial_dvd_factorial (by omega))
  obtain ⟨c, hc⟩ := hd
  have : r = .lit 0 := by
    have h1 := r.lo
    have h2 := r.hi
    have : r.val = 0 := by
      rw [hc] at hq
      push_cast at hq
      omega
    cases r
    simp only at this
    subst this
    rfl
  rw [h, this]

/-- C69, the factorial of a negative number is an error. -/
theorem C69_fact_negative (hs : Std env) {a : Expr} {i : I64} (hi : i.val < 0)
    (ha : evalN P H (stdB P L) n a env w = (.ok (.int i), env1, w1)) :
    ∃ m, evalN P H (stdB P L) (n + 1) (call c!"math" c!"fact" [a]) env w =
        (.err (.customError m), env1, w1) := by
  refine ⟨c!"cannot take the factorial of a negative number", ?_⟩
  lib hs, Init.mathM
  brun [Builtins.factB, ha, hi]

/-! ### Absolute values -/

/-- C69, `math@abs` is the absolute value, except of the least integer. -/
theorem C69_abs (hs : Std env) {a : Expr} {i : I64} (hi : i.val ≠ -2 ^ 63)
    (ha : evalN P H (stdB P L) n a env w = (.ok (.int i), env1, w1)) :
    ∃ r : I64, r.val = |i.val| ∧
      evalN P H (stdB P L) (n + 1) (call c!"math" c!"abs" [a]) env w =
        (.ok (.int r), env1, w1) := by
  have h1 := i.lo
  have h2 := i.hi
  obtain ⟨r, hr, e⟩ := arith_fits (P := P) (z := if i.val < 0 then -i.val else i.val)
    (by split <;> exact ⟨by omega, by omega⟩)
  refine ⟨r, ?_, ?_⟩
  · rw [e]
    split
    · rw [abs_of_neg (by assumption)]
    · rw [abs_of_nonneg (by omega)]
  · lib hs, Init.mathM
    brun [Builtins.absB, ha, hr]

/-- C69, on the least integer `abs` crashes with overflow checks and returns that negative number
without. -/
theorem C69_abs_min (hs : Std env) {a : Expr} {i : I64} (hi : i.val = -2 ^ 63)
    (ha : evalN P H (stdB P L) n a env w = (.ok (.int i), env1, w1)) :
    evalN P H (stdB P L) (n + 1) (call c!"math" c!"abs" [a]) env w =
      (if P.overflowChecks then .panic else .ok (.int i), env1, w1) := by
  have hn : i.val < 0 := by omega
  have hf : ¬ Fits (-i.val) := by
    rintro ⟨_, h⟩
    omega
  have hw : I64.wrap (-i.val) = i := by
    obtain ⟨v, _, _⟩ := i
    simp only at hi
    subst hi
    rfl
  lib hs, Init.mathM
  cases hP : P.overflowChecks with
  | false => brun [Builtins.absB, ha, hn, arith_not_fits hf, hP, hw]
  | true => brun [Builtins.absB, ha, hn, arith_not_fits hf, hP]

/-! ### Shifts -/

/-- The amount of a shift in a build: with overflow checks only 0 to 63, without them the low six
bits. -/
inductive ShiftAmount (P : Plat) (b : I64) : Nat → Prop
  | small (k : Nat) : b.val = k → k < 64 → ShiftAmount P b k
  | masked (k : Nat) : P.overflowChecks = false → k < 64 → (∃ q : Int, b.val = k + q * 64) →
      ShiftAmount P b k

theorem shiftBy_amount {b : I64} {k : Nat} (h : ShiftAmount P b k) (f : Nat → I64) :
    shiftBy P b f = .ok (f k) := by
  cases h with
  | small h1 h2 =>
    rw [shiftBy, if_pos ⟨by omega, by omega⟩]
    congr 2
    omega
  | masked hP h2 h3 =>
    obtain ⟨q, hq⟩ := h3
    have e : (b.val % 64).toNat = k := by omega
    rw [shiftBy]
    split
    · congr 2
      omega
    · simp [hP, e]

theorem shiftBy_panic {b : I64} (hP : P.overflowChecks = true) (hb : b.val < 0 ∨ 64 ≤ b.val)
    (f : Nat → I64) : shiftBy P b f = .panic := by
  rw [shiftBy, if_neg (by omega)]
  simp [hP]

/-- C69, a left shift multiplies by a power of two and keeps the low 64 bits. -/
theorem C69_lsh (hs : Std env) {a b : Expr} {x y : I64} {k : Nat} (hk : ShiftAmount P y k)
    (ha : evalN P H (stdB P L) n a env w = (.ok (.int x), env1, w1))
    (hb : evalN P H (stdB P L) n b env1 w1 = (.ok (.int y), env2, w2)) :
    ∃ r : I64, SameBits r.val (x.val * 2 ^ k) ∧
      evalN P H (stdB P L) (n + 1) (call c!"math" c!"lsh" [a, b]) env w =
        (.ok (.int r), env2, w2) := by
  refine ⟨I64.wrap (x.val * (2 ^ k : Nat)), ?_, ?_⟩
  · have := wrap_bits (x.val * (2 ^ k : Nat))
    simpa using this
  · lib hs, Init.mathM
    have h : lShift P x y = .ok (I64.wrap (x.val * (2 ^ k : Nat))) :=
      shiftBy_amount hk fun k => I64.wrap (x.val * (2 ^ k : Nat))
    brun [Builtins.twoInts, ha, hb, h]

/-- C69, an arithmetic right shift divides by a power of two, rounding down. -/
theorem C69_rsh (hs : Std env) {f : Str} (hf : f = c!"rsh" ∨ f = c!"a-rsh") {a b : Expr} {x y : I64}
    {k : Nat} (hk : ShiftAmount P y k)
    (ha : evalD P H (bodyRun P H (stdB P L) n) 800 a env w = (.ok (.int x), env1, w1))
    (hb : evalD P H (bodyRun P H (stdB P L) n) 799 b env1 w1 = (.ok (.int y), env2, w2)) :
    ∃ r : I64, (∃ m : Int, x.val = r.val * 2 ^ k + m ∧ 0 ≤ m ∧ m < 2 ^ k) ∧
      evalN P H (stdB P L) (n + 1) (call c!"math" f [a, b]) env w =
        (.ok (.int r), env2, w2) := by
  have hp : (0 : Int) < (2 ^ k : Nat) := by exact_mod_cast Nat.two_pow_pos k
  have hd := Int.mul_ediv_add_emod x.val (2 ^ k : Nat)
  have hm := Int.emod_nonneg x.val (Int.ne_of_gt hp)
  have hl := Int.emod_lt_of_pos x.val hp
  have hw : (I64.wrap (x.val / (2 ^ k : Nat))).val = x.val / (2 ^ k : Nat) := by
    have h1 := x.lo
    have h2 := x.hi
    have h3 : -9223372036854775808 ≤ x.val / (2 ^ k : Nat) := by
      apply Int.le_ediv_of_mul_le hp
      nlinarith
    have h4 : x.val / (2 ^ k : Nat) < 9223372036854775808 := by
      apply Int.ediv_lt_of_lt_mul hp
      nlinarith
    simp only [I64.wrap]
    rw [Int.bmod_eq_of_le (by omega) (by omega)]
  refine ⟨I64.wrap (x.val / (2 ^ k : Nat)), ⟨x.val % (2 ^ k : Nat), ?_, hm, ?_⟩, ?_⟩
  · rw [hw]
    push_cast at hd ⊢
    linarith
  · exact_mod_cast hl
  · have hfun : evalD P H (bodyRun P H (stdB P L) n) 800 (member c!"math" f) env w =
        (.ok (Builtins.curry2 (.builtin c!"a-rsh" .mARsh [])), env, w) := by
      rcases hf with rfl | rfl
      · exact evalD_mem (k := 798) hs (tbl := Init.mathM) (by mem_tac) (by mem_tac)
      · exact evalD_mem (k := 798) hs (tbl := Init.mathM) (by mem_tac) (by mem_tac)
    have h : aRsh P x y = .ok (I64.wrap (x.val / (2 ^ k : Nat))) :=
      shiftBy_amount hk fun k => I64.wrap (x.val / (2 ^ k : Nat))
    rw [evalN_curry2 hfun ha hb]
    brun [Builtins.twoInts, curryArgs, h]

/-- C69, a logical right shift divides the 64 bits, read as an unsigned number, by a power of two. -/
theorem C69_lrsh (hs : Std env) {a b : Expr} {x y : I64}
    {k : Nat} (hk : ShiftAmount P y k)
    (ha : evalD P H (bodyRun P H (stdB P L) n) 800 a env w = (.ok (.int x), env1, w1))
    (hb : evalD P H (bodyRun P H (stdB P L) n) 799 b env1 w1 = (.ok (.int y), env2, w2)) :
    ∃ (r : I64) (u q m : Int), SameBits x.val u ∧ 0 ≤ u ∧ u < 2 ^ 64 ∧ u = q * 2 ^ k + m ∧ 0 ≤ m ∧
      m < 2 ^ k ∧ SameBits r.val q ∧
      evalN P H (stdB P L) (n + 1) (call c!"math" c!"l-rsh" [a, b]) env w =
        (.ok (.int r), env2, w2) := by
  have hp : (0 : Int) < (2 ^ k : Nat) := by exact_mod_cast Nat.two_pow_pos k
  have hd := Int.mul_ediv_add_emod (x.val % 18446744073709551616) (2 ^ k : Nat)
  have hm := Int.emod_nonneg (x.val % 18446744073709551616) (Int.ne_of_gt hp)
  have hl := Int.emod_lt_of_pos (x.val % 18446744073709551616) hp
  refine ⟨I64.wrap ((x.val % 18446744073709551616) / (2 ^ k : Nat)), x.val % 18446744073709551616,
    (x.val % 18446744073709551616) / (2 ^ k : Nat), (x.val % 18446744073709551616) % (2 ^ k : Nat),
    ⟨x.val / 18446744073709551616, by omega⟩, by omega, by omega, ?_, hm, ?_, wrap_bits _, ?_⟩
  · push_cast at hd ⊢
    linarith
  · exact_mod_cast hl
  · have hfun : evalD P H (bodyRun P H (stdB P L) n) 800 (member c!"math" c!"l-rsh") env w =
        (.ok (Builtins.curry2 (.builtin c!"l-rsh" .mLRsh [])), env, w) :=
      evalD_mem (k := 798) hs (tbl := Init.mathM) (by mem_tac) (by mem_tac)
    have h : lRsh P x y = .ok (I64.wrap ((x.val % 18446744073709551616) / (2 ^ k : Nat))) :=
      shiftBy_amount hk fun k => I64.wrap ((x.val % 18446744073709551616) / (2 ^ k : Nat))
    rw [evalN_curry2 hfun ha hb]
    brun [Builtins.twoInts, curryArgs, h]

/-- C69, a shift by a negative amount or by 64 and more crashes a build with overflow checks. -/
theorem C69_shift_crash (hs : Std env) (hP : P.overflowChecks = true) {a b : Expr} {x y : I64}
    (hy : y.val < 0 ∨ 64 ≤ y.val)
    (ha : evalN P H (stdB P L) n a env w = (.ok (.int x), env1, w1))
    (hb : evalN P H (stdB P L) n b env1 w1 = (.ok (.int y), env2, w2)) :
    evalN P H (stdB P L) (n + 1) (call c!"math" c!"lsh" [a, b]) env w = (.panic, env2, w2) := by
  lib hs, Init.mathM
  have h : lShift P x y = .panic :=
    shiftBy_panic hP hy fun k => I64.wrap (x.val * (2 ^ k : Nat))
  brun [Builtins.twoInts, ha, hb, h]

/-- The demonstration platform without overflow checks. -/
def release : Plat := { Demo.plat with overflowChecks := false }

example : StaysIn (· + ·) 0 [1, 2, 3] := by
  intro k hk
  have : k = 0 ∨ k = 1 ∨ k = 2 ∨ k = 3 := by
    simp only [List.length_cons, List.length_nil] at hk
    omega
  rcases this with rfl | rfl | rfl | rfl <;> exact ⟨by decide, by decide⟩
example : (evalN Demo.plat Demo.host (stdB Demo.plat Demo.lib) 2 (call c!"math" c!"sum"
    [.int (.lit 1), .list [.int (.lit 2), .int (.lit 3)]]) Demo.env []).1 = .ok (.int (.lit 6)) := rfl
example : (evalN Demo.plat Demo.host (stdB Demo.plat Demo.lib) 2 (call c!"math" c!"sum"
    [.int .max, .int (.lit 1), .int .min]) Demo.env []).1 = .panic := rfl
example : (evalN release Demo.host (stdB release Demo.lib) 2 (call c!"math" c!"sum"
    [.int .max, .int (.lit 1)]) Demo.env []).1 = .ok (.int .min) := rfl
example : (evalN Demo.plat Demo.host (stdB Demo.plat Demo.lib) 2 (call c!"math" c!"product"
    [.int (.lit 4), .list [.int (.lit 5)]]) Demo.env []).1 = .ok (.int (.lit 20)) := rfl
example : (evalN release Demo.host (stdB release Demo.lib) 2 (call c!"math" c!"product"
    [.int .max, .int (.lit 2)]) Demo.env []).1 = .ok (.int ⟨-2, by decide, by decide⟩) := rfl
example : (evalN Demo.plat Demo.host (stdB Demo.plat Demo.lib) 2 (call c!"math" c!"fact"
    [.int (.lit 5)]) Demo.env []).1 = .ok (.int (.lit 120)) := rfl
example : (evalN Demo.plat Demo.host (stdB Demo.plat Demo.lib) 2 (call c!"math" c!"fact"
    [.int (.lit 21)]) Demo.env []).1 = .panic := rfl
example : (evalN Demo.plat Demo.host (stdB Demo.plat Demo.lib) 2 (call c!"math" c!"abs"
    [.int ⟨-7, by decide, by decide⟩]) Demo.env []).1 = .ok (.int (.lit 7)) := rfl
example : (evalN Demo.plat Demo.host (stdB Demo.plat Demo.lib) 2 (call c!"math" c!"rsh"
    [.int ⟨-7, by decide, by decide⟩, .int (.lit 1)]) Demo.env []).1 =
    .ok (.int ⟨-4, by decide, by decide⟩) := rfl
example : (evalN Demo.plat Demo.host (stdB Demo.plat Demo.lib) 2 (call c!"math" c!"l-rsh"
    [.int (.lit 100), .int (.lit 3)]) Demo.env []).1 = .ok (.int (.lit 12)) := rfl
example : (evalN Demo.plat Demo.host (stdB Demo.plat Demo.lib) 2 (call c!"math" c!"lsh"
    [.int (.lit 3), .int (.lit 4)]) Demo.env []).1 = .ok (.int (.lit 48)) := rfl
example : ShiftAmount release (.lit 65) 1 := .masked 1 rfl (by decide) ⟨1, by decide⟩

end

/-! ### Instances: the hypotheses can be met -/

section

private abbrev minus (n : Nat) (h : n < 100 := by decide) : I64 := ⟨-n, by omega, by omega⟩

private theorem six_values (P : Plat) : Evals (evalN P Demo.host (stdB P Demo.lib) 1)
    [.int (.lit 2), .apply (.symbol c!"+") [.int (.lit 1), .int (.lit 2)]]
    [.int (.lit 2), .int (.lit 3)] Demo.env [] Demo.env [] :=
  .cons rfl (.cons rfl .nil)

private theorem max_values (P : Plat) : Evals (evalN P Demo.host (stdB P Demo.lib) 1)
    [.int .max, .int (.lit 2)] [.int .max, .int (.lit 2)] Demo.env [] Demo.env [] :=
  .cons rfl (.cons rfl .nil)

private theorem six_ints : Ints [.int (.lit 2), .int (.lit 3)] [2, 3] := .int _ (.int _ .nil)

private theorem max_ints : Ints [.int .max, .int (.lit 2)] [I64.max.val, 2] := .int _ (.int _ .nil)

example := C69_sum_exact demo_std six_ints (six_values Demo.plat) (by
  intro k hk
  have : k = 0 ∨ k = 1 ∨ k = 2 := by
    simp only [List.length_cons, List.length_nil] at hk
    omega
  rcases this with rfl | rfl | rfl <;> exact ⟨by decide, by decide⟩)

example := C69_sum_crash demo_std rfl max_ints (max_values Demo.plat)
  (fun h => absurd (h 2 (by decide)) (by unfold Fits; decide))

example := C69_sum_wraps demo_std rfl max_ints (max_values release)

example := C69_product_exact demo_std six_ints (six_values Demo.plat) (by
  intro k hk
  have : k = 0 ∨ k = 1 ∨ k = 2 := by
    simp only [List.length_cons, List.length_nil] at hk
    omega
  rcases this with rfl | rfl | rfl <;> exact ⟨by decide, by decide⟩)

example := C69_product_crash demo_std rfl max_ints (max_values Demo.plat)
  (fun h => absurd (h 2 (by decide)) (by unfold Fits; decide))

example := C69_product_wraps demo_std rfl max_ints (max_values release)

example := C69_sum_float_lost (P := Demo.plat) (H := Demo.host) (L := Demo.lib) (n := 0) (w := [])
  demo_std (a := .float ⟨1⟩) (b := .float ⟨2⟩) rfl rfl rfl

example := C69_fact (P := Demo.plat) (H := Demo.host) (L := Demo.lib) (n := 0) (w := [])
  demo_std (a := .int (.lit 20)) (k := 20) rfl (by decide) rfl

example := C69_fact_crash (P := Demo.plat) (H := Demo.host) (L := Demo.lib) (n := 0) (w := [])
  demo_std rfl (a := .int (.lit 21)) (i := .lit 21) (by decide) rfl

example := C69_fact_wraps (P := release) (H := Demo.host) (L := Demo.lib) (n := 0) (w := [])
  demo_std rfl (a := .int (.lit 21)) (k := 21) rfl rfl

example := C69_fact_zero (P := release) (H := Demo.host) (L := Demo.lib) (n := 0) (w := [])
  demo_std rfl (a := .int (.lit 66)) (i := .lit 66) (by decide) rfl

example := C69_fact_negative (P := release) (H := Demo.host) (L := Demo.lib) (n := 0) (w := [])
  demo_std (a := .int (minus 1)) (i := minus 1) (by decide) rfl

example := C69_abs (P := release) (H := Demo.host) (L := Demo.lib) (n := 0) (w := [])
  demo_std (a := .int (minus 7)) (i := minus 7) (by decide) rfl

example := C69_abs_min (P := release) (H := Demo.host) (L := Demo.lib) (n := 0) (w := [])
  demo_std (a := .int .min) (i := .min) (by decide) rfl

example := C69_lsh (P := release) (H := Demo.host) (L := Demo.lib) (n := 0) (w := [])
  demo_std (a := .int (minus 7)) (b := .int (.lit 65)) (.masked 1 rfl (by decide) ⟨1, by decide⟩) rfl rfl

example := C69_rsh (P := release) (H := Demo.host) (L := Demo.lib) (n := 0) (w := [])
  demo_std (.inl rfl) (a := .int (minus 7)) (b := .int (.lit 65))
  (.masked 1 rfl (by decide) ⟨1, by decide⟩) rfl rfl

example := C69_lrsh (P := release) (H := Demo.host) (L := Demo.lib) (n := 0) (w := [])
  demo_std (a := .int (minus 7)) (b := .int (.lit 65)) (.masked 1 rfl (by decide) ⟨1, by decide⟩) rfl rfl

end

end Dune.Props
