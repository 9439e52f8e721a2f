import Verif.Props.Closures
import Mathlib.Data.Nat.Factorial.Basic

/-! Recursion.  A function cannot call itself by its name (C25), but a macro can, for it runs in the
scope of its caller.  So all calls share one parameter. -/

namespace Dune.Props

open Spec Spec.Calc Calc

namespace Recursion

def num (z : Int) (h : Small z := by decide) : Expr := .int ⟨z, h.1, h.2⟩

/-- `f (n - 1)`, in parentheses -/
def again : Expr :=
  .group (.apply (.symbol c!"f") [.group (infix_ c!"-" (.symbol c!"n") (num 1))])

/-- `if n < 1 { b } else { x }` -/
def body (b x : Expr) : Expr :=
  .ite (infix_ c!"<" (.symbol c!"n") (num 1)) (.do_ [b]) (.group (.do_ [x]))

section

variable {W : Type} {P : Plat} {H : Host W} {L : Lib}

/-- The operators have their meaning and `f` is the macro. -/
structure Good (b x : Expr) (env : Env) : Prop where
  tool : ∀ s, Tool env s
  f : env.get c!"f" = some (.macro_ c!"n" (body b x))

/-- Only `n` has changed. -/
def Frame (env env' : Env) : Prop := ∀ y, y ≠ c!"n" → env'.get y = env.get y

theorem Good.frame {b x : Expr} {env env' : Env} (h : Good b x env) (hf : Frame env env') : Good b x env' where
  tool s := by
    intro v hv
    rw [hf s, h.tool s v hv]
    rintro rfl
    exact absurd hv (not_tool (by decide) v)
  f := by rw [hf _ (by decide), h.f]

theorem frame_define (env : Env) (v : Expr) : Frame env (env.define c!"n" v) := by
  intro y hy
  rw [Env.get_define, if_neg (Ne.symm hy)]

/-- One call: up to the branch. -/
theorem call_step {b x arg : Expr} {env : Env} {w : W} {n k : Nat} {i : I64} (hg : Good b x env)
    (ha : evalD P H (bodyRun P H (stdB P L) n) (k + 7) arg env w = (.ok (.int i), env, w)) :
    evalD P H (bodyRun P H (stdB P L) n) (k + 8) (.apply (.symbol c!"f") [arg]) env w =
      if i.val < 1 then evalD P H (bodyRun P H (stdB P L) n) (k + 5) b (env.define c!"n" (.int i)) w
      else evalD P H (bodyRun P H (stdB P L) n) (k + 4) x (env.define c!"n" (.int i)) w := by
  rw [C26_macro_in_caller (k := k + 7) (evalD_symbol hg.f) ha, body, evalD]
  simp only [evalStep]
  have hg' := hg.frame (frame_define env (.int i))
  have hn : (env.define c!"n" (.int i)).get c!"n" = some (.int i) := by rw [Env.get_define, if_pos rfl]
  obtain ⟨v, hv, he⟩ : Gives isBool (bothCmp .lt (.ok i.val) (.ok 1)) _ (env.define c!"n" (.int i)) w :=
    gives_cmp (P := P) (H := H) (L := L) (n := n) (k := k + 3) .lt (hg'.tool _) (x := .symbol c!"n") (y := num 1)
      ⟨.int i, ⟨i, rfl, rfl⟩, evalN_sym hn⟩ ⟨num 1, ⟨_, rfl, rfl⟩, by rw [num, evalN_int]⟩
  have he : evalD P H (bodyRun P H (stdB P L) n) (k + 6) (infix_ c!"<" (.symbol c!"n") (num 1))
      (env.define c!"n" (.int i)) w = (.ok v, env.define c!"n" (.int i), w) := he
  rw [M.bind_ok he, show v = .bool (decide (i.val < 1)) from hv]
  by_cases h : i.val < 1
  · simp only [h, decide_true, Expr.isTruthy, if_true]
    rw [evalD]
    rfl
  · simp only [h, decide_false, Expr.isTruthy, Bool.false_eq_true, if_false]
    rw [evalD]
    simp only [evalStep]
    rw [evalD]
    rfl

/-- The argument `n - 1`. -/
theorem pred_ok {b x : Expr} {env : Env} {w : W} {n k : Nat} {i : I64} {K : Nat} (hg : Good b x env)
    (hn : env.get c!"n" = some (.int i)) (hi : i.val = (K + 1 : Nat)) :
    ∃ j : I64, j.val = K ∧ evalD P H (bodyRun P H (stdB P L) n) (k + 4)
      (.group (infix_ c!"-" (.symbol c!"n") (num 1))) env w = (.ok (.int j), env, w) := by
  have hs : Small (i.val - 1) := by
    have := i.lo; have := i.hi
    unfold Small
    omega
  have h : Gives isInt (both .sub (.ok i.val) (.ok 1)) _ env w :=
    gives_add (P := P) (H := H) (L := L) (n := n) (k := k) (o := .sub) (by simp) (hg.tool _)
      (x := .symbol c!"n") (y := num 1)
      ⟨.int i, ⟨i, rfl, rfl⟩, evalN_sym hn⟩ ⟨num 1, ⟨_, rfl, rfl⟩, by rw [num, evalN_int]⟩
  rw [show both .sub (.ok i.val) (.ok 1) = .ok (i.val - 1) from if_pos hs] at h
  obtain ⟨v, ⟨j, hj, rfl⟩, he⟩ := h
  refine ⟨j, by omega, ?_⟩
  rw [evalD]
  exact he

/-- `x + y`, where `y` may set variables -/
theorem plus_ok {x y : Expr} {env env1 env2 : Env} {w w1 w2 : W} {n k : Nat} {i j r : I64}
    (ht : Tool env c!"+") (hx : evalN P H (stdB P L) n x env w = (.ok (.int i), env1, w1))
    (hy : evalN P H (stdB P L) n y env1 w1 = (.ok (.int j), env2, w2)) (hr : r.val = i.val + j.val) :
    evalD P H (bodyRun P H (stdB P L) n) (k + 3) (infix_ c!"+" x y) env w = (.ok (.int r), env2, w2) := by
  rw [infix_, evalD]
  simp only [evalStep]
  rw [evalD]
  simp only [evalStep]
  rw [M.bind_ok (evalD_symbol (ht _ (by mem_tac)))]
  simp only [applyValue, bodyRun, stdB, Builtins.addB, Builtins.evArg, Builtins.arg,
    List.getElem?_cons_zero, BProg.run_bind, BProg.run_ret, pure_bind, BProg.run_ev,
    List.tail_cons]
  rw [M.bind_ok hx, opLoop_two (evalN_int _ _ _ _) hy]
  simp only [Expr.add, ofInt_some r hr, Expr.ofChecked, opResult]

/-- `x * y`, where `y` may set variables -/
theorem times_ok {x y : Expr} {env env1 env2 : Env} {w w1 w2 : W} {n k : Nat} {i j r : I64}
    (ht : Tool env c!"*")
    (hx : evalD P H (bodyRun P H (stdB P L) n) (k + 3) x env w = (.ok (.int i), env1, w1))
    (hy : evalD P H (bodyRun P H (stdB P L) n) (k + 2) y env1 w1 = (.ok (.int j), env2, w2))
    (hr : r.val = i.val * j.val) :
    evalD P H (bodyRun P H (stdB P L) n) (k + 5) (infix_ c!"*" x y) env w = (.ok (.int r), env2, w2) := by
  rw [infix_, evalD]
  simp only [evalStep]
  rw [evalD_curry2 (evalD_symbol (ht _ (by mem_tac))) hx hy]
  simp only [bodyRun, stdB, Builtins.mulB, Builtins.evArg, Builtins.arg, List.getElem?_cons_zero,
    BProg.run_bind, BProg.run_ret, pure_bind, BProg.run_ev, List.tail_cons]
  rw [M.bind_ok (evalN_arg0 _ _ _ _ _), opLoop_two (evalN_int _ _ _ _) (evalN_arg1 _ _ _ _ _)]
  simp only [Expr.mul, ofInt_some r hr, Expr.ofChecked, opResult]

theorem i64_ext {i j : I64} (h : i.val = j.val) : i = j := by
  cases i; cases j; cases h; rfl

/-- `n + f (n - 1)` -/
def first : Expr := infix_ c!"+" (.symbol c!"n") again
/-- `f (n - 1) + n` -/
def last : Expr := infix_ c!"+" again (.symbol c!"n")
/-- `n * f (n - 1)` -/
def product : Expr := infix_ c!"*" (.symbol c!"n") again

theorem zero_lit {k : Nat} {n : Nat} {z : Int} {h : Small z} {env : Env} {w : W} :
    evalD P H (bodyRun P H (stdB P L) n) (k + 1) (num z h) env w = (.ok (num z h), env, w) := by
  rw [num, evalD]
  rfl

theorem again_ok {env env' : Env} {w : W} {n k : Nat} {r : Expr}
    (h : evalD P H (bodyRun P H (stdB P L) n) k (.apply (.symbol c!"f")
      [.group (infix_ c!"-" (.symbol c!"n") (num 1))]) env w = (.ok r, env', w)) :
    evalD P H (bodyRun P H (stdB P L) n) (k + 1) again env w = (.ok r, env', w) := by
  rw [again, evalD]
  exact h

theorem Frame.trans {a b c : Env} (h : Frame a b) (h' : Frame b c) : Frame a c := fun y hy => by
  rw [h' y hy, h y hy]

/-- The sum, with the parameter read first. -/
theorem first_ok : ∀ (K : Nat) {arg : Expr} {env : Env} {w : W} {n k : Nat} {i r : I64},
    Good (num 0) first env → i.val = K → r.val = (K * (K + 1) / 2 : Nat) → K ≤ n →
    evalD P H (bodyRun P H (stdB P L) n) (k + 7) arg env w = (.ok (.int i), env, w) →
    ∃ env', evalD P H (bodyRun P H (stdB P L) n) (k + 8) (.apply (.symbol c!"f") [arg]) env w =
      (.ok (.int r), env', w) ∧ Frame env env' ∧ env'.get c!"n" = some (num 0)
  | 0, arg, env, w, n, k, i, r, hg, hi, hr, _, ha => by
    refine ⟨env.define c!"n" (.int i), ?_, frame_define _ _, ?_⟩
    · rw [call_step hg ha, if_pos (by omega), zero_lit, num]
      congr 3
      exact i64_ext (by simpa using hr.symm)
    · rw [Env.get_define, if_pos rfl, num]
      congr 2
      exact i64_ext hi
  | K + 1, arg, env, w, n, k, i, r, hg, hi, hr, hn, ha => by
    obtain ⟨n, rfl⟩ : ∃ m, n = m + 1 := ⟨n - 1, by omega⟩
    have hg' := hg.frame (frame_define env (.int i))
    have hget : (env.define c!"n" (.int i)).get c!"n" = some (.int i) := by rw [Env.get_define, if_pos rfl]
    have e1 : (K + 1) * (K + 1 + 1) / 2 = K * (K + 1) / 2 + (K + 1) := by
      rw [show (K + 1) * (K + 1 + 1) = K * (K + 1) + (K + 1) * 2 by ring,
        Nat.add_mul_div_right _ _ (by decide)]
    have hr' := r.hi
    obtain ⟨j, hj, hp⟩ := pred_ok (P := P) (H := H) (L := L) (w := w) (n := n) (k := 795) hg' hget hi
    obtain ⟨env', h1, h2, h3⟩ := first_ok K (n := n) (k := 792) (w := w)
      (r := ⟨(K * (K + 1) / 2 : Nat), by omega, by omega⟩) hg' hj rfl (by omega) hp
    refine ⟨env', ?_, (frame_define env _).trans h2, h3⟩
    rw [call_step hg ha, if_neg (by omega), first]
    refine plus_ok (k := k + 1) (hg'.tool _) (evalN_sym hget) (?_ : evalN P H (stdB P L) (n + 1) again _ w = _)
      (r := r) (j := ⟨(K * (K + 1) / 2 : Nat), by omega, by omega⟩) (by rw [hr, e1, hi]; push_cast; ring)
    rw [evalN]
    exact again_ok h1

/-- The sum, with the parameter read last. -/
theorem last_ok : ∀ (K : Nat) {arg : Expr} {env : Env} {w : W} {n k : Nat} {i : I64},
    Good (num 0) last env → i.val = K → K ≤ n →
    evalD P H (bodyRun P H (stdB P L) n) (k + 7) arg env w = (.ok (.int i), env, w) →
    ∃ env', evalD P H (bodyRun P H (stdB P L) n) (k + 8) (.apply (.symbol c!"f") [arg]) env w =
      (.ok (num 0), env', w) ∧ Frame env env' ∧ env'.get c!"n" = some (num 0)
  | 0, arg, env, w, n, k, i, hg, hi, _, ha => by
    refine ⟨env.define c!"n" (.int i), ?_, frame_define _ _, ?_⟩
    · rw [call_step hg ha, if_pos (by omega), zero_lit]
    · rw [Env.get_define, if_pos rfl, num]
      congr 2
      exact i64_ext hi
  | K + 1, arg, env, w, n, k, i, hg, hi, hn, ha => by
    obtain ⟨n, rfl⟩ : ∃ m, n = m + 1 := ⟨n - 1, by omega⟩
    have hg' := hg.frame (frame_define env (.int i))
    have hget : (env.define c!"n" (.int i)).get c!"n" = some (.int i) := by rw [Env.get_define, if_pos rfl]
    obtain ⟨j, hj, hp⟩ := pred_ok (P := P) (H := H) (L := L) (w := w) (n := n) (k := 795) hg' hget hi
    obtain ⟨env', h1, h2, h3⟩ := last_ok K (n := n) (k := 792) (w := w) hg' hj (by omega) hp
    refine ⟨env', ?_, (frame_define env _).trans h2, h3⟩
    rw [call_step hg ha, if_neg (by omega), last]
    refine plus_ok (k := k + 1) (hg'.tool _) (?_ : evalN P H (stdB P L) (n + 1) again _ w = _)
      (evalN_sym h3) (i := ⟨0, by decide, by decide⟩) rfl
    rw [evalN]
    exact again_ok (k := 800) h1

/-- The product, with the parameter read first. -/
theorem product_ok : ∀ (K : Nat) {arg : Expr} {env : Env} {w : W} {n k : Nat} {i r : I64},
    Good (num 1) product env → i.val = K → r.val = (K.factorial : Nat) →
    evalD P H (bodyRun P H (stdB P L) n) (8 * K + k + 7) arg env w = (.ok (.int i), env, w) →
    ∃ env', evalD P H (bodyRun P H (stdB P L) n) (8 * K + k + 8) (.apply (.symbol c!"f") [arg]) env w =
      (.ok (.int r), env', w) ∧ Frame env env' ∧ env'.get c!"n" = some (num 0)
  | 0, arg, env, w, n, k, i, r, hg, hi, hr, ha => by
    refine ⟨env.define c!"n" (.int i), ?_, frame_define _ _, ?_⟩
    · rw [call_step hg ha, if_pos (by omega), zero_lit, num]
      congr 3
      exact i64_ext (by simpa using hr.symm)
    · rw [Env.get_define, if_pos rfl, num]
      congr 2
      exact i64_ext hi
  | K + 1, arg, env, w, n, k, i, r, hg, hi, hr, ha => by
    have hg' := hg.frame (frame_define env (.int i))
    have hget : (env.define c!"n" (.int i)).get c!"n" = some (.int i) := by rw [Env.get_define, if_pos rfl]
    have hr' := r.hi
    have e1 : ((K + 1).factorial : Int) = (K + 1 : Nat) * (K.factorial : Int) := by
      rw [Nat.factorial_succ]; push_cast; ring
    have hle : (K.factorial : Int) ≤ ((K + 1).factorial : Int) := by
      exact_mod_cast Nat.factorial_le (Nat.le_succ K)
    obtain ⟨j, hj, hp⟩ := pred_ok (P := P) (H := H) (L := L) (w := w) (n := n) (k := 8 * K + k + 3) hg' hget hi
    obtain ⟨env', h1, h2, h3⟩ := product_ok K (n := n) (k := k) (w := w)
      (r := ⟨(K.factorial : Nat), by omega, by omega⟩) hg' hj rfl hp
    refine ⟨env', ?_, (frame_define env _).trans h2, h3⟩
    have e : 8 * (K + 1) + k = 8 * K + k + 8 := by omega
    rw [e] at ha ⊢
    rw [call_step hg ha, if_neg (by omega), product]
    exact times_ok (k := 8 * K + k + 7) (hg'.tool _) (evalD_symbol hget) (again_ok h1)
      (by rw [hr, e1, hi])

end

end Recursion

open Recursion

section

variable {W : Type} {P : Plat} {H : Host W} {L : Lib} {shown : W → Str}

/-- The text of a program that adds the numbers up to `k` with a recursive macro. -/
def firstText : Str := c!"let f = n ~> if n < 1 { 0 } else { n + (f (n - 1)) }; println (f k)"
/-- The same with the operands exchanged. -/
def lastText : Str := c!"let f = n ~> if n < 1 { 0 } else { (f (n - 1)) + n }; println (f k)"
/-- The same for the product. -/
def productText : Str := c!"let f = n ~> if n < 1 { 1 } else { n * (f (n - 1)) }; println (f k)"

def recProgram (b x : Expr) : Expr :=
  .do_ [.assign c!"f" (.macro_ c!"n" (body b x)),
    .apply (.symbol c!"println") [.group (.apply (.symbol c!"f") [.symbol c!"k"])]]

section
set_option maxRecDepth 100000
set_option maxHeartbeats 4000000
set_option cbv.maxSteps 10000000

theorem first_parse (P : Plat) : parseText P firstText = .ok (recProgram (num 0) first) := by cbv
theorem last_parse (P : Plat) : parseText P lastText = .ok (recProgram (num 0) last) := by cbv
theorem product_parse (P : Plat) : parseText P productText = .ok (recProgram (num 1) product) := by cbv
end

/-- From a call to the program. -/
theorem rec_run {b x : Expr} {env : Env} {w : W} {n : Nat} {i r : I64} (hs : Std env) (hc : Console H shown)
    (hk : env.get c!"k" = some (.int i))
    (h : ∀ env1 : Env, Good b x env1 → env1.get c!"k" = some (.int i) →
      ∃ env', evalN P H (stdB P L) n (.group (.apply (.symbol c!"f") [.symbol c!"k"])) env1 w =
        (.ok (.int r), env', w) ∧ Frame env1 env' ∧ env'.get c!"n" = some (num 0)) :
    ∃ env' w', evalN P H (stdB P L) (n + 1) (recProgram b x) env w = (.ok .none, env', w') ∧
      shown w' = shown w ++ ((toString r.val).toList ++ c!"\n") ∧ env'.get c!"n" = some (num 0) ∧
      ∀ y, y ≠ c!"n" → y ≠ c!"f" → env'.get y = env.get y := by
  have hg : Good b x (env.define c!"f" (.macro_ c!"n" (body b x))) := by
    refine ⟨fun s v hv => ?_, by rw [Env.get_define, if_pos rfl]⟩
    rw [Env.get_define, if_neg, tool_of_std hs s v hv]
    rintro rfl
    exact absurd hv (not_tool (by decide) v)
  obtain ⟨env', h1, h2, h3⟩ := h _ hg (by rw [Env.get_define, if_neg (by decide), hk])
  refine ⟨env', (H.io (.print (display P (.int r) ++ c!"\n")) w).2, ?_, ?_, h3, ?_⟩
  · rw [evalN, recProgram, evalDo_cons, if_neg (by simp)]
    have ha : evalD P H (fun id args => BProg.run H (evalN P H (stdB P L) n) (stdB P L id args)) maxRecursionDepth
        (.assign c!"f" (.macro_ c!"n" (body b x))) env w =
        (.ok .none, env.define c!"f" (.macro_ c!"n" (body b x)), w) := rfl
    rw [M.bind_ok ha, evalDo_cons, if_pos rfl, maxRecursionDepth, evalD]
    simp only [evalStep]
    rw [M.bind_ok (evalD_symbol (hg.tool c!"println" _ (by mem_tac)))]
    simp only [applyValue, stdB, Builtins.printLoop, BProg.run_bind, BProg.run_ev]
    rw [M.bind_ok h1, M.bind_ok (run_out_shown hc _)]
    rfl
  · rw [hc.print]
    simp [display_int, intToStr_toString]
  · intro y hy hy'
    rw [h2 y hy, Env.get_define, if_neg (Ne.symm hy')]

theorem run_of_parse {src : Str} {e : Expr} (h : parseText P src = .ok e) (ev : Expr → M W Expr) (env : Env)
    (w : W) : runText P ev src env w = ev e env w := by
  rw [runText, h]
  rfl

/-- C104: a recursive macro that reads its parameter before it calls itself computes what it says: for
every `K`, the text prints the sum of the numbers up to `K`.  (`n` bounds the native stack.)  Afterwards
the parameter is a variable of the caller, with its last value, and nothing else has changed. -/
theorem C104_first {env : Env} {w : W} {n K : Nat} {i : I64} (hs : Std env) (hc : Console H shown)
    (hk : env.get c!"k" = some (.int i)) (hi : i.val = K) (hK : K * (K + 1) / 2 < 2 ^ 63) (hn : K + 1 ≤ n) :
    ∃ env' w', runText P (evalN P H (stdB P L) (n + 1)) firstText env w = (.ok .none, env', w') ∧
      shown w' = shown w ++ ((toString (K * (K + 1) / 2)).toList ++ c!"\n") ∧
      env'.get c!"n" = some (.int ⟨0, by decide, by decide⟩) ∧
      ∀ y, y ≠ c!"n" → y ≠ c!"f" → env'.get y = env.get y := by
  obtain ⟨n, rfl⟩ : ∃ m, n = m + 1 := ⟨n - 1, by omega⟩
  rw [run_of_parse (first_parse P)]
  refine rec_run (r := ⟨(K * (K + 1) / 2 : Nat), by omega, by omega⟩) hs hc hk fun env1 hg hk1 => ?_
  rw [evalN, evalD]
  simp only [evalStep, maxRecursionDepth]
  exact first_ok K (n := n) (k := 792) hg hi rfl (by omega) (evalD_symbol (k := 798) hk1)

/-- C104: with the operands exchanged the same program prints `0` for every `K`: all calls share the
parameter, and when it is read it has the value from the last call. -/
theorem C104_last {env : Env} {w : W} {n K : Nat} {i : I64} (hs : Std env) (hc : Console H shown)
    (hk : env.get c!"k" = some (.int i)) (hi : i.val = K) (hn : K + 1 ≤ n) :
    ∃ env' w', runText P (evalN P H (stdB P L) (n + 1)) lastText env w = (.ok .none, env', w') ∧
      shown w' = shown w ++ c!"0\n" ∧
      env'.get c!"n" = some (.int ⟨0, by decide, by decide⟩) ∧
      ∀ y, y ≠ c!"n" → y ≠ c!"f" → env'.get y = env.get y := by
  obtain ⟨n, rfl⟩ : ∃ m, n = m + 1 := ⟨n - 1, by omega⟩
  rw [run_of_parse (last_parse P)]
  refine rec_run (r := ⟨0, by decide, by decide⟩) hs hc hk fun env1 hg hk1 => ?_
  rw [evalN, evalD]
  simp only [evalStep, maxRecursionDepth]
  exact last_ok K (n := n) (k := 792) hg hi (by omega) (evalD_symbol (k := 798) hk1)

/-- C104: products count against the recursion limit, for `*` is a function and not a builtin; all
factorials that fit into 64 bits are within the limit, and are computed exactly. -/
theorem C104_factorial {env : Env} {w : W} {n K : Nat} {i : I64} (hs : Std env) (hc : Console H shown)
    (hk : env.get c!"k" = some (.int i)) (hi : i.val = K) (hK : K.factorial < 2 ^ 63) :
    ∃ env' w', runText P (evalN P H (stdB P L) (n + 2)) productText env w = (.ok .none, env', w') ∧
      shown w' = shown w ++ ((toString K.factorial).toList ++ c!"\n") ∧
      env'.get c!"n" = some (.int ⟨0, by decide, by decide⟩) ∧
      ∀ y, y ≠ c!"n" → y ≠ c!"f" → env'.get y = env.get y := by
  have hle : K ≤ 20 := by
    apply Classical.byContradiction
    intro h
    have h1 := Nat.factorial_le (show 21 ≤ K by omega)
    have h2 : Nat.factorial 21 ≥ 2 ^ 63 := by decide +kernel
    omega
  rw [run_of_parse (product_parse P)]
  refine rec_run (r := ⟨(K.factorial : Nat), by omega, by omega⟩) hs hc hk fun env1 hg hk1 => ?_
  rw [evalN, evalD]
  simp only [evalStep, maxRecursionDepth]
  have := product_ok (P := P) (H := H) (L := L) (w := w) K (n := n) (k := 792 - 8 * K) (arg := .symbol c!"k")
    (r := ⟨(K.factorial : Nat), by omega, by omega⟩) hg hi rfl (evalD_symbol hk1)
  rw [show 8 * K + (792 - 8 * K) + 8 = 800 by omega] at this
  exact this

/-- the hypotheses can be met, for every number -/
example (i : I64) : Std (Demo.env.define c!"k" (.int i)) ∧
    (Demo.env.define c!"k" (.int i)).get c!"k" = some (.int i) :=
  ⟨std_define demo_std (by decide) (by decide) (by decide), by rw [Env.get_define, if_pos rfl]⟩

example : Nat.factorial 20 < 2 ^ 63 := by decide +kernel

example : 4294967295 * (4294967295 + 1) / 2 < 2 ^ 63 := by decide

end

/-! ### Instances: the hypotheses can be met -/

example := C104_first (P := Demo.plat) (L := Demo.lib) (w := []) (n := 5000000000) (K := 4294967295)
  (i := ⟨4294967295, by decide, by decide⟩) (env := Demo.env.define c!"k" (.int ⟨4294967295, by decide, by decide⟩))
  (std_define demo_std (by decide) (by decide) (by decide)) demo_console
  (by rw [Env.get_define, if_pos rfl]) rfl (by decide) (by decide)

example := C104_last (P := Demo.plat) (L := Demo.lib) (w := []) (n := 5000000000) (K := 4294967295)
  (i := ⟨4294967295, by decide, by decide⟩) (env := Demo.env.define c!"k" (.int ⟨4294967295, by decide, by decide⟩))
  (std_define demo_std (by decide) (by decide) (by decide)) demo_console
  (by rw [Env.get_define, if_pos rfl]) rfl (by decide)

end Dune.Props
