import Verif.Proof.Program

/-!
A calculus for evaluations that end with a value and do not touch the outside world.  `Run d env e v env'`
says that evaluating `e` in `env` gives `v` and leaves `env'` as soon as `d` levels of nesting and of the
native stack are left.
-/

namespace Dune

open Spec Props Props.Calc

section

variable {W : Type}

/-- Evaluating `e` gives `v` and leaves `env'`; the world is not touched. -/
def Run (H : Host W) (P : Plat) (L : Lib) (d : Nat) (env : Env) (e v : Expr) (env' : Env) : Prop :=
  ∀ (n k : Nat) (w : W), d ≤ n → d ≤ k →
    evalD P H (bodyRun P H (stdB P L) n) k e env w = (.ok v, env', w)

/-- Evaluating `e` gives `v` and changes nothing. -/
abbrev Yields (H : Host W) (P : Plat) (L : Lib) (d : Nat) (env : Env) (e v : Expr) : Prop :=
  Run H P L d env e v env

/-- The same for the statements of a block. -/
def RunDo (H : Host W) (P : Plat) (L : Lib) (d : Nat) (env : Env) (es : List Expr) (v : Expr) (env' : Env) :
    Prop :=
  ∀ (n k : Nat) (w : W), d ≤ n → d ≤ k →
    evalDo (evalD P H (bodyRun P H (stdB P L) n) k) es env w = (.ok v, env', w)

/-- The same for the turns of a loop. -/
def RunFor (H : Host W) (P : Plat) (L : Lib) (d : Nat) (env : Env) (x : Str) (body : Expr) (items vs : List Expr)
    (env' : Env) : Prop :=
  ∀ (n k : Nat) (w : W), d ≤ n → d ≤ k →
    forLoop (evalD P H (bodyRun P H (stdB P L) n) k) x body items env w = (.ok vs, env', w)

variable {H : Host W} {P : Plat} {L : Lib} {d d1 d2 : Nat} {env env1 env2 : Env}

theorem Run.mono {e v : Expr} (h : Run H P L d env e v env1) (hd : d ≤ d1) : Run H P L d1 env e v env1 :=
  fun n k w hn hk => h n k w (by omega) (by omega)

theorem RunDo.mono {es : List Expr} {v : Expr} (h : RunDo H P L d env es v env1) (hd : d ≤ d1) :
    RunDo H P L d1 env es v env1 :=
  fun n k w hn hk => h n k w (by omega) (by omega)

theorem pos_succ {d k : Nat} (h : d + 1 ≤ k) : ∃ j, k = j + 1 ∧ d ≤ j := ⟨k - 1, by omega, by omega⟩

/-- what a builtin sees -/
theorem Run.evalN {e v : Expr} (h : Run H P L d env e v env1) {n : Nat} (hn : d + 1 ≤ n) (hd : d ≤ 801) (w : W) :
    Dune.evalN P H (stdB P L) n e env w = (.ok v, env1, w) := by
  obtain ⟨m, rfl, hm⟩ := pos_succ hn
  rw [Dune.evalN]
  exact h m 801 w hm hd

theorem yields_int (i : I64) : Yields H P L 1 env (.int i) (.int i) := by
  intro n k w _ hk
  obtain ⟨k, rfl, -⟩ := pos_succ hk
  rfl

theorem yields_float (f : F64) : Yields H P L 1 env (.float f) (.float f) := by
  intro n k w _ hk
  obtain ⟨k, rfl, -⟩ := pos_succ hk
  rfl

theorem yields_str (s : Str) : Yields H P L 1 env (.str s) (.str s) := by
  intro n k w _ hk
  obtain ⟨k, rfl, -⟩ := pos_succ hk
  rfl

theorem yields_bool (b : Bool) : Yields H P L 1 env (.bool b) (.bool b) := by
  intro n k w _ hk
  obtain ⟨k, rfl, -⟩ := pos_succ hk
  rfl

theorem yields_none : Yields H P L 1 env .none .none := by
  intro n k w _ hk
  obtain ⟨k, rfl, -⟩ := pos_succ hk
  rfl

theorem yields_symbol {x : Str} {v : Expr} (h : env.get x = some v) : Yields H P L 1 env (.symbol x) v := by
  intro n k w _ hk
  obtain ⟨k, rfl, -⟩ := pos_succ hk
  exact evalD_symbol h

theorem Run.group {e v : Expr} (h : Run H P L d env e v env1) : Run H P L (d + 1) env (.group e) v env1 := by
  intro n k w hn hk
  obtain ⟨k, rfl, hk⟩ := pos_succ hk
  rw [evalD]
  exact h n k w (by omega) (by omega)

theorem Run.assign {e v : Expr} {x : Str} (h : Run H P L d env e v env1) :
    Run H P L (d + 1) env (.assign x e) .none (env1.define x v) := by
  intro n k w hn hk
  obtain ⟨k, rfl, hk⟩ := pos_succ hk
  rw [evalD]
  simp only [evalStep]
  rw [M.bind_ok (h n k w (by omega) (by omega))]
  rfl

theorem Run.last {e v : Expr} (h : Run H P L d env e v env1) : RunDo H P L d env [e] v env1 :=
  fun n k w hn hk => h n k w hn hk

theorem Run.then_ {e e' v v' : Expr} {es : List Expr} (h : Run H P L d env e v env1)
    (h' : RunDo H P L d1 env1 (e' :: es) v' env2) : RunDo H P L (max d d1) env (e :: e' :: es) v' env2 := by
  intro n k w hn hk
  rw [evalDo]
  rw [M.bind_ok (h n k w (by omega) (by omega))]
  exact h' n k w (by omega) (by omega)

theorem RunDo.block {es : List Expr} {v : Expr} (h : RunDo H P L d env es v env1) :
    Run H P L (d + 1) env (.do_ es) v env1 := by
  intro n k w hn hk
  obtain ⟨k, rfl, hk⟩ := pos_succ hk
  rw [evalD]
  exact h n k w (by omega) (by omega)

theorem Run.ite {c t e vc v : Expr} (h : Run H P L d env c vc env1)
    (h' : Run H P L d1 env1 (if vc.isTruthy then t else e) v env2) :
    Run H P L (max d d1 + 1) env (.ite c t e) v env2 := by
  intro n k w hn hk
  obtain ⟨k, rfl, hk⟩ := pos_succ hk
  rw [evalD]
  simp only [evalStep]
  rw [M.bind_ok (h n k w (by omega) (by omega))]
  have := h' n k w (by omega) (by omega)
  cases hc : vc.isTruthy
  · simpa [hc] using this
  · simpa [hc] using this

/-- a condition that is a comparison -/
theorem Run.iteB {c t e v : Expr} {p : Prop} [Decidable p] (h : Run H P L d env c (.bool (decide p)) env1)
    (ht : p → Run H P L d1 env1 t v env2) (he : ¬ p → Run H P L d1 env1 e v env2) :
    Run H P L (max d d1 + 1) env (.ite c t e) v env2 := by
  refine h.ite ?_
  by_cases hp : p
  · simpa [Expr.isTruthy, hp] using ht hp
  · simpa [Expr.isTruthy, hp] using he hp

theorem RunFor.nil {x : Str} {body : Expr} : RunFor H P L 0 env x body [] [] env := fun _ _ _ _ _ => rfl

theorem RunFor.cons {x : Str} {body a v : Expr} {as vs : List Expr} (h : Run H P L d (env.define x a) body v env1)
    (h' : RunFor H P L d env1 x body as vs env2) : RunFor H P L d env x body (a :: as) (v :: vs) env2 := by
  intro n k w hn hk
  rw [forLoop]
  show (evalD P H (bodyRun P H (stdB P L) n) k body >>= _) (env.define x a) w = _
  rw [M.bind_ok (h n k w (by omega) (by omega))]
  rw [M.bind_ok (h' n k w (by omega) (by omega))]
  rfl

theorem Run.for_ {x : Str} {l body : Expr} {as vs : List Expr} (h : Run H P L d env l (.list as) env1)
    (h' : RunFor H P L d1 env1 x body as vs env2) :
    Run H P L (max d d1 + 1) env (.for_ x l body) (.list vs) env2 := by
  intro n k w hn hk
  obtain ⟨k, rfl, hk⟩ := pos_succ hk
  rw [evalD]
  simp only [evalStep]
  rw [M.bind_ok (h n k w (by omega) (by omega))]
  show (forLoop (evalD P H (bodyRun P H (stdB P L) n) k) x body as >>= _) env1 w = _
  rw [M.bind_ok (h' n k w (by omega) (by omega))]
  rfl

/-! ### Builtins -/

theorem yields_builtin1 {f nm hlp : Str} {id : BId} {x a r : Expr} (hf : env.get f = some (.builtin nm id hlp))
    (hx : Yields H P L d env x a)
    (hB : ∀ (ev0 : Expr → M W Expr) (w : W), ev0 x env w = (.ok a, env, w) →
      (stdB P L id [x]).run H ev0 env w = (.ok r, env, w)) (hd : d ≤ 801) :
    Yields H P L (d + 2) env (.apply (.symbol f) [x]) r := by
  intro n k w hn hk
  obtain ⟨k, rfl⟩ : ∃ j, k = j + 2 := ⟨k - 2, by omega⟩
  rw [evalD]
  simp only [evalStep]
  rw [M.bind_ok (evalD_symbol hf)]
  exact hB _ w (hx.evalN (by omega) hd w)

theorem yields_builtin2 {f nm hlp : Str} {id : BId} {x y a b r : Expr}
    (hf : env.get f = some (.builtin nm id hlp))
    (hx : Yields H P L d1 env x a) (hy : Yields H P L d2 env y b) (ha : Yields H P L 1 env a a)
    (hB : ∀ (ev0 : Expr → M W Expr), (∀ w, ev0 x env w = (.ok a, env, w)) → (∀ w, ev0 y env w = (.ok b, env, w)) →
      (∀ w, ev0 a env w = (.ok a, env, w)) → ∀ w, (stdB P L id [x, y]).run H ev0 env w = (.ok r, env, w))
    (hd : max d1 d2 ≤ 800) :
    Yields H P L (max d1 d2 + 2) env (.apply (.symbol f) [x, y]) r := by
  intro n k w hn hk
  obtain ⟨k, rfl⟩ : ∃ j, k = j + 2 := ⟨k - 2, by omega⟩
  rw [evalD]
  simp only [evalStep]
  rw [M.bind_ok (evalD_symbol hf)]
  exact hB _ (fun w => hx.evalN (by omega) (by omega) w) (fun w => hy.evalN (by omega) (by omega) w)
    (fun w => ha.evalN (by omega) (by omega) w) w

/-- curried operators -/
theorem yields_curried {f nm hlp : Str} {id : BId} {x y a b r : Expr}
    (hf : env.get f = some (Builtins.curry2 (.builtin nm id hlp)))
    (hx : Yields H P L d1 env x a) (hy : Yields H P L d2 env y b) (ha : ∀ env, Yields H P L 1 env a a)
    (hB : ∀ (ev0 : Expr → M W Expr) (env : Env), (∀ w, ev0 (.symbol c!"arg0") env w = (.ok a, env, w)) →
      (∀ w, ev0 (.symbol c!"arg1") env w = (.ok b, env, w)) →
      (∀ w, ev0 a env w = (.ok a, env, w)) → ∀ w, (stdB P L id curryArgs).run H ev0 env w = (.ok r, env, w)) :
    Yields H P L (max d1 d2 + 4) env (.apply (.symbol f) [x, y]) r := by
  intro n k w hn hk
  obtain ⟨k, rfl⟩ : ∃ j, k = j + 4 := ⟨k - 4, by omega⟩
  rw [evalD_curry2 (evalD_symbol hf) (hx n (k + 3) w (by omega) (by omega)) (hy n (k + 2) w (by omega) (by omega))]
  rw [bodyRun, hB (evalN P H (stdB P L) n) (curryCallEnv env.getCwd a b) (fun w => evalN_arg0 ..)
    (fun w => evalN_arg1 ..) (fun w => (ha _).evalN (by omega) (by omega) w)]

/-! ### The operators -/

/-- `e` is an integer expression -/
def YieldsInt (H : Host W) (P : Plat) (L : Lib) (d : Nat) (env : Env) (e : Expr) (z : Int) : Prop :=
  ∃ i : I64, i.val = z ∧ Yields H P L d env e (.int i)

theorem YieldsInt.mono {e : Expr} {z : Int} (h : YieldsInt H P L d env e z) (hd : d ≤ d1) :
    YieldsInt H P L d1 env e z := let ⟨i, hi, h⟩ := h; ⟨i, hi, h.mono hd⟩

theorem YieldsInt.group {e : Expr} {z : Int} (h : YieldsInt H P L d env e z) :
    YieldsInt H P L (d + 1) env (.group e) z := let ⟨i, hi, h⟩ := h; ⟨i, hi, h.group⟩

theorem yieldsInt_lit (i : I64) : YieldsInt H P L 1 env (.int i) i.val := ⟨i, rfl, yields_int i⟩

theorem yieldsInt_num (z : Nat) (h : (z : Int) < 9223372036854775808 := by decide) :
    YieldsInt H P L 1 env (.int (I64.lit z h)) z :=
  ⟨_, rfl, yields_int _⟩

theorem yieldsInt_symbol {x : Str} {i : I64} (h : env.get x = some (.int i)) :
    YieldsInt H P L 1 env (.symbol x) i.val := ⟨i, rfl, yields_symbol h⟩

theorem i64_eq (i j : I64) : i = j ↔ i.val = j.val :=
  ⟨fun h => h ▸ rfl, fun h => by cases i; cases j; simp_all⟩

theorem usize_nonneg {i : I64} (h : 0 ≤ i.val) : i.asUsize = i.val.toNat := by
  have := i.lo; have := i.hi
  unfold I64.asUsize; omega

theorem small_ofInt {z : Int} (h : -9223372036854775808 ≤ z ∧ z < 9223372036854775808) :
    I64.ofInt? z = some ⟨z, h.1, h.2⟩ := by
  rw [I64.ofInt?, dif_pos h]

theorem YieldsInt.add {x y : Expr} {a b : Int} (hf : env.get c!"+" = some (.builtin c!"+" .add []))
    (hx : YieldsInt H P L d1 env x a) (hy : YieldsInt H P L d2 env y b) (hd : max d1 d2 ≤ 800)
    (hz : -9223372036854775808 ≤ a + b ∧ a + b < 9223372036854775808) :
    YieldsInt H P L (max d1 d2 + 3) env (infix_ c!"+" x y) (a + b) := by
  obtain ⟨i, rfl, hx⟩ := hx
  obtain ⟨j, rfl, hy⟩ := hy
  refine ⟨⟨_, hz.1, hz.2⟩, rfl, Run.group (yields_builtin2 hf hx hy (yields_int i) ?_ hd)⟩
  intro ev0 h1 h2 h3 w
  simp only [stdB, Builtins.addB, Builtins.evArg, Builtins.arg,
        List.getElem?_cons_zero, BProg.run_bind, BProg.run_ret, pure_bind, BProg.run_ev, List.tail_cons]
  rw [M.bind_ok (h1 w), opLoop_two (h3 w) (h2 w)]
  simp only [Expr.add, small_ofInt hz, Expr.ofChecked, opResult]

theorem YieldsInt.sub {x y : Expr} {a b : Int} (hf : env.get c!"-" = some (.builtin c!"-" .sub []))
    (hx : YieldsInt H P L d1 env x a) (hy : YieldsInt H P L d2 env y b) (hd : max d1 d2 ≤ 800)
    (hz : -9223372036854775808 ≤ a - b ∧ a - b < 9223372036854775808) :
    YieldsInt H P L (max d1 d2 + 3) env (infix_ c!"-" x y) (a - b) := by
  obtain ⟨i, rfl, hx⟩ := hx
  obtain ⟨j, rfl, hy⟩ := hy
  refine ⟨⟨_, hz.1, hz.2⟩, rfl, Run.group (yields_builtin2 hf hx hy (yields_int i) ?_ hd)⟩
  intro ev0 h1 h2 h3 w
  simp only [stdB, Builtins.subB, Builtins.evArg, Builtins.arg,
        List.getElem?_cons_zero, BProg.run_bind, BProg.run_ret, pure_bind, BProg.run_ev, List.tail_cons]
  rw [M.bind_ok (h1 w), opLoop_two (h3 w) (h2 w)]
  simp only [Expr.sub, small_ofInt hz, Expr.ofChecked, opResult]

theorem yields_concat {x y : Expr} {a b : Str} (hf : env.get c!"+" = some (.builtin c!"+" .add []))
    (hx : Yields H P L d1 env x (.str a)) (hy : Yields H P L d2 env y (.str b)) (hd : max d1 d2 ≤ 800) :
    Yields H P L (max d1 d2 + 3) env (infix_ c!"+" x y) (.str (a ++ b)) := by
  refine Run.group (yields_builtin2 hf hx hy (yields_str a) ?_ hd)
  intro ev0 h1 h2 h3 w
  simp only [stdB, Builtins.addB, Builtins.evArg, Builtins.arg,
        List.getElem?_cons_zero, BProg.run_bind, BProg.run_ret, pure_bind, BProg.run_ev, List.tail_cons]
  rw [M.bind_ok (h1 w), opLoop_two (h3 w) (h2 w)]
  simp only [Expr.add, opResult]

/-- remainder by a positive number -/
theorem YieldsInt.rem {x y : Expr} {a b : Int}
    (hf : env.get c!"%" = some (Builtins.curry2 (.builtin c!"%" .rem [])))
    (hx : YieldsInt H P L d1 env x a) (hy : YieldsInt H P L d2 env y b) (hb : 0 < b) :
    YieldsInt H P L (max d1 d2 + 5) env (infix_ c!"%" x y) (a.tmod b) := by
  obtain ⟨i, rfl, hx⟩ := hx
  obtain ⟨j, rfl, hy⟩ := hy
  have h0 : j.val ≠ 0 := by omega
  obtain ⟨r, hr, hr'⟩ := rem_fits i h0
  refine ⟨r, hr, Run.group (yields_curried hf hx hy (fun _ => yields_int i) ?_)⟩
  intro ev0 env h1 h2 h3 w
  simp only [stdB, Builtins.remB, Builtins.evArg, Builtins.arg,
        List.getElem?_cons_zero, BProg.run_bind, BProg.run_ret, pure_bind, BProg.run_ev, List.tail_cons]
  rw [M.bind_ok (h1 w), opLoop_two (h3 w) (h2 w)]
  have hq := quot_overflow i j h0
  cases hq' : I64.ofInt? (i.val.tdiv j.val) with
  | none => have := (hq.mp hq').2; omega
  | some q => simp only [Expr.rem, h0, if_false, hq', hr', opResult]

theorem YieldsInt.div {x y : Expr} {a b : Int}
    (hf : env.get c!"//" = some (Builtins.curry2 (.builtin c!"//" .div [])))
    (hx : YieldsInt H P L d1 env x a) (hy : YieldsInt H P L d2 env y b) (hb : 0 < b) :
    YieldsInt H P L (max d1 d2 + 5) env (infix_ c!"//" x y) (a.tdiv b) := by
  obtain ⟨i, rfl, hx⟩ := hx
  obtain ⟨j, rfl, hy⟩ := hy
  have h0 : j.val ≠ 0 := by omega
  have hq := quot_overflow i j h0
  cases hq' : I64.ofInt? (i.val.tdiv j.val) with
  | none => have := (hq.mp hq').2; omega
  | some q =>
    have hv : q.val = i.val.tdiv j.val := by
      unfold I64.ofInt? at hq'
      split at hq'
      · cases hq'; rfl
      · cases hq'
    refine ⟨q, hv, Run.group (yields_curried hf hx hy (fun _ => yields_int i) ?_)⟩
    intro ev0 env h1 h2 h3 w
    simp only [stdB, Builtins.divB, Builtins.evArg, Builtins.arg,
          List.getElem?_cons_zero, BProg.run_bind, BProg.run_ret, pure_bind, BProg.run_ev, List.tail_cons]
    rw [M.bind_ok (h1 w), opLoop_two (h3 w) (h2 w)]
    simp only [Expr.div, Expr.checkedDiv, h0, if_false, hq', Expr.ofChecked, opResult]

/-- an integer divided by a float -/
theorem yields_divf {x y : Expr} {i : I64} {g : F64}
    (hf : env.get c!"//" = some (Builtins.curry2 (.builtin c!"//" .div [])))
    (hx : Yields H P L d1 env x (.int i)) (hy : Yields H P L d2 env y (.float g)) :
    Yields H P L (max d1 d2 + 5) env (infix_ c!"//" x y) (.float (P.fDiv (P.fOfInt i) g)) := by
  refine Run.group (yields_curried hf hx hy (fun _ => yields_int i) ?_)
  intro ev0 env h1 h2 h3 w
  simp only [stdB, Builtins.divB, Builtins.evArg, Builtins.arg,
        List.getElem?_cons_zero, BProg.run_bind, BProg.run_ret, pure_bind, BProg.run_ev, List.tail_cons]
  rw [M.bind_ok (h1 w), opLoop_two (h3 w) (h2 w)]
  simp only [Expr.div, opResult]

/-- copies of a text -/
theorem yields_repeat {x y : Expr} {s : Str} {z : Int}
    (hf : env.get c!"*" = some (Builtins.curry2 (.builtin c!"*" .mul [])))
    (hx : Yields H P L d1 env x (.str s)) (hy : YieldsInt H P L d2 env y z) (h0 : 0 ≤ z)
    (hz : utf8Len s * z.toNat < 9223372036854775808) :
    Yields H P L (max d1 d2 + 5) env (infix_ c!"*" x y) (.str (Expr.replicateList s z.toNat)) := by
  obtain ⟨i, rfl, hy⟩ := hy
  refine Run.group (yields_curried hf hx hy (fun _ => yields_str s) ?_)
  intro ev0 env h1 h2 h3 w
  simp only [stdB, Builtins.mulB, Builtins.evArg, Builtins.arg,
        List.getElem?_cons_zero, BProg.run_bind, BProg.run_ret, pure_bind, BProg.run_ev, List.tail_cons]
  rw [M.bind_ok (h1 w), opLoop_two (h3 w) (h2 w)]
  have hu : i.asUsize = i.val.toNat := usize_nonneg (by assumption)
  have hn : ∀ n, Expr.replicateList ([] : Str) n = [] := by
    intro n
    induction n with
    | zero => rfl
    | succ n ih => simpa [Expr.replicateList] using ih
  by_cases hs : s = []
  · subst hs
    simp [Expr.mul, Expr.repeatStr, hu, opResult, hn, utf8Len]
  · simp only [Expr.mul, Expr.repeatStr, hu, if_pos hz, if_neg hs, opResult]

theorem compare_lt (a b : Int) : (compare a b = .lt) ↔ a < b := by
  simp [compare, compareOfLessAndEq]; split <;> simp_all

theorem yields_lt {x y : Expr} {a b : Int} (hf : env.get c!"<" = some (.builtin c!"<" .lt []))
    (hx : YieldsInt H P L d1 env x a) (hy : YieldsInt H P L d2 env y b) (hd : max d1 d2 ≤ 800) :
    Yields H P L (max d1 d2 + 3) env (infix_ c!"<" x y) (.bool (decide (a < b))) := by
  obtain ⟨i, rfl, hx⟩ := hx
  obtain ⟨j, rfl, hy⟩ := hy
  refine Run.group (yields_builtin2 hf hx hy (yields_int i) ?_ hd)
  intro ev0 h1 h2 h3 w
  simp only [stdB, Builtins.cmpB, Builtins.evArg, Builtins.arg, List.getElem?_cons_succ,
        List.getElem?_cons_zero, BProg.run_bind, BProg.run_ret, pure_bind, BProg.run_ev]
  rw [M.bind_ok (h1 w), M.bind_ok (h2 w)]
  simp [Builtins.ltE, Expr.partialCmp, compare_lt]

theorem yields_eq {x y : Expr} {a b : Int} (hf : env.get c!"==" = some (.builtin c!"==" .eq []))
    (hx : YieldsInt H P L d1 env x a) (hy : YieldsInt H P L d2 env y b) (hd : max d1 d2 ≤ 800) :
    Yields H P L (max d1 d2 + 3) env (infix_ c!"==" x y) (.bool (decide (a = b))) := by
  obtain ⟨i, rfl, hx⟩ := hx
  obtain ⟨j, rfl, hy⟩ := hy
  refine Run.group (yields_builtin2 hf hx hy (yields_int i) ?_ hd)
  intro ev0 h1 h2 h3 w
  simp only [stdB, Builtins.cmpB, Builtins.evArg, Builtins.arg, List.getElem?_cons_succ,
        List.getElem?_cons_zero, BProg.run_bind, BProg.run_ret, pure_bind, BProg.run_ev]
  rw [M.bind_ok (h1 w), M.bind_ok (h2 w)]
  simp [Expr.beq, i64_eq]

theorem yields_ne {x y : Expr} {a b : Int} (hf : env.get c!"!=" = some (.builtin c!"!=" .ne []))
    (hx : YieldsInt H P L d1 env x a) (hy : YieldsInt H P L d2 env y b) (hd : max d1 d2 ≤ 800) :
    Yields H P L (max d1 d2 + 3) env (infix_ c!"!=" x y) (.bool (decide (a ≠ b))) := by
  obtain ⟨i, rfl, hx⟩ := hx
  obtain ⟨j, rfl, hy⟩ := hy
  refine Run.group (yields_builtin2 hf hx hy (yields_int i) ?_ hd)
  intro ev0 h1 h2 h3 w
  simp only [stdB, Builtins.cmpB, Builtins.evArg, Builtins.arg, List.getElem?_cons_succ,
        List.getElem?_cons_zero, BProg.run_bind, BProg.run_ret, pure_bind, BProg.run_ev]
  rw [M.bind_ok (h1 w), M.bind_ok (h2 w)]
  simp [Expr.beq, i64_eq]

theorem yields_and {x y : Expr} {p q : Bool} (hf : env.get c!"&&" = some (.builtin c!"&&" .and []))
    (hx : Yields H P L d1 env x (.bool p)) (hy : Yields H P L d2 env y (.bool q)) (hd : max d1 d2 ≤ 800) :
    Yields H P L (max d1 d2 + 3) env (infix_ c!"&&" x y) (.bool (p && q)) := by
  refine Run.group (yields_builtin2 hf hx hy (yields_bool p) ?_ hd)
  intro ev0 h1 h2 h3 w
  simp only [stdB, Builtins.andB, Builtins.evAll, BProg.run_bind, BProg.run_ret, BProg.run_ev, pure_bind]
  rw [M.bind_ok (M.bind_ok (h1 w) |>.trans (M.bind_ok (M.bind_ok (h2 w) |>.trans rfl)))]
  simp [Expr.isTruthy]

theorem yields_andP {x y : Expr} {p q : Prop} [Decidable p] [Decidable q]
    (hf : env.get c!"&&" = some (.builtin c!"&&" .and []))
    (hx : Yields H P L d1 env x (.bool (decide p))) (hy : Yields H P L d2 env y (.bool (decide q)))
    (hd : max d1 d2 ≤ 800) :
    Yields H P L (max d1 d2 + 3) env (infix_ c!"&&" x y) (.bool (decide (p ∧ q))) := by
  rw [Bool.decide_and]
  exact yields_and hf hx hy hd

/-- `int` of a float -/
theorem YieldsInt.ofFloat {x : Expr} {g : F64} (hf : env.get c!"int" = some (.builtin c!"int" .int []))
    (hx : Yields H P L d env x (.float g)) (hd : d ≤ 801) :
    YieldsInt H P L (d + 2) env (.apply (.symbol c!"int") [x]) (P.fToInt g).val := by
  refine ⟨_, rfl, yields_builtin1 hf hx ?_ hd⟩
  intro ev0 w h
  simp only [stdB, Builtins.intB, Builtins.evArg, Builtins.arg, List.getElem?_cons_zero, BProg.run_bind,
    BProg.run_ret, pure_bind, BProg.run_ev]
  rw [M.bind_ok h]
  rfl

theorem yields_show {x v : Expr} (hf : env.get c!"str" = some (.builtin c!"str" .str []))
    (hx : Yields H P L d env x v) (hd : d ≤ 801) :
    Yields H P L (d + 2) env (.apply (.symbol c!"str") [x]) (.str (display P v)) := by
  refine yields_builtin1 hf hx ?_ hd
  intro ev0 w h
  simp only [stdB, Builtins.strB, Builtins.evArg, Builtins.arg, List.getElem?_cons_zero, BProg.run_bind,
    BProg.run_ret, pure_bind, BProg.run_ev]
  rw [M.bind_ok h]
  rfl

/-- `len` of a text (below 2^63 characters) -/
theorem YieldsInt.len {x : Expr} {s : Str} (hf : env.get c!"len" = some (.builtin c!"len" .len []))
    (hx : Yields H P L d env x (.str s)) (hd : d ≤ 801) (hs : s.length < 9223372036854775808) :
    YieldsInt H P L (d + 2) env (.apply (.symbol c!"len") [x]) s.length := by
  refine ⟨I64.wrap s.length, ?_, yields_builtin1 hf hx ?_ hd⟩
  · simp only [I64.wrap]; exact Int.bmod_eq_of_le (by omega) (by omega)
  intro ev0 w h
  simp only [stdB, Builtins.lenB, Builtins.evArg, Builtins.arg, List.getElem?_cons_zero, BProg.run_bind,
    BProg.run_ret, pure_bind, BProg.run_ev]
  rw [M.bind_ok h]
  rfl

/-- `m@k` of a dictionary, `l@(i)` of a list -/
theorem yields_member {x : Expr} {f : Str} {mod : List (Str × Expr)} {v : Expr}
    (hf : env.get c!"@" = some (.builtin c!"@" .index []))
    (hx : Yields H P L d env x (.map mod)) (hd : d ≤ 800) (hv : BMap.get? mod f = some v) :
    Yields H P L (d + 2) env (.apply (.symbol c!"@") [x, .symbol f]) v := by
  intro n k w hn hk
  obtain ⟨k, rfl⟩ : ∃ j, k = j + 2 := ⟨k - 2, by omega⟩
  rw [evalD]
  simp only [evalStep]
  rw [M.bind_ok (evalD_symbol hf)]
  simp only [applyValue, bodyRun, stdB, Builtins.indexB, Builtins.evArg, Builtins.arg,
    List.getElem?_cons_zero, BProg.run_bind, BProg.run_ret, pure_bind, BProg.run_ev, List.tail_cons,
    Builtins.indexLoop]
  rw [M.bind_ok (hx.evalN (by omega) (by omega) w)]
  simp [Expr.index, hv]

theorem yields_element {x y : Expr} {l : List Expr} {z : Int} {v : Expr}
    (hf : env.get c!"@" = some (.builtin c!"@" .index []))
    (hx : Yields H P L d1 env x (.list l)) (hy : YieldsInt H P L d2 env (.group y) z) (hd : max d1 d2 ≤ 800)
    (h0 : 0 ≤ z) (hv : l[z.toNat]? = some v) :
    Yields H P L (max d1 d2 + 2) env (.apply (.symbol c!"@") [x, .group y]) v := by
  obtain ⟨i, rfl, hy⟩ := hy
  intro n k w hn hk
  obtain ⟨k, rfl⟩ : ∃ j, k = j + 2 := ⟨k - 2, by omega⟩
  rw [evalD]
  simp only [evalStep]
  rw [M.bind_ok (evalD_symbol hf)]
  simp only [applyValue, bodyRun, stdB, Builtins.indexB, Builtins.evArg, Builtins.arg,
    List.getElem?_cons_zero, BProg.run_bind, BProg.run_ret, pure_bind, BProg.run_ev, List.tail_cons,
    Builtins.indexLoop]
  rw [M.bind_ok (hx.evalN (by omega) (by omega) w), M.bind_ok (hy.evalN (by omega) (by omega) w)]
  have hu : i.asUsize = i.val.toNat := usize_nonneg (by assumption)
  simp [Expr.index, hu, hv, List.getD]

theorem yields_range {x y : Expr} {a b : Int} (hf : env.get c!"to" = some (.builtin c!"to" .to []))
    (hx : YieldsInt H P L d1 env x a) (hy : YieldsInt H P L d2 env y b) (hd : max d1 d2 ≤ 800) :
    Yields H P L (max d1 d2 + 2) env (.apply (.symbol c!"to") [x, y])
      (.list (Builtins.intsFrom a (b - a).toNat)) := by
  obtain ⟨i, rfl, hx⟩ := hx
  obtain ⟨j, rfl, hy⟩ := hy
  refine yields_builtin2 hf hx hy (yields_int i) ?_ hd
  intro ev0 h1 h2 h3 w
  simp only [stdB, Builtins.toB, BProg.run_bind, BProg.run_ev]
  rw [M.bind_ok (h1 w), M.bind_ok (h2 w)]
  rfl

/-! ### Functions -/

/-- The names that have these values. -/
def Sees (env : Env) (K : List (Str × Expr)) : Prop := ∀ p ∈ K, env.get p.1 = some p.2

theorem Sees.sub {K K' : List (Str × Expr)} (h : Sees env K) (hs : ∀ p ∈ K', p ∈ K) : Sees env K' :=
  fun p hp => h p (hs p hp)

theorem Sees.define {K K' : List (Str × Expr)} {x : Str} {v : Expr} (h : Sees env K)
    (hs : ∀ p ∈ K', p = (x, v) ∨ p.1 ≠ x ∧ p ∈ K) : Sees (env.define x v) K' := by
  intro p hp
  rcases hs p hp with rfl | ⟨hne, hp⟩
  · simp [Env.get_define]
  · rw [Env.get_define, if_neg (Ne.symm hne)]
    exact h p hp

/-- `v` is a function of `m` arguments, and for arguments `as` with `F as r` its result is `r`. -/
def IsFun (H : Host W) (P : Plat) (L : Lib) (d : Nat) : Nat → (List Expr → Expr → Prop) → Expr → Prop
  | 0, _, _ => False
  | 1, F, v => ∃ p body binds, v = .lambda p body binds [] ∧
      ∀ (a r : Expr) (cwd : Str), F [a] r →
        ∃ env', Run H P L d (callEnv p ⟨binds, []⟩ cwd a) body r env'
  | m + 2, F, v => ∃ p body binds, v = .lambda p body binds [] ∧
      ∀ (a : Expr) (cwd : Str), ∃ g, Yields H P L 1 (callEnv p ⟨binds, []⟩ cwd a) body g ∧
        ∀ env, ∃ g', Yields H P L 1 env g g' ∧ IsFun H P L d (m + 1) (fun as => F (a :: as)) g'

theorem within_ok {m : M W Expr} {env0 env' : Env} {v : Expr} {w w' : W} (h : m env0 w = (.ok v, env', w')) :
    M.within m env0 env w = (.ok v, env, w') := by simp [h]

/-- A call. -/
theorem yields_call : ∀ (xs as : List Expr), List.Forall₂ (Yields H P L d env) xs as →
    ∀ (fe v r : Expr) (F : List Expr → Expr → Prop), Yields H P L 1 env fe v →
      IsFun H P L d1 as.length F v → F as r → Yields H P L (max d d1 + xs.length) env (.apply fe xs) r := by
  intro xs
  induction xs with
  | nil =>
    intro as h fe v r F _ hv
    cases h
    exact hv.elim
  | cons x xs ih =>
    intro as h fe v r F hfe hv hr
    obtain ⟨a, as, hx, hxs, rfl⟩ : ∃ a as', Yields H P L d env x a ∧ List.Forall₂ (Yields H P L d env) xs as' ∧
        as = a :: as' := by
      cases h with
      | cons h1 h2 => exact ⟨_, _, h1, h2, rfl⟩
    intro n k w hn hk
    simp only [List.length_cons] at hn hk
    have pos : ∀ {d1}, IsFun H P L d1 (a :: as).length F v → 1 ≤ k - 1 ∨ 1 ≤ k - 1 := by
      intro d1 hv
      left
      have : 0 < d := by
        apply Classical.byContradiction
        intro h0
        have := hx 0 0 w (by omega) (by omega)
        cases this
      omega
    have hk1 := (pos hv).elim id id
    obtain ⟨k, rfl⟩ : ∃ j, k = j + 1 := ⟨k - 1, by omega⟩
    rw [evalD]
    simp only [evalStep]
    rw [M.bind_ok (hfe n k w (by omega) (by omega))]
    cases as with
    | nil =>
      cases hxs
      obtain ⟨p, body, binds, rfl, hb⟩ := hv
      simp only [applyValue, M.getEnv_bind]
      rw [M.bind_ok (hx n k w (by omega) (by omega))]
      obtain ⟨env', hb⟩ := hb a r env.getCwd hr
      exact within_ok (hb n k w (by omega) (by omega))
    | cons b as =>
      obtain ⟨y, ys, rfl⟩ : ∃ y ys, xs = y :: ys := by
        cases hxs with
        | cons h1 h2 => exact ⟨_, _, rfl⟩
      obtain ⟨p, body, binds, rfl, hb⟩ := hv
      simp only [applyValue, M.getEnv_bind]
      rw [M.bind_ok (hx n k w (by omega) (by omega))]
      obtain ⟨g, hg, hg'⟩ := hb a env.getCwd
      obtain ⟨g', he', hf⟩ := hg' env
      rw [M.bind_ok (within_ok (hg n k w (by omega) (by omega)))]
      exact ih (b :: as) hxs g g' r (fun as => F (a :: as)) he' hf hr n k w (by omega) (by omega)

theorem sees_call {p : Str} {K : List (Str × Expr)} {binds : BMap Expr} {cwd : Str} {a : Expr}
    (hK : ∀ q ∈ K, q.1 ≠ p ∧ q.1 ≠ c!"CWD") (h : Sees ⟨binds, []⟩ K) :
    Sees (callEnv p ⟨binds, []⟩ cwd a) ((p, a) :: K) := by
  intro q hq
  rcases List.mem_cons.1 hq with rfl | hq
  · simp [callEnv, Env.get_define]
  · rw [callEnv_get (hK q hq).1 (hK q hq).2]
    exact h q hq

theorem sees_binds {binds : BMap Expr} {K : List (Str × Expr)} (h : ∀ q ∈ K, BMap.get? binds q.1 = some q.2) :
    Sees ⟨binds, []⟩ K := fun q hq => by simp [Env.get, h q hq]

theorem mentions_curried {body : Expr} (ps : List Str) {s : Str} (hs : Mentions body s) :
    Mentions (curried ps body) s := by
  induction ps with
  | nil => exact hs
  | cons q qs ih => exact .inside .function ih

/-- A function whose body, with the parameters and the captured names known, has the result. -/
theorem isFun_of_body {body : Expr} : ∀ (ps : List Str) (p : Str) (K : List (Str × Expr)) (binds : BMap Expr)
    (F : List Expr → Expr → Prop),
    (p :: ps).Nodup → (∀ x ∈ p :: ps, x ≠ c!"CWD" ∧ Mentions body x) →
    (∀ q ∈ K, Mentions body q.1 ∧ q.1 ∉ p :: ps ∧ q.1 ≠ c!"CWD") →
    (∀ q ∈ K, BMap.get? binds q.1 = some q.2) →
    (∀ env as r, as.length = (p :: ps).length → F as r → Sees env (((p :: ps).zip as).reverse ++ K) →
      ∃ env', Run H P L d env body r env') →
    IsFun H P L d (ps.length + 1) F (.lambda p (curried ps body) binds []) := by
  intro ps
  induction ps with
  | nil =>
    intro p K binds F _ hp hK hb hr
    refine ⟨p, _, binds, rfl, ?_⟩
    intro a r cwd hF
    refine hr _ [a] r rfl hF ?_
    exact sees_call (fun q hq => ⟨fun e => (hK q hq).2.1 (by simp [e]), (hK q hq).2.2⟩) (sees_binds hb)
  | cons p' ps ih =>
    intro p K binds F hnd hp hK hb hr
    refine ⟨p, _, binds, rfl, ?_⟩
    intro a cwd
    obtain ⟨b1, he1, _, hc1⟩ := closes (P := P) (H := H) p' (curried ps body) []
      (callEnv p ⟨binds, []⟩ cwd a)
    refine ⟨.lambda p' (curried ps body) b1 [], fun n k w _ hk => ?_, ?_⟩
    · obtain ⟨k, rfl, -⟩ := pos_succ hk
      exact he1 _ k w
    intro env
    obtain ⟨b2, he2, hk2, _⟩ := closes (P := P) (H := H) p' (curried ps body) b1 env
    refine ⟨.lambda p' (curried ps body) b2 [], fun n k w _ hk => ?_, ?_⟩
    · obtain ⟨k, rfl, -⟩ := pos_succ hk
      exact he2 _ k w
    have hsees : Sees (callEnv p ⟨binds, []⟩ cwd a) ((p, a) :: K) :=
      sees_call (fun q hq => ⟨fun e => (hK q hq).2.1 (by simp [e]), (hK q hq).2.2⟩) (sees_binds hb)
    have hment : ∀ {s : Str}, Mentions body s → Mentions (curried ps body) s := mentions_curried ps
    have hKp : ∀ q ∈ (p, a) :: K, Mentions body q.1 ∧ q.1 ∉ p' :: ps ∧ q.1 ≠ c!"CWD" := by
      intro q hq
      rcases List.mem_cons.1 hq with rfl | hq
      · exact ⟨(hp p (by simp)).2, (List.nodup_cons.1 hnd).1, (hp p (by simp)).1⟩
      · exact ⟨(hK q hq).1, fun h => (hK q hq).2.1 (List.mem_cons_of_mem _ h), (hK q hq).2.2⟩
    refine ih p' ((p, a) :: K) b2 (fun as => F (a :: as)) (List.nodup_cons.1 hnd).2
      (fun x hx => hp x (List.mem_cons_of_mem _ hx)) hKp ?_ ?_
    · intro q hq
      have h0 := hKp q hq
      have hne : q.1 ≠ p' := fun e => h0.2.1 (by simp [e])
      exact hk2 q.1 q.2 hne h0.2.2 (hc1 q.1 q.2 hne h0.2.2 (hment h0.1) rfl (hsees q hq))
    · intro env as r hl hF hs
      refine hr env (a :: as) r (by simp_all) hF ?_
      intro q hq
      refine hs q ?_
      simp only [List.zip_cons_cons, List.reverse_cons, List.append_assoc, List.mem_append,
        List.mem_cons, List.mem_reverse, List.not_mem_nil, or_false] at hq ⊢
      tauto

/-- `let f = …` of a function -/
theorem run_define {f p : Str} {body : Expr} {ps : List Str} {K : List (Str × Expr)}
    {F : List Expr → Expr → Prop}
    (hnd : (p :: ps).Nodup) (hp : ∀ x ∈ p :: ps, x ≠ c!"CWD" ∧ Mentions body x)
    (hK : ∀ q ∈ K, Mentions body q.1 ∧ q.1 ∉ p :: ps ∧ q.1 ≠ c!"CWD") (hs : Sees env K)
    (hr : ∀ env as r, as.length = (p :: ps).length → F as r → Sees env (((p :: ps).zip as).reverse ++ K) →
      ∃ env', Run H P L d env body r env') :
    ∃ v, Run H P L 3 env (.do_ [.assign f (curried (p :: ps) body)]) .none (env.define f v) ∧
      IsFun H P L d (ps.length + 1) F v := by
  obtain ⟨b, he, _, hc⟩ := closes (P := P) (H := H) p (curried ps body) [] env
  refine ⟨.lambda p (curried ps body) b [], RunDo.block (Run.last (Run.assign (d := 1) (fun n k w _ hk => ?_))), ?_⟩
  · obtain ⟨k, rfl, -⟩ := pos_succ hk
    exact he _ k w
  · refine isFun_of_body ps p K b F hnd hp hK ?_ hr
    have hment : ∀ {s : Str}, Mentions body s → Mentions (curried ps body) s := mentions_curried ps
    intro q hq
    exact hc q.1 q.2 (fun e => (hK q hq).2.1 (by simp [e])) (hK q hq).2.2 (hment (hK q hq).1) rfl (hs q hq)

end

end Dune
