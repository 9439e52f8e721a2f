import Verif.Model.Init
import Verif.Proof.Monad
import Verif.Proof.Env

/-! How builtin bodies run: rewriting rules. -/

namespace Dune

open M

namespace BProg

variable {W α β : Type} {H : Host W} {ev0 : Expr → M W Expr}

theorem run_bind (p : BProg α) (f : α → BProg β) :
    (p >>= f).run H ev0 = (p.run H ev0 >>= fun a => (f a).run H ev0) := by
  show (BProg.bind p f).run H ev0 = M.bind (p.run H ev0) fun a => (f a).run H ev0
  induction p with
  | ret a => rfl
  | err e => rfl
  | panic => rfl
  | exit c => rfl
  | eval e k ih =>
    simp only [BProg.bind, run]
    funext env w
    simp only [M.bind]
    rcases M.catch_ (ev0 e) env w with ⟨o, env1, w1⟩
    cases o <;> try rfl
    simp only [ih]
    rfl
  | evalIn env' e k ih =>
    simp only [BProg.bind, run]
    funext env w
    simp only [M.bind]
    rcases M.withinTry (ev0 e) env' env w with ⟨o, env1, w1⟩
    cases o <;> try rfl
    simp only [ih]
    rfl
  | getEnv k ih => funext env w; simp only [BProg.bind, run, ih]; rfl
  | define x v k ih => funext env w; simp only [BProg.bind, run, ih]; rfl
  | undefine x k ih => funext env w; simp only [BProg.bind, run, ih]; rfl
  | io op k ih => funext env w; simp only [BProg.bind, run, ih]; rfl

theorem run_pure (a : α) : (Pure.pure a : BProg α).run H ev0 = Pure.pure a := rfl
theorem run_ret (a : α) : (BProg.ret a : BProg α).run H ev0 = Pure.pure a := rfl
theorem run_panic : (BProg.panic : BProg α).run H ev0 = M.lift .panic := rfl
theorem run_exit (c : Int) : (BProg.exit c : BProg α).run H ev0 = M.lift (.exit c) := rfl
theorem run_err (e : Error) : (BProg.err e : BProg α).run H ev0 = M.throw e := rfl
theorem run_fail (m : Str) : (fail m : BProg α).run H ev0 = M.throw (.customError m) := rfl
theorem run_lift (o : Outcome α) (h : o ≠ .noFuel) : (lift o).run H ev0 = M.lift o := by
  cases o <;> first | rfl | exact absurd rfl h

theorem run_lift_ok (a : α) : (lift (.ok a)).run H ev0 = Pure.pure a := rfl
theorem run_lift_err (e : Error) : (lift (.err e) : BProg α).run H ev0 = M.throw e := rfl
theorem run_lift_panic : (lift .panic : BProg α).run H ev0 = M.lift .panic := rfl

theorem run_ev (e : Expr) : (ev e).run H ev0 = ev0 e := by
  funext env w
  simp only [ev, run, M.bind, M.catch_]
  rcases ev0 e env w with ⟨o, env1, w1⟩
  cases o <;> rfl

theorem run_evTry (e : Expr) : (evTry e).run H ev0 = M.catch_ (ev0 e) := by
  funext env w
  simp only [evTry, run, M.bind]
  rcases M.catch_ (ev0 e) env w with ⟨o, env1, w1⟩
  cases o <;> rfl

theorem run_evIn (env' : Env) (e : Expr) : (evIn env' e).run H ev0 = M.within (ev0 e) env' := by
  funext env w
  simp only [evIn, run, M.bind, M.withinTry, M.within]
  rcases ev0 e env' w with ⟨o, env1, w1⟩
  cases o <;> rfl

theorem run_env : BProg.env.run H ev0 = M.getEnv := rfl
theorem run_def (x : Str) (v : Expr) : (def_ x v).run H ev0 = M.define x v := rfl
theorem run_undef (x : Str) : (undef x).run H ev0 = M.undefine x := rfl
theorem run_ask (op : IOp) : (ask op).run H ev0 = M.io H op := rfl

theorem run_ite {c : Prop} [Decidable c] (p q : BProg α) :
    (if c then p else q).run H ev0 = if c then p.run H ev0 else q.run H ev0 := by
  split <;> rfl

theorem run_evAll : ∀ es : List Expr, (Builtins.evAll es).run H ev0 = evalList ev0 es
  | [] => rfl
  | e :: es => by
    simp only [Builtins.evAll, evalList, run_bind, run_ev, run_evAll es]
    rfl

end BProg

/-- Evaluating an argument list from left to right succeeds with these values, leaving this
state. -/
inductive Evals {W : Type} (ev : Expr → M W Expr) :
    List Expr → List Expr → Env → W → Env → W → Prop
  | nil {env w} : Evals ev [] [] env w env w
  | cons {a as v vs env w env1 w1 env2 w2} : ev a env w = (.ok v, env1, w1) →
      Evals ev as vs env1 w1 env2 w2 → Evals ev (a :: as) (v :: vs) env w env2 w2

theorem Evals.one {W : Type} {ev : Expr → M W Expr} {a v env env1} {w w1 : W}
    (h : ev a env w = (.ok v, env1, w1)) : Evals ev [a] [v] env w env1 w1 := .cons h .nil

theorem Evals.evalList {W : Type} {ev : Expr → M W Expr} {as vs env env1} {w w1 : W}
    (h : Evals ev as vs env w env1 w1) : Dune.evalList ev as env w = (.ok vs, env1, w1) := by
  induction h with
  | nil => rfl
  | cons ha _ ih =>
    simp only [Dune.evalList]
    rw [M.bind_ok ha, M.bind_ok ih]
    rfl

section

variable {W : Type} {P : Plat} {H : Host W} {bodies : BId → List Expr → BProg Expr}

/-- What calling builtins means when `n` more native levels are available. -/
def bodyRun (P : Plat) (H : Host W) (bodies : BId → List Expr → BProg Expr) (n : Nat) :
    BId → List Expr → M W Expr :=
  fun id args => (bodies id args).run H (evalN P H bodies n)

theorem evalN_unfold (n : Nat) (e : Expr) :
    evalN P H bodies (n + 1) e =
      evalStep P H (bodyRun P H bodies n) (evalD P H (bodyRun P H bodies n) 800) e := by
  rw [evalN]
  rfl

theorem evalD_builtin (B : BId → List Expr → M W Expr) (k : Nat) (nm hlp : Str) (id : BId)
    (args : List Expr) :
    evalD P H B (k + 2) (.apply (.builtin nm id hlp) args) = B id args := by
  funext env w
  rfl

/-- Calling a builtin runs its body with the arguments unevaluated. -/
theorem evalN_builtin (n : Nat) (nm hlp : Str) (id : BId) (args : List Expr) :
    evalN P H bodies (n + 1) (.apply (.builtin nm id hlp) args) =
      (bodies id args).run H (evalN P H bodies n) := by
  rw [evalN]
  exact evalD_builtin _ 799 nm hlp id args

/-- Applying an expression whose value is a builtin is calling that builtin in the state left by
evaluating the expression. -/
theorem evalN_call (n : Nat) {f : Expr} {nm hlp : Str} {id : BId} {args : List Expr}
    {env env1 : Env} {w w1 : W}
    (hf : evalD P H (bodyRun P H bodies n) 800 f env w = (.ok (.builtin nm id hlp), env1, w1)) :
    evalN P H bodies (n + 1) (.apply f args) env w =
      evalN P H bodies (n + 1) (.apply (.builtin nm id hlp) args) env1 w1 := by
  rw [evalN_builtin, evalN_unfold]
  simp only [evalStep]
  rw [M.bind_ok hf]
  rfl

/-- Calling a builtin through a variable. -/
theorem evalN_symbol {n : Nat} {x nm hlp : Str} {id : BId} {args : List Expr} {env : Env} {w : W}
    (h : env.get x = some (.builtin nm id hlp)) :
    evalN P H bodies (n + 1) (.apply (.symbol x) args) env w =
      evalN P H bodies (n + 1) (.apply (.builtin nm id hlp) args) env w := by
  apply evalN_call
  rw [evalD]
  simp only [evalStep, M.getEnv_bind, h]
  rfl

/-- The environment in which the body of a curried two-argument builtin runs. -/
def curryCallEnv (cwd : Str) (va vb : Expr) : Env :=
  ⟨[(c!"CWD", .str cwd), (c!"arg0", va), (c!"arg1", vb)], []⟩

/-- the parameters of a curried builtin, as passed to it -/
abbrev curryArgs : List Expr := [.symbol c!"arg0", .symbol c!"arg1"]

theorem evalD_curry2 {B : BId → List Expr → M W Expr} {k : Nat} {nm hlp : Str} {id : BId}
    {f a b va vb : Expr} {env env0 env1 env2 : Env} {w w0 w1 w2 : W}
    (hf : evalD P H B (k + 3) f env w = (.ok (Builtins.curry2 (.builtin nm id hlp)), env0, w0))
    (ha : evalD P H B (k + 3) a env0 w0 = (.ok va, env1, w1))
    (hb : evalD P H B (k + 2) b env1 w1 = (.ok vb, env2, w2)) :
    evalD P H B (k + 4) (.apply f [a, b]) env w =
      ((B id curryArgs (curryCallEnv env1.getCwd va vb) w2).1, env2,
        (B id curryArgs (curryCallEnv env1.getCwd va vb) w2).2.2) := by
  have hc : Builtins.curry2 (.builtin nm id hlp) =
      .lambda c!"arg0" (.lambda c!"arg1" (.apply (.builtin nm id hlp) curryArgs)
        [(c!"CWD", .str c!"/"), (c!"arg1", .none)] []) [(c!"CWD", .str c!"/"), (c!"arg0", .none)]
        [] := rfl
  rw [evalD]
  simp only [evalStep]
  rw [M.bind_ok hf, hc]
  simp only [applyValue, M.getEnv_bind]
  rw [M.bind_ok ha]
  rw [M.bind_ok (a := .lambda c!"arg1" (.apply (.builtin nm id hlp) curryArgs)
      [(c!"CWD", .str env0.getCwd), (c!"arg0", va), (c!"arg1", .none)] [])
      (env' := env1) (w' := w1) rfl]
  rw [evalD]
  simp only [evalStep]
  rw [M.bind_ok (a := .lambda c!"arg1" (.apply (.builtin nm id hlp) curryArgs)
    [(c!"CWD", .str env1.getCwd), (c!"arg0", va), (c!"arg1", .none)] [])
    (env' := env1) (w' := w1) rfl]
  simp only [applyValue, M.getEnv_bind]
  rw [M.bind_ok hb]
  rfl

theorem evalN_curry2 {n : Nat} {nm hlp : Str} {id : BId} {f a b va vb : Expr}
    {env env0 env1 env2 : Env} {w w0 w1 w2 : W}
    (hf : evalD P H (bodyRun P H bodies n) 800 f env w =
      (.ok (Builtins.curry2 (.builtin nm id hlp)), env0, w0))
    (ha : evalD P H (bodyRun P H bodies n) 800 a env0 w0 = (.ok va, env1, w1))
    (hb : evalD P H (bodyRun P H bodies n) 799 b env1 w1 = (.ok vb, env2, w2)) :
    evalN P H bodies (n + 1) (.apply f [a, b]) env w =
      (((bodies id curryArgs).run H (evalN P H bodies n) (curryCallEnv env1.getCwd va vb) w2).1,
        env2,
        ((bodies id curryArgs).run H (evalN P H bodies n)
          (curryCallEnv env1.getCwd va vb) w2).2.2) :=
  evalD_curry2 (k := 797) hf ha hb

theorem evalD_symbol {B : BId → List Expr → M W Expr} {k : Nat} {x : Str} {v : Expr} {env : Env}
    {w : W} (h : env.get x = some v) :
    evalD P H B (k + 1) (.symbol x) env w = (.ok v, env, w) := by
  rw [evalD]
  simp only [evalStep, M.getEnv_bind, h]
  rfl

theorem evalN_sym {n : Nat} {x : Str} {v : Expr} {env : Env} {w : W} (h : env.get x = some v) :
    evalN P H bodies n (.symbol x) env w = (.ok v, env, w) := by
  cases n <;> exact evalD_symbol h

@[simp] theorem evalN_int (n : Nat) (i : I64) (env : Env) (w : W) :
    evalN P H bodies n (.int i) env w = (.ok (.int i), env, w) := by cases n <;> rfl
@[simp] theorem evalN_str (n : Nat) (s : Str) (env : Env) (w : W) :
    evalN P H bodies n (.str s) env w = (.ok (.str s), env, w) := by cases n <;> rfl
@[simp] theorem evalN_bytes (n : Nat) (s : List UInt8) (env : Env) (w : W) :
    evalN P H bodies n (.bytes s) env w = (.ok (.bytes s), env, w) := by cases n <;> rfl

@[simp] theorem evalN_arg0 (n : Nat) (cwd : Str) (va vb : Expr) (w : W) :
    evalN P H bodies n (.symbol c!"arg0") (curryCallEnv cwd va vb) w =
      (.ok va, curryCallEnv cwd va vb, w) := evalN_sym rfl

@[simp] theorem evalN_arg1 (n : Nat) (cwd : Str) (va vb : Expr) (w : W) :
    evalN P H bodies n (.symbol c!"arg1") (curryCallEnv cwd va vb) w =
      (.ok vb, curryCallEnv cwd va vb, w) := evalN_sym rfl

/-- `m@f`: looking up a member of a module. -/
theorem evalD_member {n k : Nat} {m f : Str} {mod : BMap Expr} {v : Expr} {env : Env} {w : W}
    {nm hlp : Str} {L : Lib}
    (hat : env.get c!"@" = some (.builtin nm .index hlp))
    (hm : env.get m = some (.map mod)) (hf : mod.get? f = some v) :
    evalD P H (bodyRun P H (stdB P L) n) (k + 2)
      (.apply (.symbol c!"@") [.symbol m, .symbol f]) env w = (.ok v, env, w) := by
  rw [evalD]
  simp only [evalStep]
  rw [M.bind_ok (evalD_symbol hat)]
  simp only [applyValue, bodyRun, stdB, Builtins.indexB, Builtins.evArg, Builtins.arg,
    List.getElem?_cons_zero, BProg.run_bind, BProg.run_ret, pure_bind, BProg.run_ev, List.tail_cons,
    Builtins.indexLoop]
  rw [M.bind_ok (evalN_sym hm)]
  simp [Expr.index, hf]

end

/-- What a two-operand operator makes of the result of the operation on the values. -/
def opResult (msg : Str) : Outcome Expr → Outcome Expr
  | .ok .none => .err (.customError msg)
  | .noFuel => .panic
  | o => o

theorem opLoop_two {W : Type} {P : Plat} {H : Host W} {ev0 : Expr → M W Expr} {verb : Str}
    {f : Expr → Expr → Outcome Expr} {r b y : Expr} {env env2 : Env} {w w2 : W}
    (hr : ev0 r env w = (.ok r, env, w)) (hb : ev0 b env w = (.ok y, env2, w2)) :
    (Builtins.opLoop P verb f r [b]).run H ev0 env w =
      (opResult (c!"cannot " ++ verb ++ c!" " ++ debug P r ++ c!" and " ++ debug P b) (f r y),
        env2, w2) := by
  simp only [Builtins.opLoop, BProg.run_bind, BProg.run_ev]
  rw [M.bind_ok hr, M.bind_ok hb]
  cases f r y with
  | ok v => cases v <;> rfl
  | _ => rfl

section

variable {W : Type} {P : Plat} {H : Host W} {L : Lib} {n : Nat} {nm hlp : Str} {a b x y : Expr}
  {env env1 env2 : Env} {w w1 w2 : W}

theorem eval_add2
    (hop : env.get c!"+" = some (.builtin nm .add hlp))
    (ha : evalN P H (stdB P L) n a env w = (.ok x, env1, w1))
    (hx : evalN P H (stdB P L) n x env1 w1 = (.ok x, env1, w1))
    (hb : evalN P H (stdB P L) n b env1 w1 = (.ok y, env2, w2)) :
    ∃ msg, evalN P H (stdB P L) (n + 1) (.apply (.symbol c!"+") [a, b]) env w =
      (opResult msg (.ok (Expr.add P x y)), env2, w2) := by
  refine ⟨c!"cannot " ++ c!"add" ++ c!" " ++ debug P x ++ c!" and " ++ debug P b, ?_⟩
  rw [evalN_symbol hop, evalN_builtin]
  simp only [stdB, Builtins.addB, Builtins.evArg, Builtins.arg, List.getElem?_cons_zero,
    BProg.run_bind, BProg.run_ret, pure_bind, BProg.run_ev, List.tail_cons]
  rw [M.bind_ok ha]
  exact opLoop_two hx hb

theorem eval_sub2
    (hop : env.get c!"-" = some (.builtin nm .sub hlp))
    (ha : evalN P H (stdB P L) n a env w = (.ok x, env1, w1))
    (hx : evalN P H (stdB P L) n x env1 w1 = (.ok x, env1, w1))
    (hb : evalN P H (stdB P L) n b env1 w1 = (.ok y, env2, w2)) :
    ∃ msg, evalN P H (stdB P L) (n + 1) (.apply (.symbol c!"-") [a, b]) env w =
      (opResult msg (.ok (Expr.sub P x y)), env2, w2) := by
  refine ⟨c!"cannot " ++ c!"subtract" ++ c!" " ++ debug P x ++ c!" and " ++ debug P b, ?_⟩
  rw [evalN_symbol hop, evalN_builtin]
  simp only [stdB, Builtins.subB, Builtins.evArg, Builtins.arg, List.getElem?_cons_zero,
    BProg.run_bind, BProg.run_ret, pure_bind, BProg.run_ev, List.tail_cons]
  rw [M.bind_ok ha]
  exact opLoop_two hx hb

theorem eval_curried_op {id : BId} {op verb : Str} {f : Expr → Expr → Outcome Expr}
    (hid : ∀ args, stdB P L id args =
      (do let r ← Builtins.evArg args 0; Builtins.opLoop P verb f r args.tail))
    (hop : env.get op = some (Builtins.curry2 (.builtin nm id hlp)))
    (ha : evalD P H (bodyRun P H (stdB P L) n) 800 a env w = (.ok x, env1, w1))
    (hb : evalD P H (bodyRun P H (stdB P L) n) 799 b env1 w1 = (.ok y, env2, w2))
    (hx : evalN P H (stdB P L) n x (curryCallEnv env1.getCwd x y) w2 =
      (.ok x, curryCallEnv env1.getCwd x y, w2)) :
    ∃ msg, evalN P H (stdB P L) (n + 1) (.apply (.symbol op) [a, b]) env w =
      (opResult msg (f x y), env2, w2) := by
  refine ⟨c!"cannot " ++ verb ++ c!" " ++ debug P x ++ c!" and " ++ debug P (.symbol c!"arg1"), ?_⟩
  rw [evalN_curry2 (evalD_symbol hop) ha hb, hid]
  simp only [Builtins.evArg, Builtins.arg, List.getElem?_cons_zero,
    BProg.run_bind, BProg.run_ret, pure_bind, BProg.run_ev, List.tail_cons]
  rw [M.bind_ok (evalN_arg0 _ _ _ _ _), opLoop_two hx (evalN_arg1 _ _ _ _ _)]

end

/-- Run the body of a builtin symbolically. -/
macro "brun" "[" ls:Lean.Parser.Tactic.simpLemma,* "]" : tactic => `(tactic|
  simp [-bind_pure_comp, evalN_builtin, stdB, BProg.run_bind, BProg.run_pure, BProg.run_ret, BProg.run_panic,
    BProg.run_exit, BProg.run_err, BProg.run_fail, BProg.run_ev, BProg.run_evTry, BProg.run_evIn,
    BProg.run_env, BProg.run_def, BProg.run_undef, BProg.run_ask, BProg.run_ite, BProg.run_evAll,
    BProg.run_lift_ok, BProg.run_lift_err, BProg.run_lift_panic,
    Builtins.evArg, Builtins.arg, Builtins.checkArgs, Builtins.checkExact, Builtins.needArgs,
    M.bind_def, $ls,*])

end Dune
