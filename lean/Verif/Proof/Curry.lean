import Verif.Proof.Lib

/-! Functions curried in the caller's environment (`curry_env`). -/

namespace Dune

open Spec

section

variable {W : Type} {P : Plat} {H : Host W} {B : BId → List Expr → M W Expr}

/-- The captured variables of the inner function. -/
def curryBinds1 (cwd : Str) : Option Expr → BMap Expr
  | none => [(c!"CWD", .str cwd), (c!"arg1", .none)]
  | some v => [(c!"CWD", .str cwd), (c!"arg0", v), (c!"arg1", .none)]

/-- The captured variables of the outer function. -/
def curryBinds2 (cwd : Str) : Option Expr → BMap Expr
  | none => [(c!"CWD", .str cwd), (c!"arg0", .none)]
  | some v => [(c!"CWD", .str cwd), (c!"arg0", .none), (c!"arg1", v)]

/-- The inner function. -/
def curryInner (f : Expr) (cwd : Str) (o : Option Expr) : Expr :=
  .lambda c!"arg1" (.apply f curryArgs) (curryBinds1 cwd o) []

/-- The function `curry_env` makes of a two-argument function, if the caller's variables `arg0` and
`arg1` are `o` and `o'`. -/
def curryOuter (f : Expr) (cwd : Str) (o o' : Option Expr) : Expr :=
  .lambda c!"arg0" (curryInner f cwd o) (curryBinds2 cwd o') []

theorem close_inner (nm hlp : Str) (id : BId) (env : Env) :
    closeLambda env c!"arg1" (.apply (.builtin nm id hlp) curryArgs) ⟨[], []⟩ =
      ⟨curryBinds1 env.getCwd (env.get c!"arg0"), []⟩ := by
  have hu : (Expr.apply (.builtin nm id hlp) curryArgs).usedSymbols = [c!"arg0", c!"arg1"] := rfl
  unfold closeLambda
  rw [hu]
  cases h : env.get c!"arg0" with
  | none => simp [capture, h, Env.isDefined, BMap.contains, BMap.get?]; rfl
  | some v => simp [capture, h, Env.isDefined, BMap.contains, BMap.get?]; rfl

theorem close_outer (nm hlp : Str) (id : BId) (cwd : Str) (o : Option Expr) (env : Env) :
    closeLambda env c!"arg0" (curryInner (.builtin nm id hlp) cwd o) ⟨[], []⟩ =
      ⟨curryBinds2 env.getCwd (env.get c!"arg1"), []⟩ := by
  have hu : (curryInner (.builtin nm id hlp) cwd o).usedSymbols = [c!"arg0", c!"arg1"] := rfl
  unfold closeLambda
  rw [hu]
  cases h : env.get c!"arg1" with
  | none => simp [capture, h, Env.isDefined, BMap.contains, BMap.get?]; rfl
  | some v => simp [capture, h, Env.isDefined, BMap.contains, BMap.get?]; rfl

theorem reclose_outer (nm hlp : Str) (id : BId) (cwd : Str) (o : Option Expr) (env : Env) :
    closeLambda env c!"arg0" (curryInner (.builtin nm id hlp) cwd o)
        ⟨curryBinds2 env.getCwd (env.get c!"arg1"), []⟩ =
      ⟨curryBinds2 env.getCwd (env.get c!"arg1"), []⟩ := by
  have hu : (curryInner (.builtin nm id hlp) cwd o).usedSymbols = [c!"arg0", c!"arg1"] := rfl
  unfold closeLambda
  rw [hu]
  cases h : env.get c!"arg1" with
  | none => simp [capture, h, Env.isDefined, BMap.contains, BMap.get?, curryBinds2]; rfl
  | some v => simp [capture, Env.isDefined, BMap.contains, BMap.get?, curryBinds2]; rfl

theorem close_call (nm hlp : Str) (id : BId) (cwd cwd' : Str) (o o' : Option Expr) (va : Expr) :
    closeLambda (callEnv c!"arg0" ⟨curryBinds2 cwd o', []⟩ cwd' va) c!"arg1"
        (.apply (.builtin nm id hlp) curryArgs) ⟨curryBinds1 cwd o, []⟩ =
      ⟨curryBinds1 cwd' (some (o.getD va)), []⟩ := by
  have hu : (Expr.apply (.builtin nm id hlp) curryArgs).usedSymbols = [c!"arg0", c!"arg1"] := rfl
  unfold closeLambda
  rw [hu]
  cases o <;> cases o' <;> rfl

theorem reclose_inner (nm hlp : Str) (id : BId) (cwd : Str) (v : Expr) (env : Env) :
    closeLambda env c!"arg1" (.apply (.builtin nm id hlp) curryArgs)
        ⟨curryBinds1 cwd (some v), []⟩ = ⟨curryBinds1 env.getCwd (some v), []⟩ := rfl

/-- Applying a function made by `curry_env` to two arguments. -/
theorem evalD_curryOuter {k : Nat} {nm hlp : Str} {id : BId} {cwd : Str} {o o' : Option Expr}
    {f a b va vb : Expr} {env env0 env1 env2 : Env} {w w0 w1 w2 : W}
    (hf : evalD P H B (k + 3) f env w = (.ok (curryOuter (.builtin nm id hlp) cwd o o'), env0, w0))
    (ha : evalD P H B (k + 3) a env0 w0 = (.ok va, env1, w1))
    (hb : evalD P H B (k + 2) b env1 w1 = (.ok vb, env2, w2)) :
    evalD P H B (k + 4) (.apply f [a, b]) env w =
      ((B id curryArgs (curryCallEnv env1.getCwd (o.getD va) vb) w2).1, env2,
        (B id curryArgs (curryCallEnv env1.getCwd (o.getD va) vb) w2).2.2) := by
  rw [evalD]
  simp only [evalStep]
  rw [M.bind_ok hf]
  simp only [applyValue, curryOuter, M.getEnv_bind]
  rw [M.bind_ok ha]
  rw [M.bind_ok (a := curryInner (.builtin nm id hlp) env0.getCwd (some (o.getD va)))
      (env' := env1) (w' := w1) (by
    simp only [M.within, curryInner]
    rw [evalD]
    simp only [evalStep, M.getEnv_bind, close_call]
    rfl)]
  rw [evalD]
  simp only [evalStep]
  rw [M.bind_ok (a := curryInner (.builtin nm id hlp) env1.getCwd (some (o.getD va)))
    (env' := env1) (w' := w1) (by
    simp only [curryInner]
    rw [evalD]
    simp only [evalStep, M.getEnv_bind, reclose_inner]
    rfl)]
  simp only [applyValue, curryInner, M.getEnv_bind]
  rw [M.bind_ok hb]
  rfl

theorem evalN_close {bodies : BId → List Expr → BProg Expr} (n : Nat) (p : Str) (b : Expr)
    (m : BMap Expr) (ps : List (BMap Expr)) (env : Env) (w : W) :
    evalN P H bodies n (.lambda p b m ps) env w =
      (.ok (.lambda p b (closeLambda env p b ⟨m, ps⟩).bindings
        (closeLambda env p b ⟨m, ps⟩).parents), env, w) := by
  cases n <;> rfl

/-- `curry_env(f, 2, env)` -/
theorem run_curryEnv {bodies : BId → List Expr → BProg Expr} (n : Nat) (nm hlp : Str) (id : BId)
    (env : Env) (w : W) :
    (Builtins.curryEnv (.builtin nm id hlp) 2).run H (evalN P H bodies n) env w =
      (.ok (curryOuter (.builtin nm id hlp) env.getCwd (env.get c!"arg0") (env.get c!"arg1")),
        env, w) := by
  have h0 : Builtins.argName 0 = c!"arg0" := rfl
  have h1 : Builtins.argName 1 = c!"arg1" := rfl
  have hr : (List.range 2).map (fun i => Expr.symbol (Builtins.argName i)) = curryArgs := rfl
  simp only [Builtins.curryEnv, Builtins.curryLoop, hr, h0, h1, BProg.run_bind, BProg.run_ev,
    BProg.run_ret]
  rw [M.bind_ok (evalN_close ..), close_inner]
  rw [M.bind_ok (evalN_close ..)]
  have := close_outer nm hlp id env.getCwd (env.get c!"arg0") env
  unfold curryInner at this
  rw [this]
  rfl

theorem evalD_reclose {k : Nat} (nm hlp : Str) (id : BId) (env : Env) (w : W) :
    evalD P H B (k + 1) (curryOuter (.builtin nm id hlp) env.getCwd (env.get c!"arg0")
        (env.get c!"arg1")) env w =
      (.ok (curryOuter (.builtin nm id hlp) env.getCwd (env.get c!"arg0")
        (env.get c!"arg1")), env, w) := by
  rw [curryOuter, evalD]
  simp only [evalStep, M.getEnv_bind, reclose_outer]
  rfl

theorem evalN_reclose {bodies : BId → List Expr → BProg Expr} (n : Nat) (nm hlp : Str) (id : BId)
    (env : Env) (w : W) :
    evalN P H bodies n (curryOuter (.builtin nm id hlp) env.getCwd (env.get c!"arg0")
        (env.get c!"arg1")) env w =
      (.ok (curryOuter (.builtin nm id hlp) env.getCwd (env.get c!"arg0")
        (env.get c!"arg1")), env, w) := by
  cases n <;> exact evalD_reclose (k := 800) ..

/-- `string@split sep text`: the two-argument function runs on the evaluated arguments, except that a
variable `arg0` of the caller replaces the first. -/
theorem eval_split {L : Lib} {n : Nat} {a b va vb : Expr} {env env1 env2 : Env} {w w1 w2 : W}
    (hs : Std env)
    (ha : evalD P H (bodyRun P H (stdB P L) n) 800 a env w = (.ok va, env1, w1))
    (hb : evalD P H (bodyRun P H (stdB P L) n) 799 b env1 w1 = (.ok vb, env2, w2)) :
    evalN P H (stdB P L) (n + 2) (call c!"string" c!"split" [a, b]) env w =
      (((Builtins.split2B P curryArgs).run H (evalN P H (stdB P L) n)
          (curryCallEnv env1.getCwd ((env.get c!"arg0").getD va) vb) w2).1, env2,
        ((Builtins.split2B P curryArgs).run H (evalN P H (stdB P L) n)
          (curryCallEnv env1.getCwd ((env.get c!"arg0").getD va) vb) w2).2.2) := by
  lib hs, Init.stringM
  rw [evalN_builtin]
  simp only [stdB, Builtins.splitB, BProg.run_bind, BProg.run_ev]
  rw [M.bind_ok (run_curryEnv ..), M.bind_ok (evalN_reclose ..)]
  rw [evalN]
  exact evalD_curryOuter (k := 797) (evalD_reclose (k := 799) ..) ha hb

/-- `(fn@curry f 2) a b` for a builtin `f`. -/
theorem eval_curry {L : Lib} {n : Nat} {fe a b va vb : Expr} {nm hlp : Str} {id : BId}
    {env env1 env2 : Env} {w w1 w2 : W} (hs : Std env)
    (hfe : evalN P H (stdB P L) n fe env w = (.ok (.builtin nm id hlp), env, w))
    (ha : evalD P H (bodyRun P H (stdB P L) n) 800 a env w = (.ok va, env1, w1))
    (hb : evalD P H (bodyRun P H (stdB P L) n) 799 b env1 w1 = (.ok vb, env2, w2)) :
    evalN P H (stdB P L) (n + 1)
        (.apply (call c!"fn" c!"curry" [fe, .int (.lit 2)]) [a, b]) env w =
      (((stdB P L id curryArgs).run H (evalN P H (stdB P L) n)
          (curryCallEnv env1.getCwd ((env.get c!"arg0").getD va) vb) w2).1, env2,
        ((stdB P L id curryArgs).run H (evalN P H (stdB P L) n)
          (curryCallEnv env1.getCwd ((env.get c!"arg0").getD va) vb) w2).2.2) := by
  suffices hf : evalD P H (bodyRun P H (stdB P L) n) 800
      (call c!"fn" c!"curry" [fe, .int (.lit 2)]) env w =
      (.ok (curryOuter (.builtin nm id hlp) env.getCwd (env.get c!"arg0") (env.get c!"arg1")), env,
        w) by
    exact evalD_curryOuter (k := 797) hf ha hb
  rw [evalD]
  simp only [evalStep]
  rw [M.bind_ok (evalD_mem (k := 797) hs (tbl := Init.fnM)
    (v := .builtin c!"curry" .fCurry []) (by mem_tac) (by mem_tac))]
  simp only [applyValue, bodyRun, stdB]
  have h2 : evalN P H (stdB P L) n (.int (.lit 2)) env w = (.ok (.int (.lit 2)), env, w) := by
    cases n <;> rfl
  have h3 : (I64.lit 2).asUsize = 2 := rfl
  brun [Builtins.curryB, hfe, h2]
  rw [h3]
  exact run_curryEnv ..

end

end Dune
