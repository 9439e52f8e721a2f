import Verif.Model.Fmt
import Verif.Model.Arith

/-!
The evaluator `Expression::eval_mut` (src/expr.rs:472-677).

`evalD B k e` models `e.eval_mut(env, depth)` with `k = 801 - depth`: the test
`depth > MAX_RECURSION_DEPTH` (= 800) is `k = 0`, and both `eval_mut(env, depth + 1)` and the
`loop` with `depth += 1` continue with `k - 1`.  `B` runs a builtin.
-/

namespace Dune

section

variable {W : Type}

/-- src/expr.rs:534-544: the variables of the current scope, rendered, except those longer than
1024 bytes. -/
def exportBindings (P : Plat) : BMap Expr → BMap Str
  | [] => []
  | (k, v) :: m =>
    if utf8Len (display P v) ≤ 1024 then (k, display P v) :: exportBindings P m
    else exportBindings P m

/-- src/expr.rs:548-559: the strings one evaluated argument contributes. -/
def cmdArgsOf (P : Plat) (v : Expr) : List Str :=
  (Expr.flatten [v]).filterMap fun e =>
    match e with
    | .str s => some s
    | .bytes b => some (P.utf8Lossy b)
    | .none => Option.none
    | e => some (display P e)

/-- src/expr.rs:546-560: evaluate the arguments from left to right and collect their strings. -/
def collectArgs (P : Plat) (ev : Expr → M W Expr) : List Expr → M W (List Str)
  | [] => pure []
  | a :: as => do
    let v ← ev a
    let rest ← collectArgs P ev as
    pure (cmdArgsOf P v ++ rest)

/-- src/expr.rs:641-646: evaluate list elements from left to right. -/
def evalList (ev : Expr → M W Expr) : List Expr → M W (List Expr)
  | [] => pure []
  | e :: es => do
    let v ← ev e
    let vs ← evalList ev es
    pure (v :: vs)

/-- src/expr.rs:649-654: evaluate map values in key order. -/
def evalMap (ev : Expr → M W Expr) : List (Str × Expr) → M W (List (Str × Expr))
  | [] => pure []
  | (k, e) :: es => do
    let v ← ev e
    let vs ← evalMap ev es
    pure ((k, v) :: vs)

/-- src/expr.rs:503-508: the body of `for`. -/
def forLoop (ev : Expr → M W Expr) (name : Str) (body : Expr) : List Expr → M W (List Expr)
  | [] => pure []
  | item :: items => do
    M.define name item
    let v ← ev body
    let vs ← forLoop ev name body items
    pure (v :: vs)

/-- src/expr.rs:656-665: all statements but the last are evaluated for effect; the last one
replaces the expression in the loop. -/
def evalDo (ev : Expr → M W Expr) : List Expr → M W Expr
  | [] => pure .none
  | [e] => ev e
  | e :: f :: es => do
    let _ ← ev e
    evalDo ev (f :: es)

/-- src/expr.rs:630-636: copy the current values of the used symbols into the closure. -/
def capture (env : Env) (captured : Env) (param : Str) : List Str → Env → Env
  | [], tmp => tmp
  | s :: ss, tmp =>
    if s ≠ param ∧ captured.isDefined s = false then
      match env.get s with
      | some v => capture env captured param ss (tmp.define s v)
      | Option.none => capture env captured param ss tmp
    else capture env captured param ss tmp

/-- src/expr.rs:626-638: the closure a function literal evaluates to. -/
def closeLambda (env : Env) (param : Str) (body : Expr) (captured : Env) : Env :=
  capture env captured param body.usedSymbols
    ((captured.define param .none).setCwd env.getCwd)

/-- src/expr.rs:562-583: run an external program and translate the result. -/
def runProgram (H : Host W) (name : Str) (args : List Str) (envs : BMap Str) (self_ : Expr)
    (rawArgs : List Expr) : M W Expr := do
  let env ← M.getEnv
  let r ← M.io H (.status name env.getCwd args envs)
  match r with
  | .err .notFound => M.throw (.programNotFound name)
  | .err .permissionDenied => M.throw (.permissionDenied self_)
  | .err (.other _) => M.throw (.commandFailed name rawArgs)
  | _ => pure .none

/-- src/expr.rs:533-584: application of a name. -/
def applyName (P : Plat) (H : Host W) (ev : Expr → M W Expr) (name : Str) (self_ : Expr)
    (args : List Expr) : M W Expr := do
  let env ← M.getEnv
  let cmdArgs ← collectArgs P ev args
  runProgram H name cmdArgs (exportBindings P env.bindings) self_ args

/-- src/expr.rs:586-616: the environment in which a lambda body runs is the captured one, with the
caller's current directory (read before the argument is evaluated) and the parameter. -/
def callEnv (param : Str) (captured : Env) (cwd : Str) (arg : Expr) : Env :=
  (captured.setCwd cwd).define param arg

/-- src/expr.rs:532-623: dispatch on the evaluated function. -/
def applyValue (P : Plat) (H : Host W) (B : BId → List Expr → M W Expr) (ev : Expr → M W Expr)
    (f : Expr) (args : List Expr) : Expr → M W Expr
  | .symbol name => applyName P H ev name (.apply f args) args
  | .str name => applyName P H ev name (.apply f args) args
  | .lambda param body binds parents =>
    match args with
    | [] => M.throw (.cannotApply f args)
    | [a] => do
      let env ← M.getEnv
      let v ← ev a
      M.within (ev body) (callEnv param ⟨binds, parents⟩ env.getCwd v)
    | a :: b :: rest => do
      let env ← M.getEnv
      let v ← ev a
      let g ← M.within (ev body) (callEnv param ⟨binds, parents⟩ env.getCwd v)
      ev (.apply g (b :: rest))
  | .macro_ param body =>
    match args with
    | [] => M.throw (.cannotApply f args)
    | [a] => do
      let v ← ev a
      M.define param v
      ev body
    | a :: b :: rest => do
      let v ← ev a
      M.define param v
      let g ← ev body
      ev (.apply g (b :: rest))
  | .builtin _ id _ => B id args
  | _ => M.throw (.cannotApply f args)

/-- One iteration of the loop of `eval_mut` (src/expr.rs:484-674), with `ev` for evaluation at
`depth + 1`. -/
def evalStep (P : Plat) (H : Host W) (B : BId → List Expr → M W Expr) (ev : Expr → M W Expr) :
    Expr → M W Expr
  | .quote e => pure e
  | .group e => ev e
  | .symbol name => do
    let env ← M.getEnv
    match env.get name with
    | some v => pure v
    | Option.none => pure (.symbol name)
  | .assign name e => do
    let v ← ev e
    M.define name v
    pure .none
  | .for_ name l body => do
    match ← ev l with
    | .list items => do
      let vs ← forLoop ev name body items
      pure (.list vs)
    | _ => M.throw (.forNonList l)
  | .ite c t e => do
    let v ← ev c
    if v.isTruthy then ev t else ev e
  | .apply f args => do
    let g ← ev f
    applyValue P H B ev f args g
  | .lambda param body binds parents => do
    let env ← M.getEnv
    let tmp := closeLambda env param body ⟨binds, parents⟩
    pure (.lambda param body tmp.bindings tmp.parents)
  | .list es => do
    let vs ← evalList ev es
    pure (.list vs)
  | .map es => do
    let vs ← evalMap ev es
    pure (.map (BMap.ofList vs))
  | .do_ es => evalDo ev es
  | .none => pure .none
  | .int i => pure (.int i)
  | .float f => pure (.float f)
  | .bool b => pure (.bool b)
  | .bytes b => pure (.bytes b)
  | .str s => pure (.str s)
  | .macro_ p b => pure (.macro_ p b)
  | .builtin n i h => pure (.builtin n i h)

/-- `eval_mut(env, depth)` (src/expr.rs:476-677) with `k = 801 - depth`. -/
def evalD (P : Plat) (H : Host W) (B : BId → List Expr → M W Expr) : Nat → Expr → M W Expr
  | 0, e => M.throw (.recursionDepth e)
  | k + 1, e => evalStep P H B (evalD P H B k) e

/-- `MAX_RECURSION_DEPTH` (src/expr.rs:22). -/
def maxRecursionDepth : Nat := 800

end

/-! ### Builtins as interaction trees -/

/-- The body of a builtin: `fn(Vec<Expression>, &mut Environment) -> Result<Expression, Error>`
(src/expr.rs:139).  It can evaluate expressions (in the given or another environment), read or
change the variables of the environment it got, and talk to the outside world. -/
inductive BProg (α : Type)
  | ret (a : α)
  | err (e : Error)
  | panic
  | exit (code : Int)
  | eval (e : Expr) (k : Except Error Expr → BProg α)
  | evalIn (env : Env) (e : Expr) (k : Except Error Expr → Env → BProg α)
  | getEnv (k : Env → BProg α)
  | define (x : Str) (v : Expr) (k : BProg α)
  | undefine (x : Str) (k : BProg α)
  | io (op : IOp) (k : IORes → BProg α)

namespace BProg

variable {α β : Type}

def bind : BProg α → (α → BProg β) → BProg β
  | .ret a, f => f a
  | .err e, _ => .err e
  | .panic, _ => .panic
  | .exit c, _ => .exit c
  | .eval e k, f => .eval e fun r => bind (k r) f
  | .evalIn env e k, f => .evalIn env e fun r env' => bind (k r env') f
  | .getEnv k, f => .getEnv fun env => bind (k env) f
  | .define x v k, f => .define x v (bind k f)
  | .undefine x k, f => .undefine x (bind k f)
  | .io op k, f => .io op fun r => bind (k r) f

instance : Monad BProg where
  pure := .ret
  bind := bind

/-- `e.eval(env)?` -/
def ev (e : Expr) : BProg Expr :=
  .eval e fun r =>
    match r with
    | .ok v => .ret v
    | .error e => .err e

/-- `e.eval(env)` without `?` -/
def evTry (e : Expr) : BProg (Except Error Expr) := .eval e .ret

/-- `e.eval(&mut other_env)?` -/
def evIn (env : Env) (e : Expr) : BProg Expr :=
  .evalIn env e fun r _ =>
    match r with
    | .ok v => .ret v
    | .error e => .err e

def env : BProg Env := .getEnv .ret
def def_ (x : Str) (v : Expr) : BProg Unit := .define x v (.ret ())
def undef (x : Str) : BProg Unit := .undefine x (.ret ())
def ask (op : IOp) : BProg IORes := .io op .ret
def throw (e : Error) : BProg α := .err e
/-- `Err(Error::CustomError(msg))` -/
def fail (msg : Str) : BProg α := .err (.customError msg)

def lift : Outcome α → BProg α
  | .ok a => .ret a
  | .err e => .err e
  | .panic => .panic
  | .exit c => .exit c
  | .noFuel => .panic

/-- Give a builtin body its meaning, with `ev0` for `Expression::eval` (src/expr.rs:472-474). -/
def run {W : Type} (H : Host W) (ev0 : Expr → M W Expr) : BProg α → M W α
  | .ret a => fun env w => (.ok a, env, w)
  | .err e => fun env w => (.err e, env, w)
  | .panic => fun env w => (.panic, env, w)
  | .exit c => fun env w => (.exit c, env, w)
  | .eval e k => M.bind (M.catch_ (ev0 e)) fun r => run H ev0 (k r)
  | .evalIn env' e k => M.bind (M.withinTry (ev0 e) env') fun r => run H ev0 (k r.1 r.2)
  | .getEnv k => fun env w => run H ev0 (k env) env w
  | .define x v k => fun env w => run H ev0 k (env.define x v) w
  | .undefine x k => fun env w => run H ev0 k (env.undefine x) w
  | .io op k => fun env w => run H ev0 (k (H.io op w).1) env (H.io op w).2

end BProg

/-- `Expression::eval` (src/expr.rs:472-474): evaluation at depth 0, where builtins may call
`Expression::eval` again at most `n` levels deep.  Native recursion has no explicit bound in the
code; `n` stands for the size of the native stack. -/
def evalN {W : Type} (P : Plat) (H : Host W) (bodies : BId → List Expr → BProg Expr) :
    Nat → Expr → M W Expr
  | 0 => evalD P H (fun _ _ => M.lift .noFuel) (maxRecursionDepth + 1)
  | n + 1 =>
    evalD P H (fun id args => (bodies id args).run H (evalN P H bodies n)) (maxRecursionDepth + 1)

end Dune
