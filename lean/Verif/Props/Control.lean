import Verif.Proof.Lib
import Verif.Props.Compare

/-! C15, C52–C54: recursion through builtins, `err@try`, `eval` and `exec`. -/

namespace Dune.Props

open Spec

section

variable {W : Type} {P : Plat} {H : Host W} {L : Lib} {n : Nat} {env env1 env2 env3 : Env}
  {w w1 w2 w3 : W}

/-! ### C15 -/

/-- `exec f` -/
def execF : Expr := .apply (.symbol c!"exec") [.symbol c!"f"]

theorem execF_step {B : BId → List Expr → M W Expr} {k : Nat}
    (hx : env.get c!"exec" = some (.builtin c!"exec" .exec [])) :
    evalD P H B (k + 2) execF env w = B .exec [.symbol c!"f"] env w := by
  rw [execF, evalD]
  simp only [evalStep]
  rw [M.bind_ok (evalD_symbol hx)]
  rfl

theorem exec_diverges (hx : env.get c!"exec" = some (.builtin c!"exec" .exec []))
    (hf : env.get c!"f" = some execF) :
    ∀ n, evalN P H (stdB P L) n execF env w = (.noFuel, env, w)
  | 0 => by
    rw [evalN]
    exact execF_step (k := 799) hx
  | n + 1 => by
    have ih := exec_diverges hx hf n
    have hs : evalN P H (stdB P L) n (.symbol c!"f") env w = (.ok execF, env, w) := evalN_sym hf
    rw [execF, evalN_symbol hx]
    brun [Builtins.execB, hs, ih]

/-- C15, the recursion limit does not stop recursion through a builtin: the program
`{ f = '(exec f); exec f }` has no result, whatever amount of native recursion is available; in
particular it never ends in the recursion-depth error. -/
theorem C15_recursion_limit_refuted (hs : Std env) :
    (evalN P H (stdB P L) n
      (.do_ [.assign c!"f" (.quote execF), execF]) env w).1 = .noFuel := by
  have hx : (env.define c!"f" execF).get c!"exec" = some (.builtin c!"exec" .exec []) := by
    rw [Env.get_define, if_neg (by decide)]
    exact hs.top (Init.b c!"exec" .exec) (by mem_tac)
  have hf : (env.define c!"f" execF).get c!"f" = some execF := by
    rw [Env.get_define, if_pos rfl]
  have key : ∀ B : BId → List Expr → M W Expr,
      (B .exec [.symbol c!"f"] (env.define c!"f" execF) w).1 = .noFuel →
      (evalD P H B 801 (.do_ [.assign c!"f" (.quote execF), execF]) env w).1 = .noFuel := by
    intro B hB
    rw [evalD]
    simp only [evalStep, evalDo]
    rw [M.bind_ok (a := .none) (env' := env.define c!"f" execF) (w' := w) rfl]
    rw [execF_step (k := 798) hx]
    exact hB
  cases n with
  | zero => exact key _ rfl
  | succ n =>
    refine key _ ?_
    have h1 : evalN P H (stdB P L) (n + 1) (.apply (.symbol c!"exec") [.symbol c!"f"])
      (env.define c!"f" execF) w = _ := exec_diverges hx hf (n + 1)
    rw [evalN_symbol hx, evalN_builtin] at h1
    rw [h1]

/-- C15, wrapping the program in `err@try` does not help: there is no error to catch. -/
theorem C15_try_does_not_help (hs : Std env) (hf : env.get c!"f" = some execF) (handler : Expr) :
    (evalN P H (stdB P L) n (call c!"err" c!"try" [execF, handler]) env w).1 = .noFuel := by
  have hx : env.get c!"exec" = some (.builtin c!"exec" .exec []) :=
    hs.top (Init.b c!"exec" .exec) (by mem_tac)
  cases n with
  | zero =>
    have hat : env.get c!"@" = some (.builtin c!"@" .index []) :=
      hs.op (Init.b c!"@" .index) (by mem_tac)
    rw [evalN, evalD]
    simp only [evalStep]
    have : evalD P H (fun _ _ => M.lift .noFuel) maxRecursionDepth (member c!"err" c!"try") env w =
        (.noFuel, env, w) := by
      rw [show maxRecursionDepth = 798 + 2 from rfl, evalD]
      simp only [evalStep]
      rw [M.bind_ok (evalD_symbol hat)]
      rfl
    simp [M.bind_def, this]
  | succ n =>
    lib hs, Init.errM
    brun [Builtins.tryB, M.catch_, exec_diverges (P := P) (H := H) (L := L) (w := w) hx hf n]

example : Std Demo.env := demo_std

/-! ### C52 -/

/-- The name under which `err@codes` lists the kind of an error. -/
def kindName : Error → Str
  | .cannotApply .. => c!"cannot-apply"
  | .symbolNotDefined .. => c!"symbol-not-defined"
  | .commandFailed .. => c!"command-failed"
  | .forNonList .. => c!"for-non-list"
  | .recursionDepth .. => c!"recursion-depth"
  | .permissionDenied .. => c!"permission-denied"
  | .programNotFound .. => c!"program-not-found"
  | .syntaxError .. => c!"syntax-error"
  | .customError .. => c!"custom-error"

/-- `err@codes@kind` -/
def codeEntry (kind : Str) : Expr :=
  .apply (.symbol c!"@") [member c!"err" c!"codes", .str kind]

/-- The handler `e -> e@"code"`. -/
def codeHandler : Expr :=
  .lambda c!"e" (.apply (.symbol c!"@") [.symbol c!"e", .str c!"code"]) [] []

theorem eval_codeEntry (hs : Std env) {e : Error} {c : I64}
    (hc : ∃ m : BMap Expr, Error.codes = .map m ∧ m.get? (kindName e) = some (.int c)) :
    evalN P H (stdB P L) (n + 2) (codeEntry (kindName e)) env w = (.ok (.int c), env, w) := by
  have hat : env.get c!"@" = some (.builtin c!"@" .index []) :=
    hs.op (Init.b c!"@" .index) (by mem_tac)
  have h1 : evalN P H (stdB P L) (n + 1) (member c!"err" c!"codes") env w =
      (.ok Error.codes, env, w) :=
    evalD_mem (k := 799) hs (tbl := Init.errM) (by mem_tac) (by mem_tac)
  obtain ⟨m, hm, hg⟩ := hc
  rw [codeEntry, evalN_symbol hat]
  brun [Builtins.indexB, Builtins.indexLoop, h1, hm, Expr.index, hg]

theorem eval_codeHandler (hs : Std env) (msg : Str) (e : Error) (a : Expr) :
    evalN P H (stdB P L) (n + 1) (.apply codeHandler [Builtins.errorMap msg e a]) env w =
      (.ok (.int e.code), env, w) := by
  have hat : env.get c!"@" = some (.builtin c!"@" .index []) :=
    hs.op (Init.b c!"@" .index) (by mem_tac)
  have hc : closeLambda env c!"e" (.apply (.symbol c!"@") [.symbol c!"e", .str c!"code"])
      ⟨[], []⟩ =
      ⟨[(c!"@", .builtin c!"@" .index []), (c!"CWD", .str env.getCwd), (c!"e", .none)], []⟩ := by
    have hu : (Expr.apply (.symbol c!"@") [.symbol c!"e", .str c!"code"]).usedSymbols =
      [c!"@", c!"e"] := rfl
    unfold closeLambda
    rw [hu]
    simp [capture, hat, Env.isDefined, BMap.contains, BMap.get?]
    rfl
  rw [evalN_unfold]
  simp only [evalStep]
  rw [M.bind_ok (a := .lambda c!"e" (.apply (.symbol c!"@") [.symbol c!"e", .str c!"code"])
    [(c!"@", .builtin c!"@" .index []), (c!"CWD", .str env.getCwd), (c!"e", .none)] [])
    (env' := env) (w' := w) (by
      rw [codeHandler, evalD]
      simp only [evalStep, M.getEnv_bind, hc]
      rfl)]
  simp only [applyValue, M.getEnv_bind]
  rw [M.bind_ok (a := .map (BMap.ofList [
    (c!"message", .str msg),
    (c!"code", .int e.code),
    (c!"expression", a)])) (env' := env) (w' := w) rfl]
  simp only [M.within]
  rw [evalD]
  simp only [evalStep]
  rw [M.bind_ok (evalD_symbol (v := .builtin c!"@" .index []) rfl)]
  have he : ∀ v : Expr, evalN P H (stdB P L) n (.symbol c!"e")
      (callEnv c!"e" ⟨[(c!"@", .builtin c!"@" .index []), (c!"CWD", .str env.getCwd),
        (c!"e", .none)], []⟩ env.getCwd v) w =
      (.ok v, callEnv c!"e" ⟨[(c!"@", .builtin c!"@" .index []), (c!"CWD", .str env.getCwd),
        (c!"e", .none)], []⟩ env.getCwd v, w) := fun v => evalN_sym rfl
  simp only [applyValue, bodyRun]
  brun [Builtins.indexB, Builtins.indexLoop, he, Expr.index]
  rfl

/-- Every error except a syntax error has a message. -/
theorem displayError_some {e : Error} (he : ∀ x y, e ≠ .syntaxError x y) :
    ∃ msg, displayError P e = some msg := by
  cases e <;> first | exact ⟨_, rfl⟩ | exact absurd rfl (he _ _)

/-- C52, for six kinds of errors the code a handler receives is the entry of `err@codes`. -/
theorem C52_codes_agree (hs : Std env) (hs1 : Std env1) {a : Expr} {e : Error}
    (he : (∀ x, e ≠ .permissionDenied x) ∧ (∀ x, e ≠ .programNotFound x) ∧
      ∀ x y, e ≠ .syntaxError x y)
    (ha : evalN P H (stdB P L) (n + 1) a env w = (.err e, env1, w1)) :
    ∃ c, evalN P H (stdB P L) (n + 2) (call c!"err" c!"try" [a, codeHandler]) env w =
        (.ok (.int c), env1, w1) ∧
      evalN P H (stdB P L) (n + 2) (codeEntry (kindName e)) env w = (.ok (.int c), env, w) := by
  obtain ⟨msg, hm⟩ := displayError_some (P := P) he.2.2
  refine ⟨e.code, ?_, eval_codeEntry hs ⟨_, rfl, ?_⟩⟩
  · lib hs, Init.errM
    brun [Builtins.tryB, M.catch_, ha, hm, eval_codeHandler hs1]
  · cases e <;> first | rfl | simp at he

/-- C52 is false for the other three: the handler receives 9, the table has 6, 7 and 8. (That the
message can be rendered matters for syntax errors only, see C65.) -/
theorem C52_codes_refuted (hs : Std env) (hs1 : Std env1) {a : Expr} {e : Error}
    (he : (∃ x, e = .permissionDenied x) ∨ (∃ x, e = .programNotFound x) ∨
      ∃ x y, e = .syntaxError x y)
    (hm : displayError P e ≠ none)
    (ha : evalN P H (stdB P L) (n + 1) a env w = (.err e, env1, w1)) :
    evalN P H (stdB P L) (n + 2) (call c!"err" c!"try" [a, codeHandler]) env w =
        (.ok (.int (.lit 9)), env1, w1) ∧
      ∃ c : I64, 6 ≤ c.val ∧ c.val ≤ 8 ∧
        evalN P H (stdB P L) (n + 2) (codeEntry (kindName e)) env w = (.ok (.int c), env, w) := by
  obtain ⟨msg, hm⟩ := Option.ne_none_iff_exists'.1 hm
  constructor
  · lib hs, Init.errM
    brun [Builtins.tryB, M.catch_, ha, hm, eval_codeHandler hs1]
    rcases he with ⟨_, rfl⟩ | ⟨_, rfl⟩ | ⟨_, _, rfl⟩ <;> rfl
  · rcases he with ⟨_, rfl⟩ | ⟨_, rfl⟩ | ⟨_, _, rfl⟩
    · exact ⟨.lit 6, by decide, by decide, eval_codeEntry hs ⟨_, rfl, rfl⟩⟩
    · exact ⟨.lit 7, by decide, by decide, eval_codeEntry hs ⟨_, rfl, rfl⟩⟩
    · exact ⟨.lit 8, by decide, by decide, eval_codeEntry hs ⟨_, rfl, rfl⟩⟩

example : (evalN Demo.plat Demo.hostNotFound (stdB Demo.plat Demo.lib) 3
    (call c!"err" c!"try" [.apply (.symbol c!"nosuch") [], codeHandler]) Demo.env []).1 =
    .ok (.int (.lit 9)) := rfl

/-! ### C53 -/

/-- C53, if the expression does not fail, `err@try` is that expression: same value, variables and
effects, and the handler plays no role. -/
theorem C53_try_ok (hs : Std env) {a handler v : Expr}
    (ha : evalN P H (stdB P L) n a env w = (.ok v, env1, w1)) :
    evalN P H (stdB P L) (n + 1) (call c!"err" c!"try" [a, handler]) env w = (.ok v, env1, w1) := by
  lib hs, Init.errM
  brun [Builtins.tryB, M.catch_, ha]

/-- C53, if the expression fails, the handler is applied to a map of the message, the code and the
quoted expression, with the variables and the world as the failure left them. -/
theorem C53_try_err (hs : Std env) {a handler : Expr} {e : Error} {msg : Str}
    (hm : displayError P e = some msg)
    (ha : evalN P H (stdB P L) n a env w = (.err e, env1, w1)) :
    ∃ m : BMap Expr, (∀ k, m.get? k =
        if k = c!"message" then some (.str msg)
        else if k = c!"code" then some (.int e.code)
        else if k = c!"expression" then some (.quote a) else none) ∧
      evalN P H (stdB P L) (n + 1) (call c!"err" c!"try" [a, handler]) env w =
        evalN P H (stdB P L) n (.apply handler [.map m]) env1 w1 := by
  refine ⟨BMap.ofList [(c!"message", .str msg), (c!"code", .int e.code),
    (c!"expression", .quote a)], ?_, ?_⟩
  · intro k
    have : BMap.ofList [(c!"message", Expr.str msg), (c!"code", .int e.code),
      (c!"expression", .quote a)] = [(c!"code", .int e.code), (c!"expression", .quote a),
      (c!"message", .str msg)] := rfl
    rw [this]
    simp only [BMap.get?]
    by_cases h1 : k = c!"message"
    · subst h1; rfl
    by_cases h2 : k = c!"code"
    · subst h2; rfl
    by_cases h3 : k = c!"expression"
    · subst h3; rfl
    rw [if_neg (Ne.symm h2), if_neg (Ne.symm h3), if_neg (Ne.symm h1), if_neg h1, if_neg h2,
      if_neg h3]
  · lib hs, Init.errM
    brun [Builtins.tryB, M.catch_, ha, hm]
    rfl

/-- What the user is told about a failure that is not about an expression. -/
inductive Says : Error → Str → Prop
  | complaint (m) : Says (.customError m) m
  | program (p) : Says (.programNotFound p) (c!"program \"" ++ p ++ c!"\" not found")
  | name (x) : Says (.symbolNotDefined x) (c!"symbol \"" ++ x ++ c!"\" not defined")

/-- C53, the message: the complaint of a builtin word for word; the name of an unknown program or
variable. -/
theorem C53_message (hs : Std env) {a handler : Expr} {e : Error} {text : Str} (ht : Says e text)
    (ha : evalN P H (stdB P L) n a env w = (.err e, env1, w1)) :
    ∃ m : BMap Expr, m.get? c!"message" = some (.str text) ∧
      m.get? c!"expression" = some (.quote a) ∧
      evalN P H (stdB P L) (n + 1) (call c!"err" c!"try" [a, handler]) env w =
        evalN P H (stdB P L) n (.apply handler [.map m]) env1 w1 := by
  have hm : displayError P e = some text := by cases ht <;> rfl
  obtain ⟨m, h1, h2⟩ := C53_try_err (L := L) (handler := handler) hs hm ha
  exact ⟨m, by rw [h1, if_pos rfl], by rw [h1, if_neg (by decide), if_neg (by decide), if_pos rfl], h2⟩

/-- the handler finds the name of the missing program in the message -/
example : (evalN Demo.plat Demo.hostNotFound (stdB Demo.plat Demo.lib) 3
    (call c!"err" c!"try" [.apply (.symbol c!"nosuch") [],
      .lambda c!"e" (.apply (.symbol c!"@") [.symbol c!"e", .symbol c!"message"]) [] []]) Demo.env []).1 =
    .ok (.str c!"program \"nosuch\" not found") := rfl

/-- C53, if the message of the failure cannot be rendered (possible for syntax errors only, see C65),
the shell crashes instead of running the handler. -/
theorem C53_try_unprintable (hs : Std env) {a handler : Expr} {e : Error}
    (hm : displayError P e = none)
    (ha : evalN P H (stdB P L) n a env w = (.err e, env1, w1)) :
    (∃ src d, e = .syntaxError src d) ∧
      evalN P H (stdB P L) (n + 1) (call c!"err" c!"try" [a, handler]) env w =
        (.panic, env1, w1) := by
  constructor
  · refine Classical.byContradiction fun h => ?_
    obtain ⟨msg, h'⟩ := displayError_some (P := P) (e := e) fun x y he => h ⟨x, y, he⟩
    simp [hm] at h'
  · lib hs, Init.errM
    brun [Builtins.tryB, M.catch_, ha, hm]

/-- C53, `err@try` catches neither a request to leave the shell nor a crash. -/
theorem C53_try_exit (hs : Std env) {a handler : Expr} {c : Int}
    (ha : evalN P H (stdB P L) n a env w = (.exit c, env1, w1)) :
    evalN P H (stdB P L) (n + 1) (call c!"err" c!"try" [a, handler]) env w =
      (.exit c, env1, w1) := by
  lib hs, Init.errM
  brun [Builtins.tryB, M.catch_, ha]

/-! ### C54 -/

/-- C54, `eval a` runs the code `a` evaluates to in a copy of the variables: whatever it assigns, the
caller's variables are as evaluating `a` left them. Only the effects on the world remain. -/
theorem C54_eval (hs : Std env) {a v : Expr} {o : Outcome Expr}
    (ha : evalN P H (stdB P L) n a env w = (.ok v, env1, w1))
    (hv : evalN P H (stdB P L) n v env w1 = (o, env2, w2)) :
    evalN P H (stdB P L) (n + 1) (.apply (.symbol c!"eval") [a]) env w = (o, env1, w2) := by
  rw [eval_top hs (id := .eval) (nm := c!"eval") (hlp := []) (by mem_tac)]
  cases o <;> brun [Builtins.evalB, ha, hv]

/-- C54, in particular `eval` of quoted code never changes a variable. -/
theorem C54_eval_pure (hs : Std env) (a : Expr) :
    (evalN P H (stdB P L) (n + 1) (.apply (.symbol c!"eval") [.quote a]) env w).2.1 = env := by
  rw [C54_eval hs (evalN_quote ..) (o := (evalN P H (stdB P L) n a env w).1)
    (env2 := (evalN P H (stdB P L) n a env w).2.1)
    (w2 := (evalN P H (stdB P L) n a env w).2.2) rfl]

/-- C54, `exec` of quoted code is that code. -/
theorem C54_exec (hs : Std env) (a : Expr) :
    evalN P H (stdB P L) (n + 1) (.apply (.symbol c!"exec") [.quote a]) env w =
      evalN P H (stdB P L) n a env w := by
  rw [eval_top hs (id := .exec) (nm := c!"exec") (hlp := []) (by mem_tac)]
  brun [Builtins.execB]

/-- C54, `exec a` is evaluating `a` and then its value, in place. -/
theorem C54_exec_value (hs : Std env) {a v : Expr}
    (ha : evalN P H (stdB P L) n a env w = (.ok v, env1, w1)) :
    evalN P H (stdB P L) (n + 1) (.apply (.symbol c!"exec") [a]) env w =
      evalN P H (stdB P L) n v env1 w1 := by
  rw [eval_top hs (id := .exec) (nm := c!"exec") (hlp := []) (by mem_tac)]
  brun [Builtins.execB, ha]

example : ((evalN Demo.plat Demo.host (stdB Demo.plat Demo.lib) 3 (.do_ [
    .apply (.symbol c!"eval") [.quote (.assign c!"x" (.int (.lit 1)))],
    .apply (.symbol c!"exec") [.quote (.assign c!"y" (.int (.lit 2)))],
    .list [.symbol c!"x", .symbol c!"y"]]) Demo.env []).1) =
    .ok (.list [.symbol c!"x", .int (.lit 2)]) := rfl

end

/-! ### Instances: the hypotheses can be met -/

section

example := C52_codes_agree (P := Demo.plat) (H := Demo.host) (L := Demo.lib) (n := 0) (w := []) demo_std
  demo_std (a := .apply (.int (.lit 1)) []) (e := .cannotApply (.int (.lit 1)) [])
  ⟨nofun, nofun, nofun⟩ rfl

example := C53_try_ok (P := Demo.plat) (H := Demo.host) (L := Demo.lib) (n := 0) (w := [])
  demo_std (a := .list [.none]) (handler := .none) rfl

example := C53_try_err (P := Demo.plat) (H := Demo.host) (L := Demo.lib) (n := 1) (w := []) demo_std
  (a := .apply (.int (.lit 1)) []) (handler := .symbol c!"echo") rfl rfl

example := C53_try_exit (P := Demo.plat) (H := Demo.host) (L := Demo.lib) (n := 1) (w := []) demo_std
  (a := .apply (.symbol c!"exit") [.int (.lit 3)]) (handler := .symbol c!"echo") (c := 3) rfl

example := C54_eval (P := Demo.plat) (H := Demo.host) (L := Demo.lib) (n := 1) (w := []) demo_std
  (a := .quote (.assign c!"x" .none)) rfl rfl

example := C54_exec_value (P := Demo.plat) (H := Demo.host) (L := Demo.lib) (n := 1) (w := []) demo_std
  (a := .quote (.assign c!"x" .none)) rfl

end

end Dune.Props
