import Verif.Props.Arith
import Verif.Model.Parser
import Verif.Proof.Curry

/-!
C90: an operator given one operand is the function that waits for the other one.  `*`, `//` and `%`
keep the order: `(// a) b` is `a // b`.  `+` swaps it: `(+ a) b` is `b + a`, which matters for texts
and lists.
-/

namespace Dune.Props

open Spec

section

variable {W : Type} {P : Plat} {H : Host W} {L : Lib} {n : Nat}

theorem evalD_paren {B : BId → List Expr → M W Expr} {k : Nat} {e : Expr} {env : Env} {w : W} :
    evalD P H B (k + 1) (.group e) env w = evalD P H B k e env w := by
  rw [evalD]
  rfl

/-- body of the function `+ a` -/
def addBody : Expr := .apply (.builtin c!"+" .add []) [.symbol c!"arg1", .symbol c!"arg0"]

/-- the function `+ a` evaluates to -/
def addSection (cwd : Str) (v : Expr) : Expr :=
  .lambda c!"arg1" addBody [(c!"CWD", .str cwd), (c!"arg0", v), (c!"arg1", .none)] []

theorem reverse_eq : Builtins.reverseCurry2 (.builtin c!"+" .add []) =
    .lambda c!"arg0" (.lambda c!"arg1" addBody [(c!"CWD", .str c!"/"), (c!"arg1", .none)] [])
      [(c!"CWD", .str c!"/"), (c!"arg0", .none)] [] := rfl

theorem close_reverse (env : Env) :
    closeLambda env c!"arg0" (.lambda c!"arg1" addBody [(c!"CWD", .str c!"/"), (c!"arg1", .none)] [])
        ⟨[(c!"CWD", .str c!"/"), (c!"arg0", .none)], []⟩ =
      ⟨curryBinds2 env.getCwd (env.get c!"arg1"), []⟩ := by
  have hu : (Expr.lambda c!"arg1" addBody [(c!"CWD", .str c!"/"), (c!"arg1", .none)] []).usedSymbols =
    [c!"arg1", c!"arg0"] := rfl
  unfold closeLambda
  rw [hu]
  cases h : env.get c!"arg1" with
  | none => simp [capture, h, Env.isDefined, BMap.contains, BMap.get?, curryBinds2]; rfl
  | some v => simp [capture, h, Env.isDefined, BMap.contains, BMap.get?, curryBinds2]; rfl

theorem close_section (cwd cwd' : Str) (o : Option Expr) (v : Expr) :
    closeLambda (callEnv c!"arg0" ⟨curryBinds2 cwd o, []⟩ cwd' v) c!"arg1" addBody
        ⟨[(c!"CWD", .str c!"/"), (c!"arg1", .none)], []⟩ =
      ⟨[(c!"CWD", .str cwd'), (c!"arg0", v), (c!"arg1", .none)], []⟩ := by
  cases o <;> rfl

/-- Calling the function made of `+`. -/
theorem evalD_reverse {B : BId → List Expr → M W Expr} {k : Nat} {a va : Expr}
    {env env1 : Env} {w w1 : W} (ha : evalD P H B (k + 1) a env w = (.ok va, env1, w1)) :
    evalD P H B (k + 2) (.apply (Builtins.reverseCurry2 (.builtin c!"+" .add [])) [a]) env w =
      (.ok (addSection env.getCwd va), env1, w1) := by
  rw [reverse_eq, evalD]
  simp only [evalStep]
  rw [M.bind_ok (a := .lambda c!"arg0"
    (.lambda c!"arg1" addBody [(c!"CWD", .str c!"/"), (c!"arg1", .none)] [])
    (curryBinds2 env.getCwd (env.get c!"arg1")) []) (env' := env) (w' := w) (by
      rw [evalD]
      simp only [evalStep, M.getEnv_bind, close_reverse]
      rfl)]
  simp only [applyValue, M.getEnv_bind]
  rw [M.bind_ok ha]
  simp only [M.within]
  rw [evalD]
  simp only [evalStep, M.getEnv_bind, close_section]
  rfl

theorem evalN_reverse {va : Expr} (hx : Data 800 va) (env : Env) (w : W) :
    evalN P H (stdB P L) n (.apply (Builtins.reverseCurry2 (.builtin c!"+" .add [])) [va]) env w =
      (.ok (addSection env.getCwd va), env, w) := by
  cases n <;> exact evalD_reverse (k := 799) (C17_data_inert hx env w)

/-- `+ a` with a single operand. -/
theorem evalD_plus {k : Nat} {a va : Expr} {nm hlp : Str} {env env1 : Env} {w w1 : W}
    (hop : env.get c!"+" = some (.builtin nm .add hlp))
    (ha : evalN P H (stdB P L) n a env w = (.ok va, env1, w1)) (hx : Data 800 va) :
    evalD P H (bodyRun P H (stdB P L) n) (k + 2) (.apply (.symbol c!"+") [a]) env w =
      (.ok (addSection env1.getCwd va), env1, w1) := by
  rw [evalD]
  simp only [evalStep]
  rw [M.bind_ok (evalD_symbol hop)]
  simp only [applyValue, bodyRun, stdB]
  brun [Builtins.addB, ha, evalN_reverse hx]

/-- Calling `+ a`. -/
theorem evalN_section {a b vb va : Expr} {cwd : Str} {env env0 env1 : Env} {w w0 w1 : W}
    (hf : evalD P H (bodyRun P H (stdB P L) n) 800 a env w = (.ok (addSection cwd va), env0, w0))
    (hb : evalD P H (bodyRun P H (stdB P L) n) 800 b env0 w0 = (.ok vb, env1, w1))
    (hd : Data 801 vb) :
    ∃ msg, evalN P H (stdB P L) (n + 1) (.apply a [b]) env w =
      (opResult msg (.ok (Expr.add P vb va)), env1, w1) := by
  refine ⟨c!"cannot " ++ c!"add" ++ c!" " ++ debug P vb ++ c!" and " ++
    debug P (.symbol c!"arg0"), ?_⟩
  rw [evalN_unfold]
  simp only [evalStep]
  rw [M.bind_ok hf]
  simp only [applyValue, addSection, M.getEnv_bind]
  rw [M.bind_ok hb]
  have hc : callEnv c!"arg1" ⟨[(c!"CWD", .str cwd), (c!"arg0", va), (c!"arg1", .none)], []⟩
      env0.getCwd vb = curryCallEnv env0.getCwd va vb := rfl
  simp only [hc, M.within, addBody]
  rw [show (800 : Nat) = 798 + 2 from rfl, evalD_builtin]
  simp only [bodyRun, stdB, Builtins.addB, Builtins.evArg, Builtins.arg, List.getElem?_cons_zero,
    BProg.run_bind, BProg.run_ret, pure_bind, BProg.run_ev, List.tail_cons]
  rw [M.bind_ok (evalN_arg1 _ _ _ _ _),
    opLoop_two (evalN_data hd _ _) (evalN_arg0 _ _ _ _ _)]

/-- C90.  `(+ a) b`, for data `va` and `vb` as values of `a` and `b`: `b` comes first.  Texts, byte
strings and lists are concatenated in this order, integers added exactly or with an error. -/
theorem C90_add {a b va vb : Expr} {nm hlp : Str} {env env1 env2 : Env} {w w1 w2 : W}
    (hop : env.get c!"+" = some (.builtin nm .add hlp))
    (ha : evalN P H (stdB P L) n a env w = (.ok va, env1, w1)) (hda : Data 800 va)
    (hb : evalD P H (bodyRun P H (stdB P L) n) 800 b env1 w1 = (.ok vb, env2, w2))
    (hdb : Data 801 vb) :
    ∃ o, evalN P H (stdB P L) (n + 1) (.apply (.group (.apply (.symbol c!"+") [a])) [b]) env w =
        (o, env2, w2) ∧
      (∀ x y, va = .str x → vb = .str y → o = .ok (.str (y ++ x))) ∧
      (∀ x y, va = .bytes x → vb = .bytes y → o = .ok (.bytes (y ++ x))) ∧
      (∀ x y, va = .list x → vb = .list y → o = .ok (.list (y ++ x))) ∧
      (∀ x y, va = .int x → vb = .int y → ExactOrError (some (y.val + x.val)) o) := by
  obtain ⟨msg, h⟩ := evalN_section (a := .group (.apply (.symbol c!"+") [a]))
    (evalD_paren.trans (evalD_plus (k := 797) hop ha hda)) hb hdb
  refine ⟨_, h, ?_, ?_, ?_, ?_⟩
  · rintro x y rfl rfl
    rfl
  · rintro x y rfl rfl
    rfl
  · rintro x y rfl rfl
    rfl
  · rintro x y rfl rfl
    exact exactOrError_of_ofInt?

/-- `(+ "b") "a"` is `"ab"`. -/
example : ∃ o, evalN Demo.plat Demo.host (stdB Demo.plat Demo.lib) 2
      (.apply (.group (.apply (.symbol c!"+") [.str c!"b"])) [.str c!"a"]) Demo.env [] =
      (o, Demo.env, []) ∧ o = .ok (.str c!"ab") := by
  obtain ⟨o, h1, h2, -⟩ := C90_add (P := Demo.plat) (H := Demo.host) (L := Demo.lib) (n := 1)
    (a := .str c!"b") (b := .str c!"a") (env := Demo.env) (w := []) rfl rfl (.str _) rfl (.str _)
  exact ⟨o, h1, h2 _ _ rfl rfl⟩

/-! ### The curried operators -/

/-- `op a` for a curried operator: nothing of the operator runs yet. -/
theorem evalD_part {B : BId → List Expr → M W Expr} {k : Nat} {nm hlp : Str} {id : BId}
    {f a va : Expr} {env env0 env1 : Env} {w w0 w1 : W}
    (hf : evalD P H B (k + 1) f env w = (.ok (Builtins.curry2 (.builtin nm id hlp)), env0, w0))
    (ha : evalD P H B (k + 1) a env0 w0 = (.ok va, env1, w1)) :
    evalD P H B (k + 2) (.apply f [a]) env w =
      (.ok (curryInner (.builtin nm id hlp) env0.getCwd (some va)), env1, w1) := by
  have hc : Builtins.curry2 (.builtin nm id hlp) =
      .lambda c!"arg0" (.lambda c!"arg1" (.apply (.builtin nm id hlp) curryArgs)
        [(c!"CWD", .str c!"/"), (c!"arg1", .none)] []) [(c!"CWD", .str c!"/"), (c!"arg0", .none)]
        [] := rfl
  rw [evalD]
  simp only [evalStep]
  rw [M.bind_ok hf, hc]
  simp only [applyValue, M.getEnv_bind]
  rw [M.bind_ok ha]
  rfl

theorem eval_part {id : BId} {op verb nm hlp : Str} {f : Expr → Expr → Outcome Expr}
    {a b x y : Expr} {env env1 env2 : Env} {w w1 w2 : W}
    (hid : ∀ args, stdB P L id args =
      (do let r ← Builtins.evArg args 0; Builtins.opLoop P verb f r args.tail))
    (hop : env.get op = some (Builtins.curry2 (.builtin nm id hlp)))
    (ha : evalD P H (bodyRun P H (stdB P L) n) 798 a env w = (.ok x, env1, w1))
    (hb : evalD P H (bodyRun P H (stdB P L) n) 800 b env1 w1 = (.ok y, env2, w2))
    (hx : Data 801 x) :
    ∃ msg, evalN P H (stdB P L) (n + 1) (.apply (.group (.apply (.symbol op) [a])) [b]) env w =
      (opResult msg (f x y), env2, w2) := by
  refine ⟨c!"cannot " ++ verb ++ c!" " ++ debug P x ++ c!" and " ++ debug P (.symbol c!"arg1"), ?_⟩
  rw [evalN_unfold]
  simp only [evalStep]
  have hp : evalD P H (bodyRun P H (stdB P L) n) 800 (.group (.apply (.symbol op) [a])) env w =
      (.ok (curryInner (.builtin nm id hlp) env.getCwd (some x)), env1, w1) :=
    evalD_paren.trans (evalD_part (k := 797) (evalD_symbol hop) ha)
  rw [M.bind_ok hp]
  simp only [applyValue, curryInner, M.getEnv_bind]
  rw [M.bind_ok hb]
  have hc : callEnv c!"arg1" ⟨curryBinds1 env.getCwd (some x), []⟩ env1.getCwd y =
      curryCallEnv env1.getCwd x y := rfl
  simp only [hc, M.within]
  rw [show (800 : Nat) = 798 + 2 from rfl, evalD_builtin]
  simp only [bodyRun, hid, Builtins.evArg, Builtins.arg, List.getElem?_cons_zero,
    BProg.run_bind, BProg.run_ret, pure_bind, BProg.run_ev, List.tail_cons]
  rw [M.bind_ok (evalN_arg0 _ _ _ _ _), opLoop_two (evalN_data hx _ _) (evalN_arg1 _ _ _ _ _)]

/-- C90.  `(* a) b` on integers is `a * b`. -/
theorem C90_mul {a b : Expr} {x y : I64} {env env1 env2 : Env} {w w1 w2 : W} (hs : Std env)
    (ha : evalD P H (bodyRun P H (stdB P L) n) 798 a env w = (.ok (.int x), env1, w1))
    (hb : evalD P H (bodyRun P H (stdB P L) n) 800 b env1 w1 = (.ok (.int y), env2, w2)) :
    ∃ o, evalN P H (stdB P L) (n + 1) (.apply (.group (.apply (.symbol c!"*") [a])) [b]) env w =
      (o, env2, w2) ∧ ExactOrError (some (x.val * y.val)) o := by
  have hop := hs.op (c!"*", Builtins.curry2 (.builtin c!"*" .mul [])) (by mem_tac)
  obtain ⟨msg, h⟩ := eval_part (fun _ => rfl) hop ha hb (.int _)
  exact ⟨_, h, exactOrError_of_ofInt?⟩

/-- C90.  `(// a) b` on integers is `a // b`: the operand given first is divided. -/
theorem C90_div {a b : Expr} {x y : I64} {env env1 env2 : Env} {w w1 w2 : W} (hs : Std env)
    (ha : evalD P H (bodyRun P H (stdB P L) n) 798 a env w = (.ok (.int x), env1, w1))
    (hb : evalD P H (bodyRun P H (stdB P L) n) 800 b env1 w1 = (.ok (.int y), env2, w2)) :
    ∃ o, evalN P H (stdB P L) (n + 1) (.apply (.group (.apply (.symbol c!"//") [a])) [b]) env w =
      (o, env2, w2) ∧
      ((y.val = 0 ∧ ExactOrError none o) ∨
        ∃ q r, IsTruncDiv x.val y.val q r ∧ ExactOrError (some q) o) := by
  have hop := hs.op (c!"//", Builtins.curry2 (.builtin c!"//" .div [])) (by mem_tac)
  obtain ⟨msg, h⟩ := eval_part (fun _ => rfl) hop ha hb (.int _)
  refine ⟨_, h, ?_⟩
  by_cases h0 : y.val = 0
  · refine .inl ⟨h0, .inr ⟨by simp, msg, ?_⟩⟩
    simp [Expr.div, Expr.checkedDiv, h0, Expr.ofChecked, opResult]
  · refine .inr ⟨x.val.tdiv y.val, x.val.tmod y.val, isTruncDiv x.val h0, ?_⟩
    simp only [Expr.div, Expr.checkedDiv, h0, if_false]
    exact exactOrError_of_ofInt?

/-- C90.  `(% a) b` on integers is `a % b`, the remainder of the operand given first; it crashes
the shell for `b = 0` and for `MIN % -1`. -/
theorem C90_rem {a b : Expr} {x y : I64} {env env1 env2 : Env} {w w1 w2 : W} (hs : Std env)
    (ha : evalD P H (bodyRun P H (stdB P L) n) 798 a env w = (.ok (.int x), env1, w1))
    (hb : evalD P H (bodyRun P H (stdB P L) n) 800 b env1 w1 = (.ok (.int y), env2, w2)) :
    ∃ o, evalN P H (stdB P L) (n + 1) (.apply (.group (.apply (.symbol c!"%") [a])) [b]) env w =
      (o, env2, w2) ∧
      if y.val = 0 ∨ (x.val = -2 ^ 63 ∧ y.val = -1) then o = .panic
      else ∃ q, ∃ r : I64, IsTruncDiv x.val y.val q r.val ∧ o = .ok (.int r) := by
  have hop := hs.op (c!"%", Builtins.curry2 (.builtin c!"%" .rem [])) (by mem_tac)
  obtain ⟨msg, h⟩ := eval_part (fun _ => rfl) hop ha hb (.int _)
  refine ⟨_, h, ?_⟩
  by_cases h0 : y.val = 0
  · simp [h0, Expr.rem, opResult]
  · have hq := quot_overflow x y h0
    by_cases hc : x.val = -2 ^ 63 ∧ y.val = -1
    · rw [if_pos (.inr hc)]
      simp only [Expr.rem, h0, if_false, hq.mpr hc, opResult]
    · rw [if_neg (by simpa [h0] using hc)]
      cases hq' : I64.ofInt? (x.val.tdiv y.val) with
      | none => exact absurd (hq.mp hq') hc
      | some q =>
        obtain ⟨r, hr, hr'⟩ := rem_fits x h0
        refine ⟨_, r, hr ▸ isTruncDiv x.val h0, ?_⟩
        simp only [Expr.rem, h0, if_false, hq', hr', opResult]

/-- C90.  `-` has no such function: given one operand it is the negation (C33), a number, and
calling that is an error; `b` is not evaluated. -/
theorem C90_sub {a b : Expr} {x : I64} {env env1 : Env} {w w1 : W} (hs : Std env)
    (ha : evalN P H (stdB P L) n a env w = (.ok (.int x), env1, w1)) (hx : x.val ≠ -2 ^ 63) :
    evalN P H (stdB P L) (n + 1) (.apply (.group (.apply (.symbol c!"-") [a])) [b]) env w =
      (.err (.cannotApply (.group (.apply (.symbol c!"-") [a])) [b]), env1, w1) := by
  have hop : env.get c!"-" = some (.builtin c!"-" .sub []) :=
    hs.op (Init.b c!"-" .sub) (by mem_tac)
  have hlo := x.lo
  have hhi := x.hi
  have hb : -9223372036854775808 ≤ -x.val ∧ -x.val < 9223372036854775808 := by omega
  have hn : I64.ofInt? (-x.val) = some ⟨-x.val, hb.1, hb.2⟩ := by
    simp only [I64.ofInt?, hb, and_self, dite_true]
  have hp : evalD P H (bodyRun P H (stdB P L) n) 799 (.apply (.symbol c!"-") [a]) env w =
      (.ok (.int ⟨-x.val, hb.1, hb.2⟩), env1, w1) := by
    rw [evalD]
    simp only [evalStep]
    rw [M.bind_ok (evalD_symbol hop)]
    simp only [applyValue, bodyRun, stdB]
    brun [Builtins.subB, ha, Expr.neg, hn]
  rw [evalN_unfold]
  simp only [evalStep]
  rw [M.bind_ok (evalD_paren.trans hp)]
  rfl

example : (evalN Demo.plat Demo.host (stdB Demo.plat Demo.lib) 2
    (.apply (.group (.apply (.symbol c!"-") [.int (.lit 7)])) [.int (.lit 2)]) Demo.env []).1 =
    .err (.cannotApply (.group (.apply (.symbol c!"-") [.int (.lit 7)])) [.int (.lit 2)]) := by
  rw [C90_sub (x := .lit 7) demo_std rfl (by decide)]

/-- `(// 7) 2` is 3, `(% 7) 4` is 3. -/
example : (evalN Demo.plat Demo.host (stdB Demo.plat Demo.lib) 2
    (.apply (.group (.apply (.symbol c!"//") [.int (.lit 7)])) [.int (.lit 2)]) Demo.env []).1 =
    .ok (.int (.lit 3)) := rfl
example : (evalN Demo.plat Demo.host (stdB Demo.plat Demo.lib) 2
    (.apply (.group (.apply (.symbol c!"%") [.int (.lit 7)])) [.int (.lit 4)]) Demo.env []).1 =
    .ok (.int (.lit 3)) := rfl

/-- This is what such a text is read as. -/
example : parseText Demo.plat c!"(+ 1) 2" =
    .ok (.do_ [.apply (.group (.apply (.symbol c!"+") [.int (.lit 1)])) [.int (.lit 2)]]) := by
  rfl

end

/-! ### Instances: the hypotheses can be met -/

example := C90_mul (P := Demo.plat) (H := Demo.host) (L := Demo.lib) (n := 0) (w := [])
  demo_std (a := .int .min) (b := .int (.lit 2)) rfl rfl

example := C90_div (P := Demo.plat) (H := Demo.host) (L := Demo.lib) (n := 0) (w := [])
  demo_std (a := .int (.lit 7)) (b := .int (.lit 0)) rfl rfl

example := C90_rem (P := Demo.plat) (H := Demo.host) (L := Demo.lib) (n := 0) (w := [])
  demo_std (a := .int .min) (b := .int (.lit 2)) rfl rfl

end Dune.Props
