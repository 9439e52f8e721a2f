import Verif.Spec.Program
import Verif.Props.Arith
import Verif.Props.Basics
import Verif.Props.Eval
import Mathlib.Data.List.Forall2

/-! Integer programs, evaluated. -/

namespace Dune.Props.Calc

open Spec Spec.Calc

section

variable {W : Type} {P : Plat} {H : Host W} {L : Lib}

/-- What the operators, `to` and `println` are in a new shell. -/
def tools : List (Str × Expr) :=
  [(c!"+", .builtin c!"+" .add []), (c!"-", .builtin c!"-" .sub []),
   (c!"*", Builtins.curry2 (.builtin c!"*" .mul [])),
   (c!"//", Builtins.curry2 (.builtin c!"//" .div [])),
   (c!"%", Builtins.curry2 (.builtin c!"%" .rem [])),
   (c!"==", .builtin c!"==" .eq []), (c!"!=", .builtin c!"!=" .ne []),
   (c!"<", .builtin c!"<" .lt []), (c!"<=", .builtin c!"<=" .le []),
   (c!">", .builtin c!">" .gt []), (c!">=", .builtin c!">=" .ge []),
   (c!"&&", .builtin c!"&&" .and []), (c!"||", .builtin c!"||" .or []),
   (c!"to", .builtin c!"to" .to []), (c!"println", .builtin c!"println" .println [])]

/-- The name has its meaning. -/
def Tool (env : Env) (s : Str) : Prop := ∀ v, (s, v) ∈ tools → env.get s = some v

theorem tool_of_std {env : Env} (hs : Std env) (s : Str) : Tool env s := by
  intro v h
  simp only [tools, List.mem_cons, List.not_mem_nil, or_false, Prod.mk.injEq] at h
  rcases h with ⟨rfl, rfl⟩ | ⟨rfl, rfl⟩ | ⟨rfl, rfl⟩ | ⟨rfl, rfl⟩ | ⟨rfl, rfl⟩ | ⟨rfl, rfl⟩ | ⟨rfl, rfl⟩ |
    ⟨rfl, rfl⟩ | ⟨rfl, rfl⟩ | ⟨rfl, rfl⟩ | ⟨rfl, rfl⟩ | ⟨rfl, rfl⟩ | ⟨rfl, rfl⟩ | ⟨rfl, rfl⟩ | ⟨rfl, rfl⟩
  · exact hs.op (Init.b c!"+" .add) (by mem_tac)
  · exact hs.op (Init.b c!"-" .sub) (by mem_tac)
  · exact hs.op (c!"*", _) (by mem_tac)
  · exact hs.op (c!"//", _) (by mem_tac)
  · exact hs.op (c!"%", _) (by mem_tac)
  · exact hs.op (Init.b c!"==" .eq) (by mem_tac)
  · exact hs.op (Init.b c!"!=" .ne) (by mem_tac)
  · exact hs.op (Init.b c!"<" .lt) (by mem_tac)
  · exact hs.op (Init.b c!"<=" .le) (by mem_tac)
  · exact hs.op (Init.b c!">" .gt) (by mem_tac)
  · exact hs.op (Init.b c!">=" .ge) (by mem_tac)
  · exact hs.op (Init.b c!"&&" .and) (by mem_tac)
  · exact hs.op (Init.b c!"||" .or) (by mem_tac)
  · exact hs.top (Init.b c!"to" .to) (by mem_tac)
  · exact hs.top (Init.b c!"println" .println) (by mem_tac)

theorem not_tool {x : Str} (hx : Variable x) (v : Expr) : (x, v) ∉ tools := by
  intro h
  have h1 : x ∈ tools.map Prod.fst := List.mem_map.mpr ⟨_, h, rfl⟩
  have h2 : x ∈ c!"println" :: reserved := (show tools.map Prod.fst ⊆ _ by decide) h1
  rcases List.mem_cons.1 h2 with h2 | h2
  · exact hx.2.1 h2
  · exact hx.1 h2

/-- A computation that neither sets variables nor prints, and gives `r`, where `val` says which
values stand for which. -/
def Gives {α : Type} (val : α → Expr → Prop) (r : Ans α) (m : M W Expr) (env : Env) (w : W) : Prop :=
  match r with
  | .ok a => ∃ v, val a v ∧ m env w = (.ok v, env, w)
  | .error => ∃ msg, m env w = (.err (.customError msg), env, w)
  | .crash => m env w = (.panic, env, w)
  | .open_ => True

def isInt (z : Int) (v : Expr) : Prop := ∃ i : I64, i.val = z ∧ v = .int i
def isBool (b : Bool) (v : Expr) : Prop := v = .bool b

/-- `v` is a function of `m` integers, nested at most `d` deep, that computes `F`. -/
def IsFn (H : Host W) (P : Plat) (L : Lib) (d : Nat) : Nat → (List Int → Ans Int) → Expr → Prop
  | 0, _, _ => False
  | 1, F, v => ∃ p body binds, v = .lambda p body binds [] ∧
      ∀ (n k : Nat) (i : I64) (cwd : Str) (w : W), d ≤ n → 3 * d + 2 ≤ k → 3 * d + 2 ≤ 801 →
        Gives isInt (F [i.val]) (evalD P H (bodyRun P H (stdB P L) n) k body)
          (callEnv p ⟨binds, []⟩ cwd (.int i)) w
  | m + 2, F, v => ∃ p body binds, v = .lambda p body binds [] ∧
      ∀ (i : I64) (cwd : Str), ∃ g, (∀ n k w,
          evalD P H (bodyRun P H (stdB P L) n) (k + 1) body (callEnv p ⟨binds, []⟩ cwd (.int i)) w =
            (.ok g, callEnv p ⟨binds, []⟩ cwd (.int i), w)) ∧
        ∀ env, ∃ g', (∀ n k w, evalD P H (bodyRun P H (stdB P L) n) (k + 1) g env w = (.ok g', env, w)) ∧
          IsFn H P L d (m + 1) (fun zs => F (i.val :: zs)) g'

/-- The environment has for this name what the variables say, and the operators their meaning. -/
def Known (H : Host W) (P : Plat) (L : Lib) (Γ : Funs) (env : Env) (σ : Vars) (s : Str) : Prop :=
  s ≠ c!"CWD" → Tool env s ∧
    match σ s with
    | none => True
    | some (.int z) => ∃ i : I64, i.val = z ∧ env.get s = some (.int i)
    | some (.fn m F) => ∃ d v, Γ s = some (m, d) ∧ env.get s = some v ∧ IsFn H P L d m F v

/-- The names an expression mentions are known. -/
def Knows (H : Host W) (P : Plat) (L : Lib) (Γ : Funs) (env : Env) (σ : Vars) (e : Expr) : Prop :=
  ∀ s, Mentions e s → Known H P L Γ env σ s

theorem Knows.sub {Γ : Funs} {env : Env} {σ : Vars} {e e' : Expr} (h : Knows H P L Γ env σ e)
    (hp : Part e e') : Knows H P L Γ env σ e' := fun s hs => h s (.inside hp hs)

theorem Knows.left {Γ : Funs} {env : Env} {σ : Vars} {op : Str} {x y : Expr}
    (h : Knows H P L Γ env σ (infix_ op x y)) : Knows H P L Γ env σ x :=
  (h.sub .group).sub (.argument (by simp))

theorem Knows.right {Γ : Funs} {env : Env} {σ : Vars} {op : Str} {x y : Expr}
    (h : Knows H P L Γ env σ (infix_ op x y)) : Knows H P L Γ env σ y :=
  (h.sub .group).sub (.argument (by simp))

theorem Knows.op {Γ : Funs} {env : Env} {σ : Vars} {op : Str} {x y : Expr} (ho : op ≠ c!"CWD")
    (h : Knows H P L Γ env σ (infix_ op x y)) : Tool env op :=
  (h op (.inside .group (.inside .applied (.here _))) ho).1

theorem Known.mono {Γ : Funs} {env env' : Env} {σ : Vars} {s : Str} (h : Known H P L Γ env σ s)
    (he : s ≠ c!"CWD" → ∀ v, env.get s = some v → env'.get s = some v) : Known H P L Γ env' σ s := by
  intro hs
  obtain ⟨h1, h2⟩ := h hs
  refine ⟨fun v hv => he hs v (h1 v hv), ?_⟩
  split
  · trivial
  · rename_i z hz
    rw [hz] at h2
    obtain ⟨i, hi, hg⟩ := h2
    exact ⟨i, hi, he hs _ hg⟩
  · rename_i m F hz
    rw [hz] at h2
    obtain ⟨d, v, hd, hg, hv⟩ := h2
    exact ⟨d, v, hd, he hs _ hg, hv⟩

theorem known_int {Γ : Funs} {env : Env} {σ : Vars} {x : Str} {i : I64} (hx : Variable x)
    (hg : env.get x = some (.int i)) (z : Int) (hz : i.val = z) :
    Known H P L Γ env (σ.set x (.int z)) x := by
  refine fun _ => ⟨fun v hv => absurd hv (not_tool hx v), ?_⟩
  simp only [Vars.set, if_true]
  exact ⟨i, hz, hg⟩

theorem known_define {Γ : Funs} {env : Env} {σ : Vars} {x s : Str} {v : Expr} {a : Val} (hsx : s ≠ x)
    (h : Known H P L Γ env σ s) : Known H P L Γ (env.define x v) (σ.set x a) s := by
  have : Known H P L Γ env (σ.set x a) s := by
    unfold Known at h ⊢
    simpa only [Vars.set, if_neg hsx] using h
  exact this.mono fun _ v hv => by rw [Env.get_define, if_neg (Ne.symm hsx)]; exact hv

/-! ### Operators -/

/-- `exact` as the checked operations give it -/
theorem gives_exact {z : Int} {msg : Str} {env : Env} {w : W} {m : M W Expr}
    (h : m env w = (opResult msg (.ok (Expr.ofChecked (I64.ofInt? z))), env, w)) :
    Gives isInt (exact z) m env w := by
  have hs : Small z ↔ -9223372036854775808 ≤ z ∧ z < 9223372036854775808 := by
    unfold Small; omega
  unfold exact
  by_cases hz : -9223372036854775808 ≤ z ∧ z < 9223372036854775808
  · rw [if_pos (hs.2 hz)]
    refine ⟨.int ⟨z, hz.1, hz.2⟩, ⟨_, rfl, rfl⟩, ?_⟩
    rw [h]
    simp [I64.ofInt?, hz, Expr.ofChecked, opResult]
  · rw [if_neg (fun c => hz (hs.1 c))]
    refine ⟨msg, ?_⟩
    rw [h]
    simp [I64.ofInt?, hz, Expr.ofChecked, opResult]

/-- The operation of an operator. -/
def opFun (P : Plat) : Op → Expr → Expr → Outcome Expr
  | .add => fun a b => .ok (Expr.add P a b)
  | .sub => fun a b => .ok (Expr.sub P a b)
  | .mul => Expr.mul P
  | .div => fun a b => .ok (Expr.div P a b)
  | .rem => Expr.rem

theorem gives_op {o : Op} {x y : I64} {msg : Str} {env : Env} {w : W} {m : M W Expr}
    (h : m env w = (opResult msg (opFun P o (.int x) (.int y)), env, w)) :
    Gives isInt (o.apply x.val y.val) m env w := by
  cases o with
  | add => exact gives_exact h
  | sub => exact gives_exact h
  | mul => exact gives_exact h
  | div =>
    simp only [Op.apply]
    by_cases h0 : y.val = 0
    · rw [if_pos h0]
      refine ⟨msg, ?_⟩
      rw [h]
      simp [opFun, Expr.div, Expr.checkedDiv, h0, Expr.ofChecked, opResult]
    · rw [if_neg h0]
      refine gives_exact (msg := msg) ?_
      rw [h]
      simp only [opFun, Expr.div, Expr.checkedDiv, h0, if_false]
  | rem =>
    simp only [Op.apply]
    by_cases h0 : y.val = 0
    · rw [if_pos (.inl h0)]
      show m env w = _
      rw [h]
      simp [h0, opFun, Expr.rem, opResult]
    · have hq := quot_overflow x y h0
      by_cases hc : x.val = -2 ^ 63 ∧ y.val = -1
      · rw [if_pos (.inr hc)]
        show m env w = _
        rw [h]
        simp only [opFun, Expr.rem, h0, if_false, hq.mpr hc, opResult]
      · rw [if_neg (by simpa [h0] using hc)]
        cases hq' : I64.ofInt? (x.val.tdiv y.val) with
        | none => exact absurd (hq.mp hq') hc
        | some q =>
          obtain ⟨r, hr, hr'⟩ := rem_fits x h0
          refine ⟨.int r, ⟨r, hr, rfl⟩, ?_⟩
          rw [h]
          simp only [opFun, Expr.rem, h0, if_false, hq', hr', opResult]

/-- one operand after the other -/
def both (o : Op) : Ans Int → Ans Int → Ans Int
  | .ok x, .ok y => o.apply x y
  | .ok _, r => r
  | r, _ => r

theorem arith_bin (σ : Vars) (o : Op) (a b : Arith) :
    (Arith.bin o a b).eval σ = both o (a.eval σ) (b.eval σ) := by
  rw [Arith.eval]
  cases a.eval σ <;> cases b.eval σ <;> rfl

theorem isInt_inert {n : Nat} {z : Int} {v : Expr} (h : isInt z v) (env : Env) (w : W) :
    evalN P H (stdB P L) n v env w = (.ok v, env, w) := by
  obtain ⟨i, -, rfl⟩ := h
  simp

/-- `+` and `-` -/
theorem gives_add {n k : Nat} {o : Op} (ho : o ∈ [Op.add, .sub]) {x y : Expr} {ra rb : Ans Int}
    {env : Env} {w : W} (ht : Tool env o.text)
    (ha : Gives isInt ra (evalN P H (stdB P L) n x) env w)
    (hb : Gives isInt rb (evalN P H (stdB P L) n y) env w) :
    Gives isInt (both o ra rb) (evalD P H (bodyRun P H (stdB P L) n) (k + 3) (infix_ o.text x y)) env
      w := by
  obtain ⟨verb, h0⟩ : ∃ verb,
      evalD P H (bodyRun P H (stdB P L) n) (k + 3) (infix_ o.text x y) env w =
      (do let r ← evalN P H (stdB P L) n x
          (Builtins.opLoop P verb (opFun P o) r [y]).run H (evalN P H (stdB P L) n)) env w := by
    rw [infix_, evalD]
    simp only [evalStep]
    rw [evalD]
    simp only [evalStep]
    simp only [List.mem_cons, List.not_mem_nil, or_false] at ho
    rcases ho with rfl | rfl
    · rw [M.bind_ok (evalD_symbol (x := Op.add.text) (ht _ (by mem_tac)))]
      simp only [applyValue, bodyRun, stdB, Builtins.addB, Builtins.evArg, Builtins.arg,
        List.getElem?_cons_zero, BProg.run_bind, BProg.run_ret, pure_bind, BProg.run_ev,
        List.tail_cons]
      exact ⟨_, rfl⟩
    · rw [M.bind_ok (evalD_symbol (x := Op.sub.text) (ht _ (by mem_tac)))]
      simp only [applyValue, bodyRun, stdB, Builtins.subB, Builtins.evArg, Builtins.arg,
        List.getElem?_cons_zero, BProg.run_bind, BProg.run_ret, pure_bind, BProg.run_ev,
        List.tail_cons]
      exact ⟨_, rfl⟩
  cases ra with
  | ok u =>
    obtain ⟨v, hv, e1⟩ := ha
    rw [M.bind_ok e1] at h0
    cases rb with
    | ok u' =>
      obtain ⟨v', hv', e2⟩ := hb
      rw [opLoop_two (isInt_inert hv _ _) e2] at h0
      obtain ⟨i, rfl, rfl⟩ := hv
      obtain ⟨j, rfl, rfl⟩ := hv'
      exact gives_op h0
    | error =>
      obtain ⟨msg, e2⟩ := hb
      refine ⟨msg, ?_⟩
      rw [h0]
      simp only [Builtins.opLoop, BProg.run_bind, BProg.run_ev]
      rw [M.bind_ok (isInt_inert hv _ _), M.bind_err e2]
    | crash =>
      show _ = _
      rw [h0]
      simp only [Builtins.opLoop, BProg.run_bind, BProg.run_ev]
      rw [M.bind_ok (isInt_inert hv _ _), M.bind_panic hb]
    | open_ => exact trivial
  | error =>
    obtain ⟨msg, e1⟩ := ha
    rw [M.bind_err e1] at h0
    cases rb <;> exact ⟨msg, h0⟩
  | crash =>
    have e1 : evalN P H (stdB P L) n x env w = _ := ha
    rw [M.bind_panic e1] at h0
    cases rb <;> exact h0
  | open_ => cases rb <;> exact trivial

/-- A curried operator whose first or second operand fails. -/
theorem evalD_curry2_fail {B : BId → List Expr → M W Expr} {k : Nat} {nm hlp : Str} {id : BId}
    {f a b : Expr} {env env0 : Env} {w w0 : W} {o : Outcome Expr}
    (ho : o = .panic ∨ ∃ e, o = .err e)
    (hf : evalD P H B (k + 3) f env w = (.ok (Builtins.curry2 (.builtin nm id hlp)), env0, w0)) :
    (∀ env1 w1, evalD P H B (k + 3) a env0 w0 = (o, env1, w1) →
      evalD P H B (k + 4) (.apply f [a, b]) env w = (o, env1, w1)) ∧
    (∀ va env1 w1 env2 w2, evalD P H B (k + 3) a env0 w0 = (.ok va, env1, w1) →
      evalD P H B (k + 2) b env1 w1 = (o, env2, w2) →
      evalD P H B (k + 4) (.apply f [a, b]) env w = (o, env2, w2)) := by
  have hc : Builtins.curry2 (.builtin nm id hlp) =
      .lambda c!"arg0" (.lambda c!"arg1" (.apply (.builtin nm id hlp) curryArgs)
        [(c!"CWD", .str c!"/"), (c!"arg1", .none)] []) [(c!"CWD", .str c!"/"), (c!"arg0", .none)]
        [] := rfl
  have fail : ∀ {m : M W Expr} {g : Expr → M W Expr} {e e' : Env} {u u' : W},
      m e u = (o, e', u') → (m >>= g) e u = (o, e', u') := by
    intro m g e e' u u' h
    rcases ho with rfl | ⟨x, rfl⟩
    · exact M.bind_panic h
    · exact M.bind_err h
  constructor
  · intro env1 w1 ha
    rw [evalD]
    simp only [evalStep]
    rw [M.bind_ok hf, hc]
    simp only [applyValue, M.getEnv_bind]
    rw [fail ha]
  · intro va env1 w1 env2 w2 ha hb
    rw [evalD]
    simp only [evalStep]
    rw [M.bind_ok hf, hc]
    simp only [applyValue, M.getEnv_bind]
    rw [M.bind_ok ha]
    rw [M.bind_ok (a := .lambda c!"arg1" (.apply (.builtin nm id hlp) curryArgs)
        [(c!"CWD", .str env0.getCwd), (c!"arg0", va), (c!"arg1", .none)] [])
        (env' := env1) (w' := w1) rfl]
    rw [evalD]
    simp only [evalStep]
    rw [M.bind_ok (a := .lambda c!"arg1" (.apply (.builtin nm id hlp) curryArgs)
      [(c!"CWD", .str env1.getCwd), (c!"arg0", va), (c!"arg1", .none)] [])
      (env' := env1) (w' := w1) rfl]
    simp only [applyValue, M.getEnv_bind]
    rw [fail hb]

/-- `*`, `//` and `%` -/
theorem gives_mul {n k : Nat} {o : Op} (ho : o ∈ [Op.mul, .div, .rem]) {x y : Expr}
    {ra rb : Ans Int} {env : Env} {w : W} (ht : Tool env o.text)
    (ha : Gives isInt ra (evalD P H (bodyRun P H (stdB P L) n) (k + 3) x) env w)
    (hb : Gives isInt rb (evalD P H (bodyRun P H (stdB P L) n) (k + 2) y) env w) :
    Gives isInt (both o ra rb) (evalD P H (bodyRun P H (stdB P L) n) (k + 5) (infix_ o.text x y)) env
      w := by
  have h0 : evalD P H (bodyRun P H (stdB P L) n) (k + 5) (infix_ o.text x y) env w =
      evalD P H (bodyRun P H (stdB P L) n) (k + 4) (.apply (.symbol o.text) [x, y]) env w := by
    rw [infix_, evalD]
    rfl
  obtain ⟨nm, id, verb, hop, hid⟩ : ∃ nm id verb,
      env.get o.text = some (Builtins.curry2 (.builtin nm id [])) ∧
      ∀ args, stdB P L id args =
        (do let r ← Builtins.evArg args 0; Builtins.opLoop P verb (opFun P o) r args.tail) := by
    simp only [List.mem_cons, List.not_mem_nil, or_false] at ho
    rcases ho with rfl | rfl | rfl
    · exact ⟨_, .mul, _, ht _ (by mem_tac), fun _ => rfl⟩
    · exact ⟨_, .div, _, ht _ (by mem_tac), fun _ => rfl⟩
    · exact ⟨_, .rem, _, ht _ (by mem_tac), fun _ => rfl⟩
  have hf := evalD_symbol (P := P) (H := H) (B := bodyRun P H (stdB P L) n) (k := k + 2) (w := w) hop
  cases ra with
  | ok u =>
    obtain ⟨v, hv, e1⟩ := ha
    cases rb with
    | ok u' =>
      obtain ⟨v', hv', e2⟩ := hb
      rw [evalD_curry2 hf e1 e2] at h0
      simp only [bodyRun, hid, Builtins.evArg, Builtins.arg, List.getElem?_cons_zero,
        BProg.run_bind, BProg.run_ret, pure_bind, BProg.run_ev, List.tail_cons] at h0
      rw [M.bind_ok (evalN_arg0 _ _ _ _ _), opLoop_two (isInt_inert hv _ _)
        (evalN_arg1 _ _ _ _ _)] at h0
      obtain ⟨i, rfl, rfl⟩ := hv
      obtain ⟨j, rfl, rfl⟩ := hv'
      exact gives_op h0
    | error =>
      obtain ⟨msg, e2⟩ := hb
      exact ⟨msg, h0.trans ((evalD_curry2_fail (.inr ⟨_, rfl⟩) hf).2 _ _ _ _ _ e1 e2)⟩
    | crash => exact h0.trans ((evalD_curry2_fail (.inl rfl) hf).2 _ _ _ _ _ e1 hb)
    | open_ => exact trivial
  | error =>
    obtain ⟨msg, e1⟩ := ha
    have := h0.trans ((evalD_curry2_fail (b := y) (.inr ⟨_, rfl⟩) hf).1 _ _ e1)
    cases rb <;> exact ⟨msg, this⟩
  | crash =>
    have := h0.trans ((evalD_curry2_fail (b := y) (.inl rfl) hf).1 _ _ ha)
    cases rb <;> exact this
  | open_ => cases rb <;> exact trivial

/-! ### Formulas and conditions -/

/-- Evaluation of `e`, nested at most `d` deep, gives what `r` says for the variables. -/
def Computes {α : Type} (H : Host W) (P : Plat) (L : Lib) (Γ : Funs) (val : α → Expr → Prop) (d : Nat)
    (r : Vars → Ans α) (e : Expr) : Prop :=
  ∀ (n k : Nat) (env : Env) (w : W) (σ : Vars), d ≤ n → 3 * d + 2 ≤ k → 3 * d + 2 ≤ 801 →
    Knows H P L Γ env σ e → Gives val (r σ) (evalD P H (bodyRun P H (stdB P L) n) k e) env w

theorem Computes.group {α : Type} {Γ : Funs} {val : α → Expr → Prop} {d : Nat} {r : Vars → Ans α}
    {e : Expr} (h : Computes H P L Γ val d r e) : Computes H P L Γ val (d + 1) r (.group e) := by
  intro n k env w σ hn hk hd ht
  obtain ⟨k, rfl⟩ := Nat.exists_eq_add_of_lt (show 0 < k by omega)
  rw [Nat.zero_add, evalD]
  exact h n k env w σ (by omega) (by omega) (by omega) (ht.sub .group)

/-- what a builtin sees when it evaluates the expression -/
theorem Computes.evalN {α : Type} {Γ : Funs} {val : α → Expr → Prop} {d : Nat} {r : Vars → Ans α}
    {e : Expr} (h : Computes H P L Γ val d r e) {n : Nat} {env : Env} {σ : Vars} {w : W}
    (hn : d + 1 ≤ n) (hd : 3 * d + 2 ≤ 801) (ht : Knows H P L Γ env σ e) :
    Gives val (r σ) (Dune.evalN P H (stdB P L) n e) env w := by
  obtain ⟨m, rfl⟩ := Nat.exists_eq_add_of_lt (show 0 < n by omega)
  rw [Nat.zero_add, Dune.evalN]
  exact h m _ env w σ (by omega) hd hd ht

/-- what is computed does not depend on the value as long as no call goes on -/
theorem gives_fail {α β : Type} {val : α → Expr → Prop} {val' : β → Expr → Prop} {r : Ans α}
    {f : α → Ans β} {m : M W Expr} {g : Expr → M W Expr} {env : Env} {w : W}
    (h : Gives val r m env w)
    (hok : ∀ a v, r = .ok a → val a v → m env w = (.ok v, env, w) → Gives val' (f a) (m >>= g) env w) :
    Gives val' (r.bind f) (m >>= g) env w := by
  cases r with
  | ok a =>
    obtain ⟨v, hv, he⟩ := h
    exact hok a v rfl hv he
  | error =>
    obtain ⟨msg, he⟩ := h
    exact ⟨msg, M.bind_err he⟩
  | crash =>
    have he : m env w = _ := h
    exact M.bind_panic he
  | open_ => trivial

theorem Gives.congr {α : Type} {val : α → Expr → Prop} {r : Ans α} {m m' : M W Expr} {env : Env} {w : W}
    (h : Gives val r m env w) (he : m' env w = m env w) : Gives val r m' env w := by
  unfold Gives at h ⊢
  rw [he]
  exact h

/-- a function called in another environment -/
theorem Gives.within {α : Type} {val : α → Expr → Prop} {r : Ans α} {m : M W Expr} {env env' : Env} {w : W}
    (h : Gives val r m env' w) : Gives val r (M.within m env') env w := by
  cases r with
  | ok a =>
    obtain ⟨v, hv, he⟩ := h
    exact ⟨v, hv, by simp [he]⟩
  | error =>
    obtain ⟨msg, he⟩ := h
    exact ⟨msg, by simp [he]⟩
  | crash =>
    have he : m env' w = _ := h
    show _ = _
    simp [he]
  | open_ => trivial

/-- A call with as many arguments as the function has parameters. -/
theorem gives_call {Γ : Funs} {n d : Nat} {env : Env} {w : W} {σ : Vars} (hn : d ≤ n)
    (hd : 3 * d + 2 ≤ 801) :
    ∀ (as : List Arith) (xs : List Expr), List.Forall₂ (fun a x => Computes H P L Γ isInt d (fun σ => a.eval σ) x ∧
        Knows H P L Γ env σ x) as xs →
      ∀ (fe v : Expr) (F : List Int → Ans Int) (k df : Nat), df ≤ d → 3 * d + 2 + as.length ≤ k →
        (∀ k, evalD P H (bodyRun P H (stdB P L) n) (k + 1) fe env w = (.ok v, env, w)) →
        IsFn H P L df as.length F v →
        Gives isInt ((Arith.evals σ as).bind F) (evalD P H (bodyRun P H (stdB P L) n) k (.apply fe xs)) env w := by
  intro as
  induction as with
  | nil => intro xs _ fe v F k df _ _ _ hv; exact hv.elim
  | cons a as ih =>
    intro xs hxs fe v F k df hdf hk hfe hv
    obtain ⟨x, xs, hx, hxs', rfl⟩ : ∃ x xs', (Computes H P L Γ isInt d (fun σ => a.eval σ) x ∧
        Knows H P L Γ env σ x) ∧ List.Forall₂ (fun a x => Computes H P L Γ isInt d (fun σ => a.eval σ) x ∧
        Knows H P L Γ env σ x) as xs' ∧ xs = x :: xs' := by
      cases hxs with
      | cons h1 h2 => exact ⟨_, _, h1, h2, rfl⟩
    obtain ⟨k, rfl⟩ := Nat.exists_eq_add_of_le (show 2 ≤ k by omega)
    rw [Nat.add_comm 2 k] at hk ⊢
    simp only [List.length_cons] at hk hv
    have h1 := hx.1 n (k + 1) env w σ hn (by omega) hd hx.2
    cases as with
    | nil =>
      cases hxs'
      obtain ⟨p, body, binds, rfl, hb⟩ := hv
      have e0 : evalD P H (bodyRun P H (stdB P L) n) (k + 2) (.apply fe [x]) env w =
          (do let v ← evalD P H (bodyRun P H (stdB P L) n) (k + 1) x
              M.within (evalD P H (bodyRun P H (stdB P L) n) (k + 1) body)
                (callEnv p ⟨binds, []⟩ env.getCwd v)) env w := by
        rw [evalD]
        simp only [evalStep]
        rw [M.bind_ok (hfe k)]
        simp only [applyValue, M.getEnv_bind]
      refine Gives.congr ?_ e0
      have e1 : (Arith.evals σ [a]).bind F = (a.eval σ).bind fun z => F [z] := by
        simp only [Arith.evals]
        cases a.eval σ <;> rfl
      rw [e1]
      refine gives_fail h1 ?_
      rintro _ _ hr ⟨i, rfl, rfl⟩ he
      refine Gives.congr (Gives.within (hb n (k + 1) i env.getCwd w (by omega) (by simp at hk; omega) (by omega))) ?_
      rw [M.bind_ok he]
    | cons b as =>
      obtain ⟨p, body, binds, rfl, hb⟩ := hv
      obtain ⟨y, xs, hxs2⟩ : ∃ y ys, xs = y :: ys := by
        cases hxs' with
        | cons h1 h2 => exact ⟨_, _, rfl⟩
      subst hxs2
      have e0 : evalD P H (bodyRun P H (stdB P L) n) (k + 2) (.apply fe (x :: y :: xs)) env w =
          (do let v ← evalD P H (bodyRun P H (stdB P L) n) (k + 1) x
              let g ← M.within (evalD P H (bodyRun P H (stdB P L) n) (k + 1) body)
                (callEnv p ⟨binds, []⟩ env.getCwd v)
              evalD P H (bodyRun P H (stdB P L) n) (k + 1) (.apply g (y :: xs))) env w := by
        rw [evalD]
        simp only [evalStep]
        rw [M.bind_ok (hfe k)]
        simp only [applyValue, M.getEnv_bind]
      refine Gives.congr ?_ e0
      have e1 : (Arith.evals σ (a :: b :: as)).bind F =
          (a.eval σ).bind fun z => (Arith.evals σ (b :: as)).bind fun zs => F (z :: zs) := by
        rw [Arith.evals]
        cases a.eval σ <;> try rfl
        simp only [Ans.bind]
        cases Arith.evals σ (b :: as) <;> rfl
      rw [e1]
      refine gives_fail h1 ?_
      rintro _ _ hr ⟨i, rfl, rfl⟩ he
      obtain ⟨g, hg, hg'⟩ := hb i env.getCwd
      obtain ⟨g', he', hf⟩ := hg' env
      refine Gives.congr (ih (y :: xs) hxs' g g' (fun zs => F (i.val :: zs)) (k + 1) df hdf
        (by simp at hk ⊢; omega) (fun k => he' n k w) hf) ?_
      rw [M.bind_ok he, M.bind_ok (a := g) (env' := env) (w' := w) (by simp [hg])]

theorem forall₂_both {α β : Type} {R : α → β → Prop} {Q : β → Prop} {l : List α} {m : List β}
    (h : List.Forall₂ R l m) (hq : ∀ x ∈ m, Q x) : List.Forall₂ (fun a x => R a x ∧ Q x) l m := by
  induction h with
  | nil => exact .nil
  | cons h1 h2 ih => exact .cons ⟨h1, hq _ (by simp)⟩ (ih fun x hx => hq x (by simp [hx]))

/-- A formula is read as an expression that computes it. -/
def FormulaOk (H : Host W) (P : Plat) (L : Lib) (Γ : Funs) (d : Nat) (u : List Word) : (l : Lvl) → l.Val → Prop
  | .atom, a => ∃ e, G P .base u e ∧ Computes H P L Γ isInt d (fun σ => Arith.eval σ a) e
  | .prod, a => ∃ e, G P .prod u e ∧ Computes H P L Γ isInt d (fun σ => Arith.eval σ a) e
  | .sum, a => ∃ e, G P .sum u e ∧ Computes H P L Γ isInt d (fun σ => Arith.eval σ a) e
  | .whole, a => ∃ e, G P .seven u e ∧ Computes H P L Γ isInt d (fun σ => Arith.eval σ a) e
  | .args, l => ∃ es, G P .args u es ∧
      List.Forall₂ (fun a e => Computes H P L Γ isInt d (fun σ => Arith.eval σ a) e) l es

theorem formula_ok (H : Host W) (L : Lib) {Γ : Funs} {lvl : Lvl} {d : Nat} {u : List Word} {a : lvl.Val}
    (h : Formula Γ lvl d u a) : FormulaOk H P L Γ d u lvl a := by
  induction h with
  | @lit d t m hm =>
    refine ⟨.int m, G.atom (.int hm), ?_⟩
    intro n k env w σ hn hk hd ht
    obtain ⟨k, rfl⟩ := Nat.exists_eq_add_of_lt (show 0 < k by omega)
    exact ⟨.int m, ⟨m, rfl, rfl⟩, by rw [Nat.zero_add]; rfl⟩
  | @var d x hx hx' =>
    refine ⟨.symbol x, G.atom (.name hx), ?_⟩
    intro n k env w σ hn hk hd ht
    obtain ⟨k, rfl⟩ := Nat.exists_eq_add_of_lt (show 0 < k by omega)
    have hk := (ht x (.here x) hx').2
    simp only [Arith.eval]
    rcases hz : σ x with _ | z | ⟨m, F⟩
    · trivial
    · rw [hz] at hk
      obtain ⟨i, hi, hg⟩ := hk
      exact ⟨.int i, ⟨i, hi, rfl⟩, by rw [Nat.zero_add]; exact evalD_symbol hg⟩
    · trivial
  | paren _ ih =>
    obtain ⟨e, hg, hc⟩ := ih
    exact ⟨.group e, G.group (.seven hg), hc.group⟩
  | atom _ ih =>
    obtain ⟨e, hg, hc⟩ := ih
    exact ⟨e, G.two (.base hg), hc⟩
  | @mul d u a o v b _ ho _ ih1 ih2 =>
    obtain ⟨x, hg1, hc1⟩ := ih1
    obtain ⟨y, hg2, hc2⟩ := ih2
    refine ⟨infix_ o.text x y, G.mul hg1 ?_ (.base hg2), ?_⟩
    · simp only [List.mem_cons, List.not_mem_nil, or_false] at ho
      rcases ho with rfl | rfl | rfl <;> decide
    · intro n k env w σ hn hk hd ht
      show Gives isInt (Arith.eval σ (Arith.bin o a b)) _ _ _
      rw [arith_bin]
      obtain ⟨k, rfl⟩ := Nat.exists_eq_add_of_le (show 5 ≤ k by omega)
      rw [Nat.add_comm 5 k]
      exact gives_mul ho (ht.op (by cases o <;> decide)) (hc1 n _ env w σ (by omega) (by omega) (by omega) ht.left)
        (hc2 n _ env w σ (by omega) (by omega) (by omega) ht.right)
  | prod _ ih =>
    obtain ⟨e, hg, hc⟩ := ih
    exact ⟨e, G.prod hg, hc⟩
  | @add d u a o v b _ ho _ ih1 ih2 =>
    obtain ⟨x, hg1, hc1⟩ := ih1
    obtain ⟨y, hg2, hc2⟩ := ih2
    refine ⟨infix_ o.text x y, G.add hg1 ?_ hg2, ?_⟩
    · simp only [List.mem_cons, List.not_mem_nil, or_false] at ho
      rcases ho with rfl | rfl <;> decide
    · intro n k env w σ hn hk hd ht
      show Gives isInt (Arith.eval σ (Arith.bin o a b)) _ _ _
      rw [arith_bin]
      obtain ⟨k, rfl⟩ := Nat.exists_eq_add_of_le (show 3 ≤ k by omega)
      rw [Nat.add_comm 3 k]
      exact gives_add ho (ht.op (by cases o <;> decide)) (hc1.evalN hn (by omega) ht.left)
        (hc2.evalN hn (by omega) ht.right)
  | sum _ ih =>
    obtain ⟨e, hg, hc⟩ := ih
    exact ⟨e, G.noCall (.cmp (.rel (.sum hg))), hc⟩
  | @call d f v l m hf hf' hΓ hm _ ih =>
    obtain ⟨es, hg, hc⟩ := ih
    refine ⟨.apply (.symbol f) es, G.call (u := [_]) (.base (.atom (.name hf))) hg, ?_⟩
    intro n k env w σ hn hk hd ht
    have hkf := (ht f (.inside .applied (.here _)) hf').2
    simp only [Arith.eval]
    rcases hz : σ f with _ | z | ⟨m', F⟩
    · trivial
    · trivial
    · rw [hz] at hkf
      obtain ⟨df, v, hΓ', hg', hv⟩ := hkf
      rw [hΓ] at hΓ'
      simp only [Option.some.injEq, Prod.mk.injEq] at hΓ'
      obtain ⟨rfl, rfl⟩ := hΓ'
      dsimp only
      rw [if_pos rfl]
      exact gives_call (by omega) (by omega) l es (forall₂_both hc fun x hx => ht.sub (.argument hx)) (.symbol f) v F k m hm (by omega)
        (fun k => evalD_symbol hg') hv
  | arg _ ih =>
    obtain ⟨e, hg, hc⟩ := ih
    exact ⟨[e], G.arg (.rel (.sum hg)), .cons hc .nil⟩
  | args _ _ ih1 ih2 =>
    obtain ⟨e, hg, hc⟩ := ih1
    obtain ⟨es, hgs, hcs⟩ := ih2
    exact ⟨e :: es, G.args (.rel (.sum hg)) hgs, .cons hc hcs⟩

/-- one side after the other -/
def bothCond (f : Bool → Bool → Bool) : Ans Bool → Ans Bool → Ans Bool
  | .ok x, .ok y => .ok (f x y)
  | .ok _, r => r
  | r, _ => r

/-- one side after the other -/
def bothCmp (r : Rel) : Ans Int → Ans Int → Ans Bool
  | .ok x, .ok y => .ok (r.holds x y)
  | .ok _, .error => .error
  | .ok _, .crash => .crash
  | .ok _, .open_ => .open_
  | .error, _ => .error
  | .crash, _ => .crash
  | .open_, _ => .open_

theorem cond_cmp (σ : Vars) (r : Rel) (a b : Arith) :
    (Cond.cmp r a b).eval σ = bothCmp r (a.eval σ) (b.eval σ) := by
  rw [Cond.eval]
  cases a.eval σ <;> cases b.eval σ <;> rfl

theorem cond_and (σ : Vars) (c d : Cond) :
    (Cond.and c d).eval σ = bothCond (· && ·) (c.eval σ) (d.eval σ) := by
  rw [Cond.eval]
  cases c.eval σ <;> cases d.eval σ <;> rfl

theorem cond_or (σ : Vars) (c d : Cond) :
    (Cond.or c d).eval σ = bothCond (· || ·) (c.eval σ) (d.eval σ) := by
  rw [Cond.eval]
  cases c.eval σ <;> cases d.eval σ <;> rfl

/-- The comparison of a relation. -/
def relFun : Rel → Expr → Expr → Bool
  | .eq => Expr.beq
  | .ne => fun a b => !Expr.beq a b
  | .lt => Builtins.ltE
  | .le => Builtins.leE
  | .gt => Builtins.gtE
  | .ge => Builtins.geE

theorem relFun_int (r : Rel) (i j : I64) :
    relFun r (.int i) (.int j) = r.holds i.val j.val := by
  have hb : Expr.beq (.int i) (.int j) = decide (i.val = j.val) := by
    rw [Expr.beq]
    by_cases h : i.val = j.val
    · have : i = j := by cases i; cases j; cases h; rfl
      simp [this]
    · have : i ≠ j := fun c => h (by rw [c])
      simp [this, h]
  cases r
  · exact hb
  · simp only [relFun, hb, Rel.holds, decide_not]
  all_goals
    simp only [relFun, Builtins.ltE, Builtins.leE, Builtins.gtE, Builtins.geE, Expr.partialCmp,
      Option.some.injEq, Rel.holds]
    simp only [compare, compareOfLessAndEq]
    by_cases h1 : i.val < j.val
    · simp [h1]
      try omega
    · by_cases h2 : i.val = j.val
      · simp [h2]
      · simp [h1, h2]
        try omega

/-- comparisons -/
theorem gives_cmp {n k : Nat} (r : Rel) {x y : Expr} {ra rb : Ans Int}
    {env : Env} {w : W} (ht : Tool env r.text)
    (ha : Gives isInt ra (evalN P H (stdB P L) n x) env w)
    (hb : Gives isInt rb (evalN P H (stdB P L) n y) env w) :
    Gives isBool (bothCmp r ra rb)
      (evalD P H (bodyRun P H (stdB P L) n) (k + 3) (infix_ r.text x y)) env w := by
  have h0 : evalD P H (bodyRun P H (stdB P L) n) (k + 3) (infix_ r.text x y) env w =
      (do let a ← evalN P H (stdB P L) n x
          let b ← evalN P H (stdB P L) n y
          pure (Expr.bool (relFun r a b))) env w := by
    rw [infix_, evalD]
    simp only [evalStep]
    rw [evalD]
    simp only [evalStep]
    obtain ⟨nm, id, hop, hid⟩ : ∃ nm id,
        env.get r.text = some (.builtin nm id []) ∧
        ∀ args, stdB P L id args = Builtins.cmpB (relFun r) args := by
      cases r
      · exact ⟨_, _, ht _ (by mem_tac), fun _ => rfl⟩
      · exact ⟨_, _, ht _ (by mem_tac), fun _ => rfl⟩
      · exact ⟨_, _, ht _ (by mem_tac), fun _ => rfl⟩
      · exact ⟨_, _, ht _ (by mem_tac), fun _ => rfl⟩
      · exact ⟨_, _, ht _ (by mem_tac), fun _ => rfl⟩
      · exact ⟨_, _, ht _ (by mem_tac), fun _ => rfl⟩
    rw [M.bind_ok (evalD_symbol hop)]
    simp only [applyValue, bodyRun, hid, Builtins.cmpB, Builtins.evArg, Builtins.arg,
      List.getElem?_cons_zero, List.getElem?_cons_succ, BProg.run_bind, BProg.run_ret, pure_bind,
      BProg.run_ev]
  cases ra with
  | ok u =>
    obtain ⟨v, hv, e1⟩ := ha
    rw [M.bind_ok e1] at h0
    cases rb with
    | ok u' =>
      obtain ⟨v', hv', e2⟩ := hb
      rw [M.bind_ok e2] at h0
      obtain ⟨i, rfl, rfl⟩ := hv
      obtain ⟨j, rfl, rfl⟩ := hv'
      rw [relFun_int] at h0
      exact ⟨_, rfl, h0⟩
    | error =>
      obtain ⟨msg, e2⟩ := hb
      rw [M.bind_err e2] at h0
      exact ⟨msg, h0⟩
    | crash =>
      have e2 : evalN P H (stdB P L) n y env w = _ := hb
      rw [M.bind_panic e2] at h0
      exact h0
    | open_ => trivial
  | error =>
    obtain ⟨msg, e1⟩ := ha
    rw [M.bind_err e1] at h0
    cases rb <;> exact ⟨msg, h0⟩
  | crash =>
    have e1 : evalN P H (stdB P L) n x env w = _ := ha
    rw [M.bind_panic e1] at h0
    cases rb <;> exact h0
  | open_ => cases rb <;> trivial

/-- `&&` and `||` -/
theorem gives_logic {n k : Nat} {op nm : Str} {id : BId} {f : Bool → Bool → Bool} {x y : Expr}
    {ra rb : Ans Bool} {env : Env} {w : W}
    (hop : env.get op = some (.builtin nm id []))
    (hid : ∀ args, ∃ g : List Expr → Bool, (∀ p q, g [.bool p, .bool q] = f p q) ∧
      stdB P L id args = (do let vs ← Builtins.evAll args; .ret (.bool (g vs))))
    (ha : Gives isBool ra (evalN P H (stdB P L) n x) env w)
    (hb : Gives isBool rb (evalN P H (stdB P L) n y) env w) :
    Gives isBool (bothCond f ra rb)
      (evalD P H (bodyRun P H (stdB P L) n) (k + 3) (infix_ op x y)) env w := by
  obtain ⟨g, hg, hid⟩ := hid [x, y]
  have h0 : evalD P H (bodyRun P H (stdB P L) n) (k + 3) (infix_ op x y) env w =
      (do let a ← evalN P H (stdB P L) n x
          let b ← evalN P H (stdB P L) n y
          pure (Expr.bool (g [a, b]))) env w := by
    rw [infix_, evalD]
    simp only [evalStep]
    rw [evalD]
    simp only [evalStep]
    rw [M.bind_ok (evalD_symbol hop)]
    simp only [applyValue, bodyRun, hid, BProg.run_bind, BProg.run_ret, BProg.run_evAll, evalList,
      bind_assoc, pure_bind]
  cases ra with
  | ok u =>
    obtain ⟨v, hv, e1⟩ := ha
    rw [M.bind_ok e1] at h0
    cases rb with
    | ok u' =>
      obtain ⟨v', hv', e2⟩ := hb
      rw [M.bind_ok e2] at h0
      cases hv
      cases hv'
      rw [hg] at h0
      exact ⟨_, rfl, h0⟩
    | error =>
      obtain ⟨msg, e2⟩ := hb
      rw [M.bind_err e2] at h0
      exact ⟨msg, h0⟩
    | crash =>
      have e2 : evalN P H (stdB P L) n y env w = _ := hb
      rw [M.bind_panic e2] at h0
      exact h0
    | open_ => trivial
  | error =>
    obtain ⟨msg, e1⟩ := ha
    rw [M.bind_err e1] at h0
    cases rb <;> exact ⟨msg, h0⟩
  | crash =>
    have e1 : evalN P H (stdB P L) n x env w = _ := ha
    rw [M.bind_panic e1] at h0
    cases rb <;> exact h0
  | open_ => cases rb <;> trivial

theorem test_ok (H : Host W) (L : Lib) {Γ : Funs} {many : Bool} {d : Nat} {u : List Word} {c : Cond}
    (h : Test Γ many d u c) :
    ∃ e, (if many then G P .logic u e else G P .cmp u e) ∧
      Computes H P L Γ isBool d (fun σ => c.eval σ) e := by
  induction h with
  | @cmp d u a r v b h1 h2 =>
    obtain ⟨x, hg1, hc1⟩ := formula_ok (P := P) (lvl := .sum) H L h1
    obtain ⟨y, hg2, hc2⟩ := formula_ok (P := P) (lvl := .sum) H L h2
    refine ⟨infix_ r.text x y, ?_, ?_⟩
    · rw [if_neg (by simp)]
      refine G.rel (G.compare (.sum hg1) ?_ hg2)
      cases r <;> decide
    · intro n k env w σ hn hk hd ht
      simp only [cond_cmp]
      obtain ⟨k, rfl⟩ := Nat.exists_eq_add_of_le (show 3 ≤ k by omega)
      rw [Nat.add_comm 3 k]
      exact gives_cmp r (ht.op (by cases r <;> decide)) (hc1.evalN hn (by omega) ht.left)
        (hc2.evalN hn (by omega) ht.right)
  | paren _ ih =>
    obtain ⟨e, hg, hc⟩ := ih
    rw [if_pos rfl] at hg
    refine ⟨.group e, ?_, hc.group⟩
    rw [if_neg (by simp)]
    exact .rel (.sum (.prod (.two (.base (.group (.seven (.noCall hg)))))))
  | one _ ih =>
    obtain ⟨e, hg, hc⟩ := ih
    rw [if_neg (by simp)] at hg
    refine ⟨e, ?_, hc⟩
    rw [if_pos rfl]
    exact .cmp hg
  | @and d u c v e _ _ ih1 ih2 =>
    obtain ⟨x, hg1, hc1⟩ := ih1
    obtain ⟨y, hg2, hc2⟩ := ih2
    rw [if_pos rfl] at hg1
    rw [if_neg (by simp)] at hg2
    refine ⟨infix_ c!"&&" x y, ?_, ?_⟩
    · rw [if_pos rfl]
      exact .logic hg1 (by decide) hg2
    · intro n k env w σ hn hk hd ht
      simp only [cond_and]
      obtain ⟨k, rfl⟩ := Nat.exists_eq_add_of_le (show 3 ≤ k by omega)
      rw [Nat.add_comm 3 k]
      refine gives_logic (ht.op (by decide) _ (by mem_tac)) (fun args => ⟨fun vs => vs.all Expr.isTruthy, ?_, rfl⟩)
        (hc1.evalN hn (by omega) ht.left) (hc2.evalN hn (by omega) ht.right)
      intro p q
      cases p <;> cases q <;> rfl
  | @or d u c v e _ _ ih1 ih2 =>
    obtain ⟨x, hg1, hc1⟩ := ih1
    obtain ⟨y, hg2, hc2⟩ := ih2
    rw [if_pos rfl] at hg1
    rw [if_neg (by simp)] at hg2
    refine ⟨infix_ c!"||" x y, ?_, ?_⟩
    · rw [if_pos rfl]
      exact .logic hg1 (by decide) hg2
    · intro n k env w σ hn hk hd ht
      simp only [cond_or]
      obtain ⟨k, rfl⟩ := Nat.exists_eq_add_of_le (show 3 ≤ k by omega)
      rw [Nat.add_comm 3 k]
      refine gives_logic (ht.op (by decide) _ (by mem_tac)) (fun args => ⟨fun vs => vs.any Expr.isTruthy, ?_, rfl⟩)
        (hc1.evalN hn (by omega) ht.left) (hc2.evalN hn (by omega) ht.right)
      intro p q
      cases p <;> cases q <;> rfl

/-! ### Functions -/

/-- the function with these parameters -/
def curried : List Str → Expr → Expr
  | [], e => e
  | p :: ps, e => .lambda p (curried ps e) [] []

theorem body_ok (H : Host W) (L : Lib) {Γ : Funs} {d : Nat} {u : List Word} {b : Fn}
    (h : Body Γ d u b) :
    ∃ e, G P .expr u e ∧ Computes H P L Γ isInt d (fun σ => b.eval σ) e := by
  induction h with
  | ret h =>
    obtain ⟨e, hg, hc⟩ := formula_ok (P := P) (lvl := .whole) H L h
    exact ⟨e, .seven hg, hc⟩
  | @ite d c b t x e y h1 _ ht _ he ih1 ih2 =>
    obtain ⟨ce, hgc, hc⟩ := test_ok (P := P) H L h1
    obtain ⟨te, hgt, hct⟩ := ih1
    obtain ⟨ee, hge, hce⟩ := ih2
    rw [if_pos rfl] at hgc
    refine ⟨_, G.ctrl (.cond (.iteElse hgc (.prod (.two (.base (.block (.last hgt) ht))))
      (.prod (.two (.base (.block (.last hge) he)))))), ?_⟩
    intro n k env w σ hn hk hd hkn
    obtain ⟨k, rfl⟩ := Nat.exists_eq_add_of_le (show 3 ≤ k by omega)
    rw [Nat.add_comm 3 k] at hk ⊢
    have e0 : evalD P H (bodyRun P H (stdB P L) n) (k + 3) (.ite ce (.do_ [te]) (.group (.do_ [ee]))) env w =
        (do let v ← evalD P H (bodyRun P H (stdB P L) n) (k + 2) ce
            if v.isTruthy then evalD P H (bodyRun P H (stdB P L) n) (k + 1) te
            else evalD P H (bodyRun P H (stdB P L) n) k ee) env w := by
      rw [evalD]
      simp only [evalStep]
      rfl
    refine Gives.congr ?_ e0
    show Gives isInt ((Fn.ite b x y).eval σ) _ _ _
    rw [Fn.eval]
    refine gives_fail (hc n (k + 2) env w σ (by omega) (by omega) (by omega) (hkn.sub .condition)) ?_
    rintro a _ _ rfl hv
    have kt := (hkn.sub .then_).sub (.statement (List.mem_singleton_self te))
    have ke := ((hkn.sub .else_).sub .group).sub (.statement (List.mem_singleton_self ee))
    cases a with
    | true =>
      refine Gives.congr (hct n (k + 1) env w σ (by omega) (by omega) (by omega) kt) ?_
      rw [M.bind_ok hv]
      rfl
    | false =>
      refine Gives.congr (hce n k env w σ (by omega) (by omega) (by omega) ke) ?_
      rw [M.bind_ok hv]
      rfl

theorem callEnv_get {p s : Str} {binds : BMap Expr} {cwd : Str} {v : Expr} (hp : s ≠ p)
    (hs : s ≠ c!"CWD") : (callEnv p ⟨binds, []⟩ cwd v).get s = Env.get ⟨binds, []⟩ s := by
  simp only [callEnv, Env.setCwd, Env.get_define, cwdVar, if_neg (Ne.symm hp), if_neg (Ne.symm hs)]

theorem known_call {Γ : Funs} {p s : Str} {binds : BMap Expr} {cwd : Str} {i : I64} {σ : Vars}
    (hp : Variable p) (h : s ≠ p → Known H P L Γ ⟨binds, []⟩ σ s) :
    Known H P L Γ (callEnv p ⟨binds, []⟩ cwd (.int i)) (σ.set p (.int i.val)) s := by
  by_cases hs : s = p
  · subst hs
    exact known_int hp (by simp [callEnv, Env.get_define]) _ rfl
  · intro hc
    have := h hs
    have h2 : Known H P L Γ ⟨binds, []⟩ (σ.set p (.int i.val)) s := by
      unfold Known at this ⊢
      simpa only [Vars.set, if_neg hs] using this
    exact h2.mono (fun _ v hv => by rw [callEnv_get hs hc]; exact hv) hc

/-- A function literal evaluates to itself and what it captures: the captured variables stay, the
others it mentions are copied. -/
theorem closes (q : Str) (body : Expr) (bs : BMap Expr) (env : Env) :
    ∃ binds : BMap Expr, (∀ (B : BId → List Expr → M W Expr) k w, evalD P H B (k + 1) (.lambda q body bs []) env w =
        (.ok (.lambda q body binds []), env, w)) ∧
      (∀ s v, s ≠ q → s ≠ c!"CWD" → BMap.get? bs s = some v → BMap.get? binds s = some v) ∧
      (∀ s v, s ≠ q → s ≠ c!"CWD" → Mentions body s → BMap.get? bs s = none → env.get s = some v →
        BMap.get? binds s = some v) := by
  refine ⟨(closeLambda env q body ⟨bs, []⟩).bindings, ?_, ?_, ?_⟩
  · intro B k w
    rw [evalD]
    simp only [evalStep, M.getEnv_bind, M.pure_apply, closeLambda_parents]
  · intro s v hq hc hs
    have hd : Env.isDefined ⟨bs, []⟩ s = true := by simp [Env.isDefined_eq, Env.get, hs]
    rw [closeLambda, capture_get, if_neg (by simp [hd])]
    simp only [Env.setCwd, Env.define, BMap.get?_insert, cwdVar]
    rw [if_neg (Ne.symm hc), if_neg (Ne.symm hq), hs]
  · intro s v hq hc hm hs hv
    have hd : Env.isDefined ⟨bs, []⟩ s = false := by
      simp [Env.isDefined_eq, Env.get, hs, Env.get.getParents]
    rw [closeLambda, capture_get, if_pos ⟨(mentions_iff ..).mpr hm, hq, hd, by simp [hv]⟩, hv]

theorem function_ok {Γ : Funs} {d : Nat} {b : Fn} {e : Expr}
    (hb : Computes H P L Γ isInt d (fun σ => b.eval σ) e) :
    ∀ (ps : List Str) (p : Str) (σ : Vars) (binds : BMap Expr), (∀ x ∈ p :: ps, Variable x) →
      (∀ s, Mentions (curried ps e) s → s ≠ p → Known H P L Γ ⟨binds, []⟩ σ s) →
      IsFn H P L d (ps.length + 1) (fun zs => b.eval (σ.bind (p :: ps) zs))
        (.lambda p (curried ps e) binds []) := by
  intro ps
  induction ps with
  | nil =>
    intro p σ binds hv hk
    refine ⟨p, _, binds, rfl, ?_⟩
    intro n k i cwd w hn hk' hd
    refine hb n k _ w (σ.set p (.int i.val)) hn hk' hd fun s hs => ?_
    exact known_call (hv p (by simp)) fun hsp => hk s hs hsp
  | cons q qs ih =>
    intro p σ binds hv hk
    refine ⟨p, _, binds, rfl, ?_⟩
    intro i cwd
    obtain ⟨b1, he1, _, hc1⟩ := closes (P := P) (H := H) q (curried qs e) []
      (callEnv p ⟨binds, []⟩ cwd (.int i))
    refine ⟨_, fun n k w => he1 _ k w, ?_⟩
    intro env
    obtain ⟨b2, he2, hk2, _⟩ := closes (P := P) (H := H) q (curried qs e) b1 env
    refine ⟨_, fun n k w => he2 _ k w, ?_⟩
    refine ih q (σ.set p (.int i.val)) b2 (fun x hx => hv x (by simp [hx])) fun s hs hsq => ?_
    have h1 : Known H P L Γ (callEnv p ⟨binds, []⟩ cwd (.int i)) (σ.set p (.int i.val)) s :=
      known_call (hv p (by simp)) fun hsp => hk s (.inside .function hs) hsp
    refine h1.mono fun hsc v hv => ?_
    have h2 := hk2 s v hsq hsc (hc1 s v hsq hsc hs rfl hv)
    simp only [Env.get, h2]

/-! ### Statements -/

/-- The shell is in the state `s`; `t` was printed before. -/
structure InState (H : Host W) (P : Plat) (L : Lib) (Γ : Funs) (shown : W → Str) (t : Str) (s : State)
    (env : Env) (w : W) : Prop where
  known : ∀ x, Known H P L Γ env s.vars x
  out : shown w = t ++ printed s.out

/-- The end of a run is what `r` says. -/
def Finishes {α : Type} (H : Host W) (P : Plat) (L : Lib) (Γ : Funs) (shown : W → Str) (t : Str) (r : Ans Unit × State) (res : Outcome α × Env × W) :
    Prop :=
  match r.1 with
  | .ok _ => ∃ v env' w', res = (.ok v, env', w') ∧ InState H P L Γ shown t r.2 env' w'
  | .error => ∃ msg env' w', res = (.err (.customError msg), env', w') ∧ InState H P L Γ shown t r.2 env' w'
  | .crash => ∃ env' w', res = (.panic, env', w') ∧ InState H P L Γ shown t r.2 env' w'
  | .open_ => True

/-- Evaluation of `e`, nested at most `d` deep, does what `f` says. -/
def Runs (H : Host W) (P : Plat) (L : Lib) (Γ : Funs) (shown : W → Str) (t : Str) (d : Nat)
    (f : State → Ans Unit × State) (e : Expr) : Prop :=
  ∀ (n k : Nat) (env : Env) (w : W) (s : State), d ≤ n → 3 * d + 2 ≤ k → 3 * d + 2 ≤ 801 →
    InState H P L Γ shown t s env w →
    Finishes H P L Γ shown t (f s) (evalD P H (bodyRun P H (stdB P L) n) k e env w)

variable {Γ : Funs} {shown : W → Str} {t : Str}

theorem InState.knows {s : State} {env : Env} {w : W} (h : InState H P L Γ shown t s env w) (e : Expr) :
    Knows H P L Γ env s.vars e := fun x _ => h.known x

theorem InState.define {s : State} {env : Env} {w : W} (h : InState H P L Γ shown t s env w) {x : Str}
    (hx : Variable x) (i : I64) :
    InState H P L Γ shown t ⟨s.vars.set x (.int i.val), s.out⟩ (env.define x (.int i)) w := by
  refine ⟨fun y => ?_, h.out⟩
  by_cases hy : y = x
  · subst hy
    exact known_int hx (by rw [Env.get_define, if_pos rfl]) _ rfl
  · exact known_define hy (h.known y)

theorem intToStr_toString (z : Int) : intToStr z = (toString z).toList := by
  cases z with
  | ofNat n => simp [intToStr, natToStr_toDigits, toString, Int.repr, Nat.repr]
  | negSucc n =>
    simp [intToStr, natToStr_toDigits, toString, Int.repr, Nat.repr]

theorem evalDo_cons {B : BId → List Expr → M W Expr} {k : Nat} {e : Expr} {l : List Expr}
    {env : Env} {w : W} :
    evalD P H B (k + 1) (.do_ (e :: l)) env w =
      if l = [] then evalD P H B k e env w
      else (do let _ ← evalD P H B k e; evalD P H B (k + 1) (.do_ l)) env w := by
  cases l with
  | nil => rw [if_pos rfl, evalD]; rfl
  | cons f l =>
    rw [if_neg (by simp)]
    rw [evalD, evalD]
    rfl

theorem runs_cons {d : Nat} {s : Stmt} {p : Block} {e : Expr} {l : List Expr}
    (h1 : Runs H P L Γ shown t d s.run e) (h2 : Runs H P L Γ shown t (d + 1) p.run (.do_ l)) (hl : l = [] → p = .nil) :
    Runs H P L Γ shown t (d + 1) (Block.cons s p).run (.do_ (e :: l)) := by
  intro n k env w st hn hk hd hi
  obtain ⟨k, rfl⟩ := Nat.exists_eq_add_of_lt (show 0 < k by omega)
  rw [Nat.zero_add] at hk ⊢
  rw [evalDo_cons]
  have h := h1 n k env w st (by omega) (by omega) (by omega) hi
  rw [Block.run]
  generalize hr : s.run st = r at h
  obtain ⟨r, st'⟩ := r
  by_cases hl' : l = []
  · rw [if_pos hl', hl hl']
    cases r with
    | ok u => simpa only [Block.run] using h
    | _ => exact h
  · rw [if_neg hl']
    cases r with
    | ok u =>
      obtain ⟨v, env', w', he, hi'⟩ := h
      rw [M.bind_ok he]
      exact h2 n (k + 1) env' w' st' hn hk hd hi'
    | error =>
      obtain ⟨msg, env', w', he, hi'⟩ := h
      rw [M.bind_err he]
      exact ⟨msg, env', w', rfl, hi'⟩
    | crash =>
      obtain ⟨env', w', he, hi'⟩ := h
      rw [M.bind_panic he]
      exact ⟨env', w', rfl, hi'⟩
    | open_ => trivial

theorem runs_set {d : Nat} {x : Str} {a : Arith} {e : Expr} (hx : Variable x)
    (h : Computes H P L Γ isInt d (fun σ => a.eval σ) e) :
    Runs H P L Γ shown t (d + 1) (Stmt.set x a).run (.assign x e) := by
  intro n k env w st hn hk hd hi
  obtain ⟨k, rfl⟩ := Nat.exists_eq_add_of_lt (show 0 < k by omega)
  rw [Nat.zero_add] at hk ⊢
  have h := h n k env w st.vars (by omega) (by omega) (by omega) (hi.knows _)
  rw [evalD]
  simp only [evalStep, Stmt.run]
  cases hr : a.eval st.vars with
  | ok z =>
    simp only [hr] at h
    obtain ⟨v, ⟨i, rfl, rfl⟩, he⟩ := h
    refine ⟨.none, env.define x (.int i), w, ?_, hi.define hx i⟩
    rw [M.bind_ok he]
    rfl
  | error =>
    simp only [hr] at h
    obtain ⟨msg, he⟩ := h
    exact ⟨msg, env, w, by rw [M.bind_err he], hi⟩
  | crash =>
    simp only [hr] at h
    have he : evalD P H (bodyRun P H (stdB P L) n) k e env w = _ := h
    exact ⟨env, w, by rw [M.bind_panic he], hi⟩
  | open_ => trivial

/-- definitions of functions -/
theorem runs_fn {d n : Nat} {f p : Str} {ps : List Str} {b : Fn} {e : Expr} (hf : Variable f)
    (hp : ∀ x ∈ p :: ps, Variable x) (hΓ : Γ f = some ((p :: ps).length, n))
    (h : Computes H P L Γ isInt n (fun σ => b.eval σ) e) :
    Runs H P L Γ shown t (d + 1) (Stmt.fn f (p :: ps) b).run (.assign f (curried (p :: ps) e)) := by
  intro m k env w st hn hk hd hi
  obtain ⟨k, rfl⟩ := Nat.exists_eq_add_of_le (show 2 ≤ k by omega)
  rw [Nat.add_comm 2 k] at hk ⊢
  obtain ⟨binds, he, _, hc⟩ := closes (P := P) (H := H) p (curried ps e) [] env
  have hfn := function_ok h ps p st.vars binds hp fun s hs hsp => by
    refine (hi.known s).mono fun hsc v hv => ?_
    have := hc s v hsp hsc hs rfl hv
    simp only [Env.get, this]
  simp only [Stmt.run]
  refine ⟨.none, env.define f (.lambda p (curried ps e) binds []), w, ?_, fun y => ?_, hi.out⟩
  · rw [evalD]
    simp only [evalStep, curried]
    rw [M.bind_ok (he _ k w)]
    rfl
  · by_cases hy : y = f
    · subst hy
      refine fun _ => ⟨fun v hv => absurd hv (not_tool hf v), ?_⟩
      simp only [Vars.set, if_true]
      exact ⟨n, _, hΓ, by rw [Env.get_define, if_pos rfl], hfn⟩
    · exact known_define hy (hi.known y)

theorem curried_read {u : List Word} {e : Expr} (h : G P .expr u e) : ∀ {ps : List Str},
    (∀ x ∈ ps, x ∉ reserved) →
    G P .expr (ps.flatMap (fun x => [(.symbol, x), pw c!"->"]) ++ u) (curried ps e)
  | [], _ => h
  | p :: ps, hp => .lambda (hp p (by simp)) (curried_read h fun x hx => hp x (by simp [hx]))

theorem runs_print (hc : Console H shown) {d : Nat} {a : Arith} {e : Expr}
    (h : Computes H P L Γ isInt d (fun σ => a.eval σ) e) :
    Runs H P L Γ shown t (d + 1) (Stmt.print a).run (.apply (.symbol c!"println") [e]) := by
  intro n k env w st hn hk hd hi
  obtain ⟨k, rfl⟩ := Nat.exists_eq_add_of_le (show 2 ≤ k by omega)
  rw [Nat.add_comm 2 k] at hk ⊢
  have h := h.evalN (n := n) (w := w) hn (by omega) (hi.knows _)
  rw [evalD]
  simp only [evalStep]
  rw [M.bind_ok (evalD_symbol ((hi.known c!"println" (by decide)).1 _ (by mem_tac)))]
  simp only [applyValue, bodyRun, stdB, Stmt.run, Builtins.printLoop, BProg.run_bind, BProg.run_ev]
  cases hr : a.eval st.vars with
  | ok z =>
    simp only [hr] at h
    obtain ⟨v, ⟨i, rfl, rfl⟩, he⟩ := h
    refine ⟨.none, env, (H.io (.print (display P (.int i) ++ c!"\n")) w).2, ?_, hi.known, ?_⟩
    · rw [M.bind_ok he, M.bind_ok (run_out_shown hc _)]
      rfl
    · rw [hc.print, hi.out]
      simp [printed, display_int, intToStr_toString]
  | error =>
    simp only [hr] at h
    obtain ⟨msg, he⟩ := h
    exact ⟨msg, env, w, by rw [M.bind_err he], hi⟩
  | crash =>
    simp only [hr] at h
    have he : evalN P H (stdB P L) n e env w = _ := h
    exact ⟨env, w, by rw [M.bind_panic he], hi⟩
  | open_ => trivial

/-- conditionals -/
theorem runs_ite {d : Nat} {c : Cond} {e x y : Expr} {f g : State → Ans Unit × State}
    {r : State → Ans Unit × State}
    (hr : ∀ s, r s = match c.eval s.vars with
      | .ok true => f s
      | .ok false => g s
      | .error => (.error, s)
      | .crash => (.crash, s)
      | .open_ => (.open_, s))
    (h : Computes H P L Γ isBool d (fun σ => c.eval σ) e)
    (hx : ∀ n k env w s, d ≤ n → 3 * d + 4 ≤ k → 3 * d + 5 ≤ 801 → InState H P L Γ shown t s env w →
      Finishes H P L Γ shown t (f s) (evalD P H (bodyRun P H (stdB P L) n) k x env w))
    (hy : ∀ n k env w s, d ≤ n → 3 * d + 4 ≤ k → 3 * d + 5 ≤ 801 → InState H P L Γ shown t s env w →
      Finishes H P L Γ shown t (g s) (evalD P H (bodyRun P H (stdB P L) n) k y env w)) :
    Runs H P L Γ shown t (d + 1) r (.ite e x y) := by
  intro n k env w st hn hk hd hi
  obtain ⟨k, rfl⟩ := Nat.exists_eq_add_of_lt (show 0 < k by omega)
  rw [Nat.zero_add] at hk ⊢
  have h := h n k env w st.vars (by omega) (by omega) (by omega) (hi.knows _)
  rw [evalD, hr]
  simp only [evalStep]
  cases hc : c.eval st.vars with
  | ok b =>
    simp only [hc] at h
    obtain ⟨v, rfl, he⟩ := h
    rw [M.bind_ok he]
    cases b with
    | true => exact hx n k env w st (by omega) (by omega) (by omega) hi
    | false => exact hy n k env w st (by omega) (by omega) (by omega) hi
  | error =>
    simp only [hc] at h
    obtain ⟨msg, he⟩ := h
    exact ⟨msg, env, w, by rw [M.bind_err he], hi⟩
  | crash =>
    simp only [hc] at h
    have he : evalD P H (bodyRun P H (stdB P L) n) k e env w = _ := h
    exact ⟨env, w, by rw [M.bind_panic he], hi⟩
  | open_ => trivial

/-- loops -/
theorem runs_count {n k : Nat} {x : Str} {e : Expr} (hx : Variable x)
    {f : State → Ans Unit × State}
    (h : ∀ env w s, InState H P L Γ shown t s env w →
      Finishes H P L Γ shown t (f s) (evalD P H (bodyRun P H (stdB P L) n) k e env w)) :
    ∀ (m : Nat) (z : Int) (env : Env) (w : W) (s : State),
      -9223372036854775808 ≤ z → z + m < 9223372036854775808 → InState H P L Γ shown t s env w →
      Finishes H P L Γ shown t (count f x z m s)
        (forLoop (evalD P H (bodyRun P H (stdB P L) n) k) x e (Builtins.intsFrom z m) env w)
  | 0, z, env, w, s, _, _, hi => ⟨[], env, w, rfl, hi⟩
  | m + 1, z, env, w, s, hlo, hhi, hi => by
    have hz : (I64.wrap z).val = z := by
      simp only [I64.wrap]
      rw [Int.bmod_eq_of_le (by omega) (by omega)]
    have hi' : InState H P L Γ shown t ⟨s.vars.set x (.int z), s.out⟩ (env.define x (.int (I64.wrap z))) w := by
      have := hi.define hx (I64.wrap z)
      rwa [hz] at this
    have h1 := h _ _ _ hi'
    rw [count]
    simp only [Builtins.intsFrom, forLoop]
    rw [M.bind_ok (a := ()) (env' := env.define x (.int (I64.wrap z))) (w' := w) rfl]
    generalize f ⟨s.vars.set x (.int z), s.out⟩ = r at h1
    obtain ⟨r, s'⟩ := r
    cases r with
    | ok u =>
      obtain ⟨v, env', w', he, hi2⟩ := h1
      rw [M.bind_ok he]
      have ih := runs_count hx h m (z + 1) env' w' s' (by omega) (by omega) hi2
      show Finishes H P L Γ shown t (count f x (z + 1) m s') _
      generalize count f x (z + 1) m s' = r2 at ih
      obtain ⟨r2, s2⟩ := r2
      cases r2 with
      | ok u =>
        obtain ⟨v, env', w', he, hi2⟩ := ih
        rw [M.bind_ok he]
        exact ⟨_, env', w', rfl, hi2⟩
      | error =>
        obtain ⟨msg, env', w', he, hi2⟩ := ih
        exact ⟨msg, env', w', by rw [M.bind_err he], hi2⟩
      | crash =>
        obtain ⟨env', w', he, hi2⟩ := ih
        exact ⟨env', w', by rw [M.bind_panic he], hi2⟩
      | open_ => trivial
    | error =>
      obtain ⟨msg, env', w', he, hi2⟩ := h1
      exact ⟨msg, env', w', by rw [M.bind_err he], hi2⟩
    | crash =>
      obtain ⟨env', w', he, hi2⟩ := h1
      exact ⟨env', w', by rw [M.bind_panic he], hi2⟩
    | open_ => trivial

/-- `to` -/
theorem gives_range {n k : Nat} {a b : Arith} {x y : Expr} {σ : Vars} {env : Env} {w : W}
    (ht : Tool env c!"to")
    (ha : Gives isInt (a.eval σ) (evalN P H (stdB P L) n x) env w)
    (hb : Gives isInt (b.eval σ) (evalN P H (stdB P L) n y) env w) :
    Gives (fun p v => ∃ i j : I64, i.val = p.1 ∧ j.val = p.2 ∧
        v = .list (Builtins.intsFrom p.1 (p.2 - p.1).toNat))
      (match a.eval σ with
        | .ok y =>
          match b.eval σ with
          | .ok z => .ok (y, z)
          | .error => .error
          | .crash => .crash
          | .open_ => .open_
        | .error => .error
        | .crash => .crash
        | .open_ => .open_)
      (evalD P H (bodyRun P H (stdB P L) n) (k + 2) (.apply (.symbol c!"to") [x, y])) env w := by
  have h0 : evalD P H (bodyRun P H (stdB P L) n) (k + 2) (.apply (.symbol c!"to") [x, y]) env w =
      ((Builtins.toB [x, y]).run H (evalN P H (stdB P L) n)) env w := by
    rw [evalD]
    simp only [evalStep]
    rw [M.bind_ok (evalD_symbol (ht _ (by mem_tac)))]
    rfl
  simp only [Builtins.toB, BProg.run_bind, BProg.run_ev] at h0
  cases hra : a.eval σ with
  | ok u =>
    rw [hra] at ha
    obtain ⟨v, hv, e1⟩ := ha
    rw [M.bind_ok e1] at h0
    cases hrb : b.eval σ with
    | ok u' =>
      rw [hrb] at hb
      obtain ⟨v', hv', e2⟩ := hb
      rw [M.bind_ok e2] at h0
      obtain ⟨i, rfl, rfl⟩ := hv
      obtain ⟨j, rfl, rfl⟩ := hv'
      exact ⟨_, ⟨i, j, rfl, rfl, rfl⟩, h0⟩
    | error =>
      rw [hrb] at hb
      obtain ⟨msg, e2⟩ := hb
      rw [M.bind_err e2] at h0
      exact ⟨msg, h0⟩
    | crash =>
      rw [hrb] at hb
      have e2 : evalN P H (stdB P L) n y env w = _ := hb
      rw [M.bind_panic e2] at h0
      exact h0
    | open_ => trivial
  | error =>
    rw [hra] at ha
    obtain ⟨msg, e1⟩ := ha
    rw [M.bind_err e1] at h0
    exact ⟨msg, h0⟩
  | crash =>
    rw [hra] at ha
    have e1 : evalN P H (stdB P L) n x env w = _ := ha
    rw [M.bind_panic e1] at h0
    exact h0
  | open_ => trivial

theorem runs_loop {d : Nat} {x : Str} {a b : Arith} {p : Block} {e1 e2 : Expr} {l : List Expr}
    (hx : Variable x)
    (h1 : Computes H P L Γ isInt d (fun σ => a.eval σ) e1)
    (h2 : Computes H P L Γ isInt d (fun σ => b.eval σ) e2)
    (h3 : Runs H P L Γ shown t d p.run (.do_ l)) :
    Runs H P L Γ shown t (d + 1) (Stmt.loop x a b p).run
      (.for_ x (.apply (.symbol c!"to") [e1, e2]) (.do_ l)) := by
  intro n k env w st hn hk hd hi
  obtain ⟨k, rfl⟩ := Nat.exists_eq_add_of_le (show 3 ≤ k by omega)
  rw [Nat.add_comm 3 k] at hk ⊢
  have hr := gives_range (k := k) (hi.known c!"to" (by decide)).1
    (h1.evalN (n := n) (w := w) hn (by omega) (hi.knows _))
    (h2.evalN (n := n) (w := w) hn (by omega) (hi.knows _))
  rw [evalD]
  simp only [evalStep, Stmt.run]
  cases hra : a.eval st.vars with
  | ok u =>
    cases hrb : b.eval st.vars with
    | ok u' =>
      simp only [hra, hrb] at hr
      obtain ⟨v, ⟨i, j, rfl, rfl, rfl⟩, he⟩ := hr
      rw [M.bind_ok he]
      have hj := j.hi
      have hil := i.lo
      have hih := i.hi
      have := runs_count (n := n) (k := k + 2) hx (f := p.run) (e := .do_ l)
        (fun env w s hs => h3 n (k + 2) env w s (by omega) (by omega) (by omega) hs)
        (j.val - i.val).toNat i.val env w st hil (by omega) hi
      dsimp only
      generalize count p.run x i.val (j.val - i.val).toNat st = r2 at this
      obtain ⟨r2, s2⟩ := r2
      cases r2 with
      | ok u =>
        obtain ⟨v, env', w', he, hi2⟩ := this
        rw [M.bind_ok he]
        exact ⟨_, env', w', rfl, hi2⟩
      | error =>
        obtain ⟨msg, env', w', he, hi2⟩ := this
        exact ⟨msg, env', w', by rw [M.bind_err he], hi2⟩
      | crash =>
        obtain ⟨env', w', he, hi2⟩ := this
        exact ⟨env', w', by rw [M.bind_panic he], hi2⟩
      | open_ => trivial
    | error =>
      simp only [hra, hrb] at hr
      obtain ⟨msg, he⟩ := hr
      exact ⟨msg, env, w, by rw [M.bind_err he], hi⟩
    | crash =>
      simp only [hra, hrb] at hr
      have he : evalD P H (bodyRun P H (stdB P L) n) (k + 2)
        (.apply (.symbol c!"to") [e1, e2]) env w = _ := hr
      exact ⟨env, w, by rw [M.bind_panic he], hi⟩
    | open_ => trivial
  | error =>
    simp only [hra] at hr
    obtain ⟨msg, he⟩ := hr
    exact ⟨msg, env, w, by rw [M.bind_err he], hi⟩
  | crash =>
    simp only [hra] at hr
    have he : evalD P H (bodyRun P H (stdB P L) n) (k + 2)
      (.apply (.symbol c!"to") [e1, e2]) env w = _ := hr
    exact ⟨env, w, by rw [M.bind_panic he], hi⟩
  | open_ => trivial

/-! ### Texts of programs -/

/-- how the words of a statement or a block begin -/
theorem code_head {k : Kind} {d : Nat} {u : List Word} {v : k.Val} (h : Code Γ k d u v) :
    (k ≠ .block → u ≠ []) ∧ ∀ w r, u = w :: r → w.2 ∉ opNames := by
  induction h with
  | set | fn | print | when | ite | elif | loop =>
    refine ⟨fun _ => by simp, fun w r h => ?_⟩
    simp only [List.cons.injEq] at h
    rw [← h.1]
    decide
  | cond _ ih => exact ⟨fun _ => ih.1 (by simp), ih.2⟩
  | done => exact ⟨fun h => (h rfl).elim, fun _ _ h => by simp at h⟩
  | last _ ih => exact ⟨fun h => (h rfl).elim, ih.2⟩
  | simple _ _ ih1 _ | semi _ _ ih1 _ | braced _ _ ih1 _ =>
    refine ⟨fun h => (h rfl).elim, fun w r h => ?_⟩
    obtain ⟨w', r', hu⟩ := List.exists_cons_of_ne_nil (ih1.1 (by simp))
    rw [hu, List.cons_append, List.cons.injEq] at h
    rw [← h.1]
    exact ih1.2 w' r' hu

/-- A text of a program is read, and does what the program says. -/
def CodeOk (H : Host W) (P : Plat) (L : Lib) (Γ : Funs) (shown : W → Str) (t : Str) (d : Nat) (u : List Word) :
    (k : Kind) → k.Val → Prop
  | .simple, s => ∃ e, G P .expr u e ∧ Runs H P L Γ shown t d (Stmt.run s) e
  | .cond, s => ∃ e, G P .cond u e ∧ Runs H P L Γ shown t d (Stmt.run s) e
  | .braced, s => ∃ e, G P .ctrl u e ∧ Runs H P L Γ shown t d (Stmt.run s) e
  | .block, p => ∃ l, G P .stmts u l ∧ Runs H P L Γ shown t d (Block.run p) (.do_ l) ∧ (l = [] → p = Block.nil)

theorem when_run (c : Cond) (p : Block) (s : State) : (Stmt.when c p).run s =
    match c.eval s.vars with
      | .ok true => p.run s
      | .ok false => (.ok (), s)
      | .error => (.error, s)
      | .crash => (.crash, s)
      | .open_ => (.open_, s) := by
  rw [Stmt.run]
  rcases c.eval s.vars with (_ | _) | _ | _ | _ <;> rfl

theorem ite_run (c : Cond) (p q : Block) (s : State) : (Stmt.ite c p q).run s =
    match c.eval s.vars with
      | .ok true => p.run s
      | .ok false => q.run s
      | .error => (.error, s)
      | .crash => (.crash, s)
      | .open_ => (.open_, s) := by
  rw [Stmt.run]
  rcases c.eval s.vars with (_ | _) | _ | _ | _ <;> rfl

theorem single_run (s : Stmt) (st : State) : (Block.cons s .nil).run st = s.run st := by
  rw [Block.run]
  rcases s.run st with ⟨r, s2⟩
  cases r <;> simp [Block.run]

theorem code_ok (hc : Console H shown) {k : Kind} {d : Nat} {u : List Word} {v : k.Val}
    (h : Code Γ k d u v) : CodeOk H P L Γ shown t d u k v := by
  induction h with
  | @set d x u a hx h =>
    obtain ⟨e, hg, hr⟩ := formula_ok (P := P) (lvl := .whole) H L h
    exact ⟨.assign x e, G.let_ (w := (.symbol, x)) (.inl ⟨rfl, hx.1⟩) (.seven hg), runs_set hx hr⟩
  | @fn d f ps p u b n hf hp h hΓ =>
    obtain ⟨e, hg, hr⟩ := body_ok (P := P) H L h
    exact ⟨.assign f (curried (p :: ps) e), G.let_ (w := (.symbol, f)) (.inl ⟨rfl, hf.1⟩)
      (curried_read hg fun x hx => (hp x hx).1), runs_fn hf hp hΓ hr⟩
  | @print d u a h =>
    obtain ⟨e, hg, hr⟩ := formula_ok (P := P) (lvl := .sum) H L h
    exact ⟨_, G.seven (.call (u := [(.symbol, c!"println")]) (.base (.atom (.name (by decide))))
      (.arg (.rel (.sum hg)))), runs_print hc hr⟩
  | @when d u c t' p h _ hn ih =>
    obtain ⟨e, hg, hr⟩ := test_ok (P := P) H L h
    obtain ⟨l, hgl, hrl, _⟩ := ih
    rw [if_pos rfl] at hg
    refine ⟨_, G.ite hg (.prod (.two (.base (.block hgl hn)))), ?_⟩
    refine runs_ite (r := Stmt.run (Stmt.when c p)) (c := c) (f := Block.run p) (g := fun s => (.ok (), s)) (when_run c p) hr
      (fun n k env w s h1 h2 h3 hi => hrl n k env w s h1 (by omega) (by omega) hi) ?_
    intro n k env w s h1 h2 h3 hi
    obtain ⟨k, rfl⟩ := Nat.exists_eq_add_of_lt (show 0 < k by omega)
    exact ⟨.none, env, w, by rw [Nat.zero_add]; rfl, hi⟩
  | @ite d u c t' p e' q h _ hn _ hn' ih ih' =>
    obtain ⟨e, hg, hr⟩ := test_ok (P := P) H L h
    obtain ⟨l, hgl, hrl, _⟩ := ih
    obtain ⟨l', hgl', hrl', _⟩ := ih'
    rw [if_pos rfl] at hg
    refine ⟨_, G.iteElse hg (.prod (.two (.base (.block hgl hn))))
      (.prod (.two (.base (.block hgl' hn')))), ?_⟩
    refine runs_ite (r := Stmt.run (Stmt.ite c p q)) (c := c) (f := Block.run p) (g := Block.run q) (ite_run c p q) hr
      (fun n k env w s h1 h2 h3 hi => hrl n k env w s h1 (by omega) (by omega) hi) ?_
    intro n k env w s h1 h2 h3 hi
    obtain ⟨k, rfl⟩ := Nat.exists_eq_add_of_lt (show 0 < k by omega)
    rw [Nat.zero_add] at h2 ⊢
    rw [evalD]
    exact hrl' n k env w s h1 (by omega) (by omega) hi
  | @elif d u c t' p e' s' h _ hn _ ih ih' =>
    obtain ⟨e, hg, hr⟩ := test_ok (P := P) H L h
    obtain ⟨l, hgl, hrl, _⟩ := ih
    obtain ⟨x, hgx, hrx⟩ := ih'
    rw [if_pos rfl] at hg
    refine ⟨_, G.elseIf hg (.prod (.two (.base (.block hgl hn)))) hgx, ?_⟩
    refine runs_ite (r := Stmt.run (Stmt.ite c p (.cons s' .nil))) (c := c) (f := Block.run p) (g := Stmt.run s') (fun s => ?_) hr
      (fun n k env w s h1 h2 h3 hi => hrl n k env w s h1 (by omega) (by omega) hi) ?_
    · have := ite_run c p (.cons s' .nil) s
      rw [this]
      have e : (Block.cons s' .nil).run s = Stmt.run s' s := single_run s' s
      rcases c.eval s.vars with (_ | _) | _ | _ | _ <;> first | rfl | exact e
    · intro n k env w s h1 h2 h3 hi
      obtain ⟨k, rfl⟩ := Nat.exists_eq_add_of_lt (show 0 < k by omega)
      rw [Nat.zero_add] at h2 ⊢
      rw [evalD]
      exact hrx n k env w s h1 (by omega) (by omega) hi
  | cond _ ih =>
    obtain ⟨x, hgx, hrx⟩ := ih
    exact ⟨x, G.cond hgx, hrx⟩
  | @loop d x u a v b t' p hx h1 h2 _ ih =>
    obtain ⟨e1, hg1, hr1⟩ := formula_ok (P := P) (lvl := .sum) H L h1
    obtain ⟨e2, hg2, hr2⟩ := formula_ok (P := P) (lvl := .sum) H L h2
    obtain ⟨l, hgl, hrl, _⟩ := ih
    exact ⟨_, G.forRange hx.1 hg1 hg2 hgl, runs_loop hx hr1 hr2 hrl⟩
  | done =>
    refine ⟨[], G.done, ?_, fun _ => rfl⟩
    intro n k env w s h1 h2 h3 hi
    obtain ⟨k, rfl⟩ := Nat.exists_eq_add_of_lt (show 0 < k by omega)
    exact ⟨.none, env, w, by rw [Nat.zero_add]; rfl, hi⟩
  | @last d u s _ ih =>
    obtain ⟨e, hg, hr⟩ := ih
    refine ⟨[e], G.last hg, runs_cons hr (p := .nil) ?_ (fun _ => rfl), by simp⟩
    intro n k env w s h1 h2 h3 hi
    obtain ⟨k, rfl⟩ := Nat.exists_eq_add_of_lt (show 0 < k by omega)
    exact ⟨.none, env, w, by rw [Nat.zero_add]; rfl, hi⟩
  | simple _ _ ih1 ih2 =>
    obtain ⟨e, hg, hr⟩ := ih1
    obtain ⟨l, hgl, hrl, hnil⟩ := ih2
    exact ⟨e :: l, G.stmt hg hgl, runs_cons hr hrl hnil, by simp⟩
  | semi _ _ ih1 ih2 =>
    obtain ⟨e, hg, hr⟩ := ih1
    obtain ⟨l, hgl, hrl, hnil⟩ := ih2
    exact ⟨e :: l, G.stmt (.ctrl hg) hgl, runs_cons hr hrl hnil, by simp⟩
  | braced _ h2 ih1 ih2 =>
    obtain ⟨e, hg, hr⟩ := ih1
    obtain ⟨l, hgl, hrl, hnil⟩ := ih2
    exact ⟨e :: l, G.ctrlStmt hg hgl (code_head h2).2, runs_cons hr hrl hnil, by simp⟩

end

end Dune.Props.Calc
