import Verif.Proof.BigStep
import Verif.Spec.Demo

/-!
C14 (programs that call no builtin always finish) and C16 (less nesting never changes a result).
-/

namespace Dune.Props

open Spec

variable {W : Type} (P : Plat) (H : Host W) (B : BId → List Expr → M W Expr)

/-- C14.  Every expression has exactly one evaluation, at every depth, in every environment and
world: the unbounded big-step semantics is total and deterministic.  The builtins are any total
functions `B`. -/
theorem C14_total_deterministic (d : Nat) (env : Env) (w : W) (e : Expr) :
    ∃ r : Outcome Expr × Env × W, Ev P H B d env w e r.1 r.2.1 r.2.2 ∧
      ∀ r' : Outcome Expr × Env × W, Ev P H B d env w e r'.1 r'.2.1 r'.2.2 → r' = r := by
  obtain ⟨o, env', w', h⟩ := ev_complete (P := P) (H := H) (B := B) d env w e
  refine ⟨(o, env', w'), h, ?_⟩
  rintro ⟨o2, env2, w2⟩ h2
  rw [← ev_sound h, ← ev_sound h2]

/-- C14.  The modelled evaluator computes that unique result: `eval_mut` at depth `d`. -/
theorem C14_evaluator_agrees (d : Nat) (env env' : Env) (w w' : W) (e : Expr) (o : Outcome Expr) :
    evalD P H B (801 - d) e env w = (o, env', w') ↔ Ev P H B d env w e o env' w' := by
  constructor
  · intro h
    obtain ⟨o2, env2, w2, h2⟩ := ev_complete (P := P) (H := H) (B := B) d env w e
    have := ev_sound h2
    rw [h] at this
    cases this
    exact h2
  · exact ev_sound

/-- C14, an instance: whatever the depth, the self-application `x x` with `x = (x ~> x x)` ends in
the recursion-depth error (it neither loops nor returns a value). -/
theorem C14_omega_hits_limit (k : Nat) (env : Env) (w : W)
    (hx : env.get c!"x" = some (.macro_ c!"x" (.apply (.symbol c!"x") [.symbol c!"x"])))
    (hs : env.define c!"x" (.macro_ c!"x" (.apply (.symbol c!"x") [.symbol c!"x"])) = env) :
    ∃ e, evalD P H B k (.apply (.symbol c!"x") [.symbol c!"x"]) env w =
      (.err (.recursionDepth e), env, w) := by
  induction k with
  | zero => exact ⟨_, rfl⟩
  | succ k ih =>
    cases k with
    | zero => exact ⟨_, rfl⟩
    | succ k =>
      obtain ⟨e, ih⟩ := ih
      refine ⟨e, ?_⟩
      have hsym : evalD P H B (k + 1) (.symbol c!"x") env w =
          (.ok (.macro_ c!"x" (.apply (.symbol c!"x") [.symbol c!"x"])), env, w) := by
        simp only [evalD, evalStep, M.getEnv_bind, hx, M.pure_apply]
      rw [evalD]
      simp only [evalStep]
      rw [M.bind_ok hsym]
      simp only [applyValue]
      rw [M.bind_ok hsym, M.define_bind, hs]
      exact ih

example : ∃ e, evalD Demo.plat Demo.host Demo.noB 801
    (.apply (.symbol c!"x") [.symbol c!"x"])
    ⟨[(c!"x", .macro_ c!"x" (.apply (.symbol c!"x") [.symbol c!"x"]))], []⟩ [] =
      (.err (.recursionDepth e),
        ⟨[(c!"x", .macro_ c!"x" (.apply (.symbol c!"x") [.symbol c!"x"]))], []⟩, []) :=
  C14_omega_hits_limit _ _ _ _ _ _ rfl rfl

/-- C16.  If evaluation at nesting depth `d` does not run into the recursion limit, evaluation at
any smaller depth gives the same result, environment and world. -/
theorem C16_less_nesting (d d' : Nat) (hd : d' ≤ d) (env env' : Env) (w w' : W) (e : Expr)
    (o : Outcome Expr) (h : Ev P H B d env w e o env' w')
    (ho : ∀ x, o ≠ .err (.recursionDepth x)) : Ev P H B d' env w e o env' w' := by
  rw [← C14_evaluator_agrees] at h ⊢
  rcases evalD_depth_mono (P := P) (H := H) B (k := 801 - d) (k' := 801 - d') (by omega) e env w
    with hg | hg
  · rw [h] at hg
    obtain ⟨x, hx⟩ := hg
    exact absurd hx (ho x)
  · rw [← hg, h]

/-- `n` pairs of parentheses around an expression. -/
def parens (e : Expr) : Nat → Expr
  | 0 => e
  | n + 1 => .group (parens e n)

/-- C16.  Any number of redundant parentheses leaves the outcome unchanged, unless it is a
recursion-depth error. -/
theorem C16_parentheses (n d : Nat) (env env' : Env) (w w' : W) (e : Expr) (o : Outcome Expr)
    (h : Ev P H B d env w (parens e n) o env' w') (ho : ∀ x, o ≠ .err (.recursionDepth x)) :
    Ev P H B d env w e o env' w' := by
  induction n generalizing d with
  | zero => exact h
  | succ n ih =>
    cases h with
    | limit h => exact absurd rfl (ho _)
    | self_ h hs => exact absurd hs id
    | group hd h =>
      exact C16_less_nesting P H B (d + 1) d (by omega) _ _ _ _ _ _ (ih (d + 1) h) ho

/-- C16, converse.  An expression that evaluates without hitting the limit below `n` extra levels
evaluates the same inside `n` parentheses. -/
theorem C16_parentheses_converse (n d : Nat) (env env' : Env) (w w' : W) (e : Expr)
    (o : Outcome Expr) (hd : d + n ≤ 801)
    (h : Ev P H B (d + n) env w e o env' w') : Ev P H B d env w (parens e n) o env' w' := by
  induction n generalizing d with
  | zero => exact h
  | succ n ih =>
    exact .group (by omega) (ih (d + 1) (by omega) (by rw [Nat.add_right_comm]; exact h))

/-- Three parentheses around `let y = 1` and around nothing. -/
example : Ev Demo.plat Demo.host Demo.noB 0 Env.empty []
    (parens (.assign c!"y" (.int (.lit 1))) 3) (.ok .none)
    (Env.empty.define c!"y" (.int (.lit 1))) [] := by
  rw [← C14_evaluator_agrees]; rfl

/-! ### Instances: the hypotheses can be met -/

example := C16_less_nesting (P := Demo.plat) (H := Demo.host) (B := Demo.noB) 800 3 (by decide) Env.empty
  Env.empty [] [] (.quote (.symbol c!"x")) (.ok (.symbol c!"x")) (.quote (by decide)) (by simp)

example := C16_parentheses (P := Demo.plat) (H := Demo.host) (B := Demo.noB) 2 3 Env.empty
  Env.empty [] [] (.quote (.symbol c!"x")) (.ok (.symbol c!"x"))
  (.group (by decide) (.group (by decide) (.quote (by decide)))) (by simp)

end Dune.Props
