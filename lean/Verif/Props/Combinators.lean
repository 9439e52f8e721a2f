import Verif.Model.Parser
import Verif.Proof.Curry

/-!
C73: the function combinators `fn@id`, `fn@const`, `fn@flip` and `fn@compose`.

`evalD P H (bodyRun P H (stdB P L) n) d e` is the evaluation of `e` with `801 - d` levels of nesting
above it.
-/

namespace Dune.Props

open Spec

section

variable {W : Type} {P : Plat} {H : Host W} {L : Lib} {n : Nat}

/-- The environment has these variables and no others (besides `CWD`). -/
def OnlyVars (env : Env) (vars : List (Str × Expr)) : Prop :=
  (∀ p ∈ vars, env.get p.1 = some p.2) ∧
    ∀ x, x ∉ vars.map Prod.fst → x ≠ c!"CWD" → env.get x = none

/-! ### Helper lemmas -/

/-- the meaning of a call of a function with one argument -/
theorem evalD_call1 {B : BId → List Expr → M W Expr} {k : Nat} {f a body v : Expr} {p : Str}
    {bs : List (Str × Expr)} {ps : List (List (Str × Expr))} {env env0 env1 : Env} {w w0 w1 : W}
    (hf : evalD P H B k f env w = (.ok (.lambda p body bs ps), env0, w0))
    (ha : evalD P H B k a env0 w0 = (.ok v, env1, w1)) :
    evalD P H B (k + 1) (.apply f [a]) env w =
      ((evalD P H B k body (callEnv p ⟨bs, ps⟩ env0.getCwd v) w1).1, env1,
        (evalD P H B k body (callEnv p ⟨bs, ps⟩ env0.getCwd v) w1).2.2) := by
  rw [evalD]
  simp only [evalStep, M.bind_ok hf, applyValue, M.getEnv_bind, M.bind_ok ha, M.within_apply]

/-- the meaning of a call of a function with more arguments -/
theorem evalD_callMore {B : BId → List Expr → M W Expr} {k : Nat} {f a b body v g : Expr}
    {rest : List Expr} {p : Str} {bs : List (Str × Expr)} {ps : List (List (Str × Expr))}
    {env env0 env1 env2 : Env} {w w0 w1 w2 : W}
    (hf : evalD P H B k f env w = (.ok (.lambda p body bs ps), env0, w0))
    (ha : evalD P H B k a env0 w0 = (.ok v, env1, w1))
    (hb : evalD P H B k body (callEnv p ⟨bs, ps⟩ env0.getCwd v) w1 = (.ok g, env2, w2)) :
    evalD P H B (k + 1) (.apply f (a :: b :: rest)) env w =
      evalD P H B k (.apply g (b :: rest)) env1 w2 := by
  rw [evalD]
  simp only [evalStep, M.bind_ok hf, applyValue, M.getEnv_bind, M.bind_ok ha]
  rw [M.bind_ok (a := g) (env' := env1) (w' := w2) (by rw [M.within_apply, hb])]

theorem evalD_lambda {B : BId → List Expr → M W Expr} {k : Nat} (p : Str) (body : Expr)
    (bs : List (Str × Expr)) (ps : List (List (Str × Expr))) (env : Env) (w : W) :
    evalD P H B (k + 1) (.lambda p body bs ps) env w =
      (.ok (.lambda p body (closeLambda env p body ⟨bs, ps⟩).bindings
        (closeLambda env p body ⟨bs, ps⟩).parents), env, w) := rfl

/-- body of `fn@flip` -/
def flipBody : Expr := .apply (.symbol c!"f") [.symbol c!"y", .symbol c!"x"]

/-- body of `fn@compose` -/
def composeBody : Expr :=
  .apply (.symbol c!"f") [.group (.apply (.symbol c!"g") [.symbol c!"x"])]

/-- the middle function of `fn@flip` takes along the caller's `y`, which does not matter -/
theorem flip_scope (env env0 env1 : Env) (vf va vb : Expr) :
    let e1 := closeLambda Env.empty c!"f" (.lambda c!"x" (.lambda c!"y" flipBody [] []) [] [])
      Env.empty
    let e2 := closeLambda (callEnv c!"f" ⟨e1.bindings, e1.parents⟩ env.getCwd vf) c!"x"
      (.lambda c!"y" flipBody [] []) ⟨[], []⟩
    let e3 := closeLambda env0 c!"x" (.lambda c!"y" flipBody [] []) ⟨e2.bindings, e2.parents⟩
    let e4 := closeLambda (callEnv c!"x" ⟨e3.bindings, e3.parents⟩ env0.getCwd va) c!"y"
      flipBody ⟨[], []⟩
    let e5 := closeLambda env1 c!"y" flipBody ⟨e4.bindings, e4.parents⟩
    callEnv c!"y" ⟨e5.bindings, e5.parents⟩ env1.getCwd vb =
      ⟨[(c!"CWD", .str env1.getCwd), (c!"f", vf), (c!"x", va), (c!"y", vb)], []⟩ := by
  intro e1 e2 e3 e4 e5
  have h2 : e2 = ⟨[(c!"CWD", .str env.getCwd), (c!"f", vf), (c!"x", .none)], []⟩ := rfl
  have h3 : e3 = ⟨[(c!"CWD", .str env0.getCwd), (c!"f", vf), (c!"x", .none)], []⟩ ∨
      ∃ v, e3 = ⟨[(c!"CWD", .str env0.getCwd), (c!"f", vf), (c!"x", .none), (c!"y", v)], []⟩ := by
    simp only [e3, h2]
    have hu : (Expr.lambda c!"y" flipBody [] []).usedSymbols = [c!"f", c!"y", c!"x"] := rfl
    rw [closeLambda, hu]
    cases h : env0.get c!"y" with
    | none => left; simp [capture, h, Env.isDefined, BMap.contains, BMap.get?]; rfl
    | some v => right; refine ⟨v, ?_⟩; simp [capture, h, Env.isDefined, BMap.contains, BMap.get?]; rfl
  have h4 : e4 = ⟨[(c!"CWD", .str env0.getCwd), (c!"f", vf), (c!"x", va), (c!"y", .none)], []⟩ := by
    simp only [e4]
    rcases h3 with h3 | ⟨v, h3⟩ <;> rw [h3] <;> rfl
  simp only [e5, h4]
  rfl

/-- the same for the caller's `x` in `fn@compose` -/
theorem compose_scope (env env0 env1 : Env) (vf vg va : Expr) :
    let e1 := closeLambda Env.empty c!"f" (.lambda c!"g" (.lambda c!"x" composeBody [] []) [] [])
      Env.empty
    let e2 := closeLambda (callEnv c!"f" ⟨e1.bindings, e1.parents⟩ env.getCwd vf) c!"g"
      (.lambda c!"x" composeBody [] []) ⟨[], []⟩
    let e3 := closeLambda env0 c!"g" (.lambda c!"x" composeBody [] []) ⟨e2.bindings, e2.parents⟩
    let e4 := closeLambda (callEnv c!"g" ⟨e3.bindings, e3.parents⟩ env0.getCwd vg) c!"x"
      composeBody ⟨[], []⟩
    let e5 := closeLambda env1 c!"x" composeBody ⟨e4.bindings, e4.parents⟩
    callEnv c!"x" ⟨e5.bindings, e5.parents⟩ env1.getCwd va =
      ⟨[(c!"CWD", .str env1.getCwd), (c!"f", vf), (c!"g", vg), (c!"x", va)], []⟩ := by
  intro e1 e2 e3 e4 e5
  have h2 : e2 = ⟨[(c!"CWD", .str env.getCwd), (c!"f", vf), (c!"g", .none)], []⟩ := rfl
  have h3 : e3 = ⟨[(c!"CWD", .str env0.getCwd), (c!"f", vf), (c!"g", .none)], []⟩ ∨
      ∃ v, e3 = ⟨[(c!"CWD", .str env0.getCwd), (c!"f", vf), (c!"g", .none), (c!"x", v)], []⟩ := by
    simp only [e3, h2]
    have hu : (Expr.lambda c!"x" composeBody [] []).usedSymbols = [c!"f", c!"g", c!"x"] := rfl
    rw [closeLambda, hu]
    cases h : env0.get c!"x" with
    | none => left; simp [capture, h, Env.isDefined, BMap.contains, BMap.get?]; rfl
    | some v => right; refine ⟨v, ?_⟩; simp [capture, h, Env.isDefined, BMap.contains, BMap.get?]; rfl
  have h4 : e4 = ⟨[(c!"CWD", .str env0.getCwd), (c!"f", vf), (c!"g", vg), (c!"x", .none)], []⟩ := by
    simp only [e4]
    rcases h3 with h3 | ⟨v, h3⟩ <;> rw [h3] <;> rfl
  simp only [e5, h4]
  rfl

/-! ### `fn@id` -/

/-- C73.  `fn@id a` is the value of `a`, with exactly the effects of evaluating `a`. -/
theorem C73_id {a v : Expr} {env env1 : Env} {w w1 : W} (hs : Std env)
    (ha : evalD P H (bodyRun P H (stdB P L) n) 800 a env w = (.ok v, env1, w1)) :
    evalN P H (stdB P L) (n + 1) (call c!"fn" c!"id" [a]) env w = (.ok v, env1, w1) := by
  have hf := evalD_mem (P := P) (H := H) (L := L) (n := n) (k := 798) (w := w) (m := c!"fn")
    (f := c!"id") (tbl := Init.fnM) hs (by mem_tac) (by mem_tac)
  have h := evalD_call1 hf ha
  refine Eq.trans (b := _) ?_ (h.trans rfl)
  rw [evalN]
  rfl

example : evalN Demo.plat Demo.host (stdB Demo.plat Demo.lib) 1
    (call c!"fn" c!"id" [.list [.int (.lit 1), .quote (.symbol c!"x")]]) Demo.env [] =
    (.ok (.list [.int (.lit 1), .symbol c!"x"]), Demo.env, []) :=
  C73_id demo_std rfl

/-! ### `fn@const` -/

/-- C73.  `fn@const a b` is the value of `a`; `b` is evaluated too (after `a`), its value ignored. -/
theorem C73_const {a b va vb : Expr} {env env1 env2 : Env} {w w1 w2 : W} (hs : Std env)
    (ha : evalD P H (bodyRun P H (stdB P L) n) 800 a env w = (.ok va, env1, w1))
    (hb : evalD P H (bodyRun P H (stdB P L) n) 799 b env1 w1 = (.ok vb, env2, w2)) :
    evalN P H (stdB P L) (n + 1) (call c!"fn" c!"const" [a, b]) env w = (.ok va, env2, w2) := by
  have hf := evalD_mem (P := P) (H := H) (L := L) (n := n) (k := 798) (w := w) (m := c!"fn")
    (f := c!"const") (tbl := Init.fnM) hs (by mem_tac) (by mem_tac)
  have h := evalD_callMore (b := b) (rest := []) hf ha (evalD_lambda ..)
  rw [evalD_call1 (evalD_lambda ..) hb] at h
  refine Eq.trans (b := _) ?_ (h.trans rfl)
  rw [evalN]
  rfl

/-- The second argument is evaluated: it sets `z`. -/
example : evalN Demo.plat Demo.host (stdB Demo.plat Demo.lib) 1
    (call c!"fn" c!"const" [.int (.lit 1), .assign c!"z" (.int (.lit 2))]) Demo.env [] =
    (.ok (.int (.lit 1)), Demo.env.define c!"z" (.int (.lit 2)), []) :=
  C73_const demo_std rfl rfl

/-! ### `fn@flip` -/

/-- C73.  `fn@flip f a b` evaluates `f`, `a` and `b` in this order and then applies the value of `f`
to the value of `b` and the value of `a`, in this order.  It does so in a scope of its own, in which
only these three values are visible, as `f`, `x` and `y`. -/
theorem C73_flip {f a b vf va vb : Expr} {env env0 env1 env2 : Env} {w w0 w1 w2 : W} (hs : Std env)
    (hf : evalD P H (bodyRun P H (stdB P L) n) 800 f env w = (.ok vf, env0, w0))
    (ha : evalD P H (bodyRun P H (stdB P L) n) 799 a env0 w0 = (.ok va, env1, w1))
    (hb : evalD P H (bodyRun P H (stdB P L) n) 798 b env1 w1 = (.ok vb, env2, w2)) :
    ∃ scope : Env, OnlyVars scope [(c!"f", vf), (c!"x", va), (c!"y", vb)] ∧
      scope.getCwd = env1.getCwd ∧
      evalN P H (stdB P L) (n + 1) (call c!"fn" c!"flip" [f, a, b]) env w =
        ((evalD P H (bodyRun P H (stdB P L) n) 798 flipBody scope w2).1, env2,
          (evalD P H (bodyRun P H (stdB P L) n) 798 flipBody scope w2).2.2) := by
  have hm := evalD_mem (P := P) (H := H) (L := L) (n := n) (k := 798) (w := w) (m := c!"fn")
    (f := c!"flip") (tbl := Init.fnM) hs (by mem_tac) (by mem_tac)
  have h := evalD_callMore (b := a) (rest := [b]) hm hf (evalD_lambda ..)
  rw [evalD_callMore (b := b) (rest := []) (evalD_lambda ..) ha (evalD_lambda ..),
    evalD_call1 (evalD_lambda ..) hb] at h
  refine ⟨⟨[(c!"CWD", .str env1.getCwd), (c!"f", vf), (c!"x", va), (c!"y", vb)], []⟩, ⟨?_, ?_⟩,
    ?_, ?_⟩
  · simp only [List.forall_mem_cons, List.not_mem_nil, false_imp_iff, implies_true, and_true]
    exact ⟨rfl, rfl, rfl⟩
  · intro x hx hc
    simp only [List.map_cons, List.map_nil, List.mem_cons, List.not_mem_nil, or_false,
      not_or] at hx
    simp [Env.get, BMap.get?, Ne.symm hc, Ne.symm hx.1, Ne.symm hx.2.1, Ne.symm hx.2.2]
    rfl
  · rfl
  · have h0 : evalN P H (stdB P L) (n + 1) (call c!"fn" c!"flip" [f, a, b]) env w =
        evalD P H (bodyRun P H (stdB P L) n) (800 + 1) (call c!"fn" c!"flip" [f, a, b]) env w := by
      rw [evalN]
      rfl
    rw [h0, h, ← flip_scope env env0 env1 vf va vb]
    generalize evalD P H (bodyRun P H (stdB P L) n) 798 = E
    rfl

/-- `fn@flip (ops@-) 3 10` is 7. -/
example : (evalN Demo.plat Demo.host (stdB Demo.plat Demo.lib) 2
    (call c!"fn" c!"flip" [member c!"ops" c!"-", .int (.lit 3), .int (.lit 10)])
    Demo.env []).1 = .ok (.int (.lit 7)) := rfl

/-- C73.  For a user's function `p -> q -> body`: the outcome (also an error) and the effects are
those of applying it to the two values in swapped order. -/
theorem C73_flip_function {f a b va vb body : Expr} {p q : Str} {bs : List (Str × Expr)}
    {ps : List (List (Str × Expr))} {env env0 env1 env2 : Env} {w w0 w1 w2 : W} (hs : Std env)
    (hf : evalD P H (bodyRun P H (stdB P L) n) 800 f env w =
      (.ok (.lambda p (.lambda q body [] []) bs ps), env0, w0))
    (ha : evalD P H (bodyRun P H (stdB P L) n) 799 a env0 w0 = (.ok va, env1, w1))
    (hb : evalD P H (bodyRun P H (stdB P L) n) 798 b env1 w1 = (.ok vb, env2, w2)) :
    ∃ scope : Env,
      OnlyVars scope [(c!"f", .lambda p (.lambda q body [] []) bs ps), (c!"x", va), (c!"y", vb)] ∧
      scope.getCwd = env1.getCwd ∧
      ∃ scope', evalD P H (bodyRun P H (stdB P L) n) 798
          (.apply (.quote (.lambda p (.lambda q body [] []) bs ps)) [.quote vb, .quote va])
          scope w2 =
        ((evalN P H (stdB P L) (n + 1) (call c!"fn" c!"flip" [f, a, b]) env w).1, scope',
          (evalN P H (stdB P L) (n + 1) (call c!"fn" c!"flip" [f, a, b]) env w).2.2) ∧
      (evalN P H (stdB P L) (n + 1) (call c!"fn" c!"flip" [f, a, b]) env w).2.1 = env2 := by
  obtain ⟨scope, ho, hc, h⟩ := C73_flip hs hf ha hb
  refine ⟨scope, ho, hc, scope, ?_⟩
  rw [h]
  have sym : ∀ {k : Nat} {x : Str} {v : Expr} {w : W}, scope.get x = some v →
      evalD P H (bodyRun P H (stdB P L) n) (k + 1) (.symbol x) scope w = (.ok v, scope, w) := by
    intro k x v w hx
    rw [evalD]
    simp only [evalStep, M.getEnv_bind, hx, M.pure_apply]
  have quo : ∀ {k : Nat} {v : Expr} {w : W},
      evalD P H (bodyRun P H (stdB P L) n) (k + 1) (.quote v) scope w = (.ok v, scope, w) :=
    fun {_ _ _} => rfl
  have h1 := evalD_callMore (k := 797) (b := .symbol c!"x") (rest := [])
    (sym (k := 796) (w := w2) (ho.1 _ (by mem_tac : (c!"f", _) ∈ _)))
    (sym (k := 796) (w := w2) (ho.1 _ (by mem_tac : (c!"y", vb) ∈ _))) (evalD_lambda ..)
  have h2 := evalD_callMore (k := 797) (b := .quote va) (rest := [])
    (quo (k := 796) (w := w2) (v := .lambda p (.lambda q body [] []) bs ps))
    (quo (k := 796) (w := w2) (v := vb)) (evalD_lambda ..)
  rw [evalD_call1 (evalD_lambda ..)
    (sym (k := 795) (w := w2) (ho.1 _ (by mem_tac : (c!"x", va) ∈ _)))] at h1
  rw [evalD_call1 (evalD_lambda ..) (quo (k := 795) (w := w2) (v := va))] at h2
  rw [flipBody, h2]
  refine ⟨?_, rfl⟩
  rw [h1]

/-- `fn@flip (a -> b -> [a, b]) 1 2` is `[2, 1]`. -/
example : (evalN Demo.plat Demo.host (stdB Demo.plat Demo.lib) 1
    (call c!"fn" c!"flip" [.lambda c!"a" (.lambda c!"b" (.list [.symbol c!"a", .symbol c!"b"]) [] [])
      [] [], .int (.lit 1), .int (.lit 2)])
    Demo.env []).1 = .ok (.list [.int (.lit 2), .int (.lit 1)]) := rfl

/-! ### `fn@compose` -/

/-- C73.  `fn@compose f g a` evaluates `f`, `g` and `a` in this order and then evaluates `f (g x)`
in a scope of its own, in which only the three values are visible, as `f`, `g` and `x`. -/
theorem C73_compose {f g a vf vg va : Expr} {env env0 env1 env2 : Env} {w w0 w1 w2 : W}
    (hs : Std env)
    (hf : evalD P H (bodyRun P H (stdB P L) n) 800 f env w = (.ok vf, env0, w0))
    (hg : evalD P H (bodyRun P H (stdB P L) n) 799 g env0 w0 = (.ok vg, env1, w1))
    (ha : evalD P H (bodyRun P H (stdB P L) n) 798 a env1 w1 = (.ok va, env2, w2)) :
    ∃ scope : Env, OnlyVars scope [(c!"f", vf), (c!"g", vg), (c!"x", va)] ∧
      scope.getCwd = env1.getCwd ∧
      evalN P H (stdB P L) (n + 1) (call c!"fn" c!"compose" [f, g, a]) env w =
        ((evalD P H (bodyRun P H (stdB P L) n) 798 composeBody scope w2).1, env2,
          (evalD P H (bodyRun P H (stdB P L) n) 798 composeBody scope w2).2.2) := by
  have hm := evalD_mem (P := P) (H := H) (L := L) (n := n) (k := 798) (w := w) (m := c!"fn")
    (f := c!"compose") (tbl := Init.fnM) hs (by mem_tac) (by mem_tac)
  have h := evalD_callMore (b := g) (rest := [a]) hm hf (evalD_lambda ..)
  rw [evalD_callMore (b := a) (rest := []) (evalD_lambda ..) hg (evalD_lambda ..),
    evalD_call1 (evalD_lambda ..) ha] at h
  refine ⟨⟨[(c!"CWD", .str env1.getCwd), (c!"f", vf), (c!"g", vg), (c!"x", va)], []⟩, ⟨?_, ?_⟩,
    ?_, ?_⟩
  · simp only [List.forall_mem_cons, List.not_mem_nil, false_imp_iff, implies_true, and_true]
    exact ⟨rfl, rfl, rfl⟩
  · intro x hx hc
    simp only [List.map_cons, List.map_nil, List.mem_cons, List.not_mem_nil, or_false,
      not_or] at hx
    simp [Env.get, BMap.get?, Ne.symm hc, Ne.symm hx.1, Ne.symm hx.2.1, Ne.symm hx.2.2]
    rfl
  · rfl
  · have h0 : evalN P H (stdB P L) (n + 1) (call c!"fn" c!"compose" [f, g, a]) env w =
        evalD P H (bodyRun P H (stdB P L) n) (800 + 1) (call c!"fn" c!"compose" [f, g, a]) env
          w := by
      rw [evalN]
      rfl
    rw [h0, h, ← compose_scope env env0 env1 vf vg va]
    generalize evalD P H (bodyRun P H (stdB P L) n) 798 = E
    rfl

/-- C73.  For users' functions `p -> bodyf` and `q -> bodyg`: if the second, called with the value of
`a`, gives `u`, the composition gives what the first gives when called with `u`. -/
theorem C73_compose_functions {f g a va u bodyf bodyg : Expr} {p q : Str}
    {bs cs : List (Str × Expr)} {ps qs : List (List (Str × Expr))} {env env0 env1 env2 : Env}
    {w w0 w1 w2 : W} (hs : Std env)
    (hf : evalD P H (bodyRun P H (stdB P L) n) 800 f env w = (.ok (.lambda p bodyf bs ps), env0, w0))
    (hg : evalD P H (bodyRun P H (stdB P L) n) 799 g env0 w0 =
      (.ok (.lambda q bodyg cs qs), env1, w1))
    (ha : evalD P H (bodyRun P H (stdB P L) n) 798 a env1 w1 = (.ok va, env2, w2)) :
    ∃ scope : Env,
      OnlyVars scope [(c!"f", .lambda p bodyf bs ps), (c!"g", .lambda q bodyg cs qs),
        (c!"x", va)] ∧ scope.getCwd = env1.getCwd ∧
      ∀ scope1 w3,
        evalD P H (bodyRun P H (stdB P L) n) 796
          (.apply (.quote (.lambda q bodyg cs qs)) [.quote va]) scope w2 = (.ok u, scope1, w3) →
        ∀ o scope2 w4,
          evalD P H (bodyRun P H (stdB P L) n) 798
            (.apply (.quote (.lambda p bodyf bs ps)) [.quote u]) scope w3 = (o, scope2, w4) →
          evalN P H (stdB P L) (n + 1) (call c!"fn" c!"compose" [f, g, a]) env w =
            (o, env2, w4) := by
  obtain ⟨scope, ho, hc, h⟩ := C73_compose hs hf hg ha
  refine ⟨scope, ho, hc, ?_⟩
  intro scope1 w3 h1 o scope2 w4 h2
  rw [h]
  have sym : ∀ {k : Nat} {x : Str} {v : Expr} {w : W}, scope.get x = some v →
      evalD P H (bodyRun P H (stdB P L) n) (k + 1) (.symbol x) scope w = (.ok v, scope, w) := by
    intro k x v w hx
    rw [evalD]
    simp only [evalStep, M.getEnv_bind, hx, M.pure_apply]
  have quo : ∀ {k : Nat} {v : Expr} {w : W},
      evalD P H (bodyRun P H (stdB P L) n) (k + 1) (.quote v) scope w = (.ok v, scope, w) :=
    fun {_ _ _} => rfl
  have hgx : evalD P H (bodyRun P H (stdB P L) n) 797
      (.group (.apply (.symbol c!"g") [.symbol c!"x"])) scope w2 = (.ok u, scope, w3) := by
    have e1 := evalD_call1 (k := 795) (sym (k := 794) (w := w2)
      (ho.1 _ (by mem_tac : (c!"g", _) ∈ _)))
      (sym (k := 794) (w := w2) (ho.1 _ (by mem_tac : (c!"x", va) ∈ _)))
    have e2 := evalD_call1 (k := 795) (quo (k := 794) (w := w2) (v := .lambda q bodyg cs qs))
      (quo (k := 794) (w := w2) (v := va))
    rw [h1, Prod.mk.injEq, Prod.mk.injEq] at e2
    rw [evalD]
    simp only [evalStep]
    rw [e1, ← e2.1, ← e2.2.2]
  have e1 := evalD_call1 (k := 797) (sym (k := 796) (w := w2)
    (ho.1 _ (by mem_tac : (c!"f", _) ∈ _))) hgx
  have e2 := evalD_call1 (k := 797) (quo (k := 796) (w := w3) (v := .lambda p bodyf bs ps))
    (quo (k := 796) (w := w3) (v := u))
  rw [h2, Prod.mk.injEq, Prod.mk.injEq] at e2
  rw [composeBody, e1, ← e2.1, ← e2.2.2]

/-- `fn@compose (a -> [a, 1]) (b -> [b, 2]) 7` is `[[7, 2], 1]`. -/
example : (evalN Demo.plat Demo.host (stdB Demo.plat Demo.lib) 1
    (call c!"fn" c!"compose" [.lambda c!"a" (.list [.symbol c!"a", .int (.lit 1)]) [] [],
      .lambda c!"b" (.list [.symbol c!"b", .int (.lit 2)]) [] [], .int (.lit 7)])
    Demo.env []).1 = .ok (.list [.list [.int (.lit 7), .int (.lit 2)], .int (.lit 1)]) := rfl

/-- Effects and order: the inner function runs first. -/
example : (evalN Demo.plat Demo.host (stdB Demo.plat Demo.lib) 1
    (call c!"fn" c!"compose" [.lambda c!"a" (.apply (.symbol c!"one") [.symbol c!"a"]) [] [],
      .lambda c!"b" (.do_ [.apply (.symbol c!"two") [], .symbol c!"b"]) [] [], .str c!"z"])
    Demo.env []).2.2.map (fun op => match op with | .status c .. => c | _ => []) =
      [c!"two", c!"one"] := rfl

/-! ### `fn@apply` -/

/-- C73.  `fn@apply f args` evaluates `f` and then `args`; the value of `args` must be a list, and
the answer, the errors and the effects are those of the call of the value of `f` with the elements
of this list, in their order, evaluated where `args` left the shell. -/
theorem C73_apply {f a vf : Expr} {l : List Expr} {env env0 env1 : Env} {w w0 w1 : W} (hs : Std env)
    (hf : evalN P H (stdB P L) n f env w = (.ok vf, env0, w0))
    (ha : evalN P H (stdB P L) n a env0 w0 = (.ok (.list l), env1, w1)) :
    evalN P H (stdB P L) (n + 1) (call c!"fn" c!"apply" [f, a]) env w =
      evalN P H (stdB P L) n (.apply vf l) env1 w1 := by
  lib hs, Init.fnM
  brun [Builtins.applyB, hf, ha]

/-- C73.  When the second argument gives anything but a list, the call fails and names that
argument; the function is not called: nothing happens after the evaluation of the arguments. -/
theorem C73_apply_no_list {f a vf va : Expr} {env env0 env1 : Env} {w w0 w1 : W} (hs : Std env)
    (hf : evalN P H (stdB P L) n f env w = (.ok vf, env0, w0))
    (ha : evalN P H (stdB P L) n a env0 w0 = (.ok va, env1, w1)) (hl : ∀ l, va ≠ .list l) :
    ∃ msg, evalN P H (stdB P L) (n + 1) (call c!"fn" c!"apply" [f, a]) env w =
      (.err (.customError msg), env1, w1) := by
  lib hs, Init.fnM
  cases va <;> first | exact absurd rfl (hl _) | (brun [Builtins.applyB, hf, ha])

/-- `fn@apply (x -> y -> [y, x]) [1, 2]` is `[2, 1]`. -/
example : (evalN Demo.plat Demo.host (stdB Demo.plat Demo.lib) 2
    (call c!"fn" c!"apply" [.lambda c!"x" (.lambda c!"y" (.list [.symbol c!"y", .symbol c!"x"])
      [] []) [] [], .list [.int (.lit 1), .int (.lit 2)]]) Demo.env []).1 =
    .ok (.list [.int (.lit 2), .int (.lit 1)]) := rfl

example : ∃ msg, evalN Demo.plat Demo.host (stdB Demo.plat Demo.lib) 2
    (call c!"fn" c!"apply" [.lambda c!"x" (.symbol c!"x") [] [], .int (.lit 1)]) Demo.env [] =
    (.err (.customError msg), Demo.env, []) :=
  C73_apply_no_list demo_std rfl rfl nofun

/-- C73.  The elements are evaluated a second time: an element that is a quoted symbol or any other
code does not reach the function as it is, but its value does.  With `z = 5`,
`fn@apply (x -> [x]) ['z]` gives `[5]`, though `(x -> [x]) 'z` gives `[z]`, the list of the symbol. -/
theorem C73_apply_evaluates_twice {z : Str} {v : Expr} {env : Env} {w : W} (hs : Std env)
    (hz : env.get z = some v) :
    evalN P H (stdB P L) (n + 2) (call c!"fn" c!"apply" [.lambda c!"x" (.list [.symbol c!"x"]) [] [],
        .list [.quote (.symbol z)]]) env w = (.ok (.list [v]), env, w) ∧
    evalN P H (stdB P L) (n + 2) (.apply (.lambda c!"x" (.list [.symbol c!"x"]) [] [])
        [.quote (.symbol z)]) env w = (.ok (.list [.symbol z]), env, w) := by
  have body : ∀ (m k : Nat) (fr : Env) (c : Str) (u : Expr) (w : W),
      evalD P H (bodyRun P H (stdB P L) m) (k + 2) (.list [.symbol c!"x"])
        (callEnv c!"x" fr c u) w = (.ok (.list [u]), callEnv c!"x" fr c u, w) := by
    intro m k fr c u w
    have hx : evalD P H (bodyRun P H (stdB P L) m) (k + 1) (.symbol c!"x") (callEnv c!"x" fr c u)
        w = (.ok u, callEnv c!"x" fr c u, w) := by
      rw [evalD]
      simp only [evalStep, M.getEnv_bind, callEnv, Env.get_define, if_true, M.pure_apply]
    rw [evalD]
    simp [-bind_pure_comp, evalStep, evalList, M.bind_def, hx]
  refine ⟨?_, ?_⟩
  · rw [C73_apply (n := n + 1) (vf := _) (l := [.symbol z]) hs (evalD_lambda (k := 800) ..) rfl]
    have hz' : evalD P H (bodyRun P H (stdB P L) n) 800 (.symbol z) env w = (.ok v, env, w) := by
      rw [evalD]
      simp only [evalStep, M.getEnv_bind, hz, M.pure_apply]
    have h := evalD_call1 (k := 800) (evalD_lambda (P := P) (H := H)
      (B := bodyRun P H (stdB P L) n) (k := 799) c!"x" (.list [.symbol c!"x"])
      (closeLambda env c!"x" (.list [.symbol c!"x"]) ⟨[], []⟩).bindings
      (closeLambda env c!"x" (.list [.symbol c!"x"]) ⟨[], []⟩).parents env w) hz'
    rw [body _ 798] at h
    exact h
  · have h := evalD_call1 (k := 800) (evalD_lambda (P := P) (H := H)
      (B := bodyRun P H (stdB P L) (n + 1)) (k := 799) c!"x" (.list [.symbol c!"x"])
      [] [] env w) (a := .quote (.symbol z)) (v := .symbol z) rfl
    rw [body _ 798] at h
    exact h

example : (evalN Demo.plat Demo.host (stdB Demo.plat Demo.lib) 2
    (call c!"fn" c!"apply" [.lambda c!"x" (.list [.symbol c!"x"]) [] [],
      .list [.quote (.symbol c!"z")]]) (Demo.env.define c!"z" (.int (.lit 5))) []).1 =
    .ok (.list [.int (.lit 5)]) := rfl

end

/-! The functions are what the sources in `src/binary/init/fn_module.rs` parse to. -/

/-- the value of a source text in the empty environment -/
def sourceValue (s : Str) : Option Expr :=
  match parseText Demo.plat s with
  | .ok e =>
    match (evalD Demo.plat Demo.host Demo.noB 801 e Env.empty []).1 with
    | .ok v => some v
    | _ => none
  | _ => none

set_option maxRecDepth 100000 in
example :
    [(c!"id", c!"x -> x"), (c!"const", c!"x -> y -> x"), (c!"flip", c!"f -> x -> y -> f y x"),
      (c!"compose", c!"f -> g -> x -> f (g x)")].map (fun p => (p.1, sourceValue p.2)) =
    (Init.fnM.take 4).map fun p => (p.1, some p.2) := rfl

/-! ### Instances: the hypotheses can be met -/

example := C73_compose (P := Demo.plat) (H := Demo.host) (L := Demo.lib) (n := 0) (w := []) demo_std
  (f := .lambda c!"a" (.list [.symbol c!"a", .int (.lit 1)]) [] [])
  (g := .lambda c!"b" (.list [.symbol c!"b", .int (.lit 2)]) [] []) (a := .int (.lit 7)) rfl rfl rfl

end Dune.Props
