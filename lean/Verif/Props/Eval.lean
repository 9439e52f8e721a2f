import Verif.Proof.BigStep
import Verif.Proof.Env
import Verif.Spec.Eval
import Verif.Spec.Demo

/-!
C17–C31: properties of the evaluator.  `evalD P H B k e env w` is `e.eval_mut(env, 801 - k)`; the
theorems hold for every platform `P`, outside world `H`, builtin behaviour `B` and depth.
-/

namespace Dune.Props

open Spec

section

variable {W : Type} {P : Plat} {H : Host W} {B : BId → List Expr → M W Expr}

/-! ### C17 -/

theorem ofList_sorted {α : Type} {m : BMap α} (h : BMap.Sorted m) : BMap.ofList m = m := by
  apply BMap.Sorted.ext (BMap.Sorted.ofList m) h
  intro x
  simp only [BMap.ofList, BMap.get?_extend, BMap.get?_nil, Option.or_none]
  cases hx : BMap.get? m x with
  | none =>
    rw [BMap.get?_eq_none_iff] at hx ⊢
    intro p hp
    exact hx p (List.mem_reverse.mp hp)
  | some v =>
    have hmem := BMap.mem_of_get? hx
    cases hr : BMap.get? m.reverse x with
    | none =>
      rw [BMap.get?_eq_none_iff] at hr
      exact absurd rfl (hr _ (List.mem_reverse.mpr hmem))
    | some v' =>
      have hmem' := List.mem_reverse.mp (BMap.mem_of_get? hr)
      rw [BMap.get?_of_mem h hmem'] at hx
      exact hx

/-- C17.  Data nested less deep than the remaining depth evaluates to itself, changes no variable
and does nothing outside.  With `k = 801` this is `Expression::eval`. -/
theorem C17_data_inert {k : Nat} {e : Expr} (h : Data k e) (env : Env) (w : W) :
    evalD P H B k e env w = (.ok e, env, w) := by
  induction h generalizing env w with
  | @list n l _ ih =>
    have hl : ∀ l : List Expr, (∀ e ∈ l, ∀ env w, evalD P H B n e env w = (.ok e, env, w)) →
        ∀ env w, evalList (evalD P H B n) l env w = (.ok l, env, w) := by
      intro l
      induction l with
      | nil => intros; rfl
      | cons a as ihl =>
        intro h env w
        simp only [evalList]
        rw [M.bind_ok (h a (by simp) env w),
          M.bind_ok (ihl (fun e he => h e (by simp [he])) env w)]
        rfl
    simp only [evalD, evalStep]
    rw [M.bind_ok (hl l ih env w)]
    rfl
  | @map n m hs _ ih =>
    have hl : ∀ l : List (Str × Expr),
        (∀ p ∈ l, ∀ env w, evalD P H B n p.2 env w = (.ok p.2, env, w)) →
        ∀ env w, evalMap (evalD P H B n) l env w = (.ok l, env, w) := by
      intro l
      induction l with
      | nil => intros; rfl
      | cons a as ihl =>
        intro h env w
        obtain ⟨k, e⟩ := a
        simp only [evalMap]
        rw [M.bind_ok (h (k, e) (by simp) env w),
          M.bind_ok (ihl (fun e he => h e (by simp [he])) env w)]
        rfl
    simp only [evalD, evalStep]
    rw [M.bind_ok (hl m ih env w), ofList_sorted hs]
    rfl
  | _ => rfl

example : Data 801 (.list [.int (.lit 1), .map [(c!"a", .str c!"x"), (c!"b", .list [])]]) := by
  refine .list ?_
  intro e he
  simp at he
  rcases he with rfl | rfl
  · exact .int _
  · refine .map ?_ ?_
    · simp [BMap.Sorted]; decide
    · intro p hp
      simp at hp
      rcases hp with rfl | rfl
      · exact .str _
      · exact .list (by simp)

/-! ### C18 -/

/-- C18.  A list of quoted expressions evaluates to the list of the expressions themselves: nothing
inside a quotation is evaluated, whatever it is and whatever the environment. -/
theorem C18_quote_suspends (k : Nat) (es : List Expr) (env : Env) (w : W) :
    evalD P H B (k + 2) (.list (es.map .quote)) env w = (.ok (.list es), env, w) := by
  have : ∀ es : List Expr, evalList (evalD P H B (k + 1)) (es.map .quote) env w =
      (.ok es, env, w) := by
    intro es
    induction es with
    | nil => rfl
    | cons e es ih =>
      simp only [List.map_cons, evalList]
      rw [M.bind_ok (show evalD P H B (k + 1) (.quote e) env w = (.ok e, env, w) from rfl),
        M.bind_ok ih]
      rfl
  rw [evalD]
  simp only [evalStep]
  rw [M.bind_ok (this es)]
  rfl

/-- C18.  One quotation level is removed per evaluation, at any depth within the limit. -/
theorem C18_quote_one (k : Nat) (e : Expr) (env : Env) (w : W) :
    evalD P H B (k + 1) (.quote e) env w = (.ok e, env, w) := rfl

/-- A quoted command is not run: the world is unchanged. -/
example : evalD Demo.plat Demo.host Demo.noB 801
    (.list [.quote (.apply (.symbol c!"rm") [.str c!"-rf"])]) Env.empty [] =
    (.ok (.list [.apply (.symbol c!"rm") [.str c!"-rf"]]), Env.empty, []) :=
  C18_quote_suspends _ [_] _ _

/-! ### C19 -/

/-- C19.  With a truthy condition the outcome is that of the first branch, for every second
branch. -/
theorem C19_if_true {k : Nat} {c t : Expr} {v : Expr} {env env1 : Env} {w w1 : W}
    (hc : evalD P H B k c env w = (.ok v, env1, w1)) (hv : Truthy v) (e : Expr) :
    evalD P H B (k + 1) (.ite c t e) env w = evalD P H B k t env1 w1 := by
  rw [evalD]
  simp only [evalStep, M.bind_ok hc, (isTruthy_iff v).2 hv, if_true]

/-- C19.  With a falsy condition the outcome is that of the second branch, for every first
branch. -/
theorem C19_if_false {k : Nat} {c e : Expr} {v : Expr} {env env1 : Env} {w w1 : W}
    (hc : evalD P H B k c env w = (.ok v, env1, w1)) (hv : ¬ Truthy v) (t : Expr) :
    evalD P H B (k + 1) (.ite c t e) env w = evalD P H B k e env1 w1 := by
  rw [evalD]
  simp only [evalStep, M.bind_ok hc, (isTruthy_false_iff v).2 hv, Bool.false_eq_true, if_false]

/-- C19.  A condition that does not produce a value runs neither branch. -/
theorem C19_if_stop {k : Nat} {c : Expr} {o : Outcome Expr} {env env1 : Env} {w w1 : W}
    (hc : evalD P H B k c env w = (o, env1, w1)) (ho : ¬ IsValue o) (t e : Expr) :
    evalD P H B (k + 1) (.ite c t e) env w = (o, env1, w1) := by
  rw [evalD]
  exact bind_stop' hc ho

/-- C19.  Consequently one of the branches never matters: for any condition and state, the outcome
is independent of the first branch or independent of the second. -/
theorem C19_one_branch (k : Nat) (c : Expr) (env : Env) (w : W) :
    (∀ t e e', evalD P H B (k + 1) (.ite c t e) env w =
      evalD P H B (k + 1) (.ite c t e') env w) ∨
    (∀ t t' e, evalD P H B (k + 1) (.ite c t e) env w =
      evalD P H B (k + 1) (.ite c t' e) env w) := by
  rcases hc : evalD P H B k c env w with ⟨o, env1, w1⟩
  cases o with
  | ok v =>
    by_cases hv : Truthy v
    · exact Or.inl fun t e e' => by rw [C19_if_true hc hv, C19_if_true hc hv]
    · exact Or.inr fun t t' e => by rw [C19_if_false hc hv, C19_if_false hc hv]
  | _ => exact Or.inl fun t e e' => by rw [C19_if_stop hc id, C19_if_stop hc id]

example : evalD Demo.plat Demo.host Demo.noB 801
    (.ite (.str c!"yes") (.int (.lit 1)) omegaE) Env.empty [] =
    (.ok (.int (.lit 1)), Env.empty, []) := rfl
where omegaE : Expr := .apply (.symbol c!"halt") []

/-! ### C20 -/

/-- One iteration of a loop body as a state transformer. -/
def iteration (P : Plat) (H : Host W) (B : BId → List Expr → M W Expr) (k : Nat) (x : Str)
    (body item : Expr) (s : Env × W) : Option Expr × (Env × W) :=
  match evalD P H B k body (s.1.define x item) s.2 with
  | (.ok v, env', w') => (some v, (env', w'))
  | (_, env', w') => (Option.none, (env', w'))

theorem forLoop_iff (k : Nat) (x : Str) (body : Expr) : ∀ (items : List Expr) (vs : List Expr)
    (env env' : Env) (w w' : W),
    forLoop (evalD P H B k) x body items env w = (.ok vs, env', w') ↔
      Iterates (iteration P H B k x body) items vs (env, w) (env', w')
  | [], vs, env, env', w, w' => by
    constructor
    · intro h; cases h; exact .nil _
    · intro h; cases h; rfl
  | i :: is, vs, env, env', w, w' => by
    simp only [forLoop, M.define_bind]
    rcases hb : evalD P H B k body (env.define x i) w with ⟨o, env1, w1⟩
    constructor
    · intro h
      obtain ⟨v, e1, u1, h1, h2⟩ := M.bind_eq_ok h
      obtain ⟨vs', e2, u2, h3, h4⟩ := M.bind_eq_ok h2
      cases h4
      refine .cons (s1 := (e1, u1)) ?_ ((forLoop_iff k x body is _ _ _ _ _).mp h3)
      simp only [iteration, h1]
    · intro h
      cases h with
      | @cons _ _ v vs _ s1 _ hstep hrest =>
        simp only [iteration, hb] at hstep
        cases o with
        | ok v' =>
          cases hstep
          rw [M.bind_ok hb, M.bind_ok ((forLoop_iff k x body is _ _ _ _ _).mpr hrest)]
          rfl
        | _ => simp at hstep

/-- C20.  `for x in l body` succeeds exactly when `l` evaluates to a list and the body succeeds for
each element in order, each iteration starting from the state the previous one left; the result
collects the values in order. -/
theorem C20_for_iff (k : Nat) (x : Str) (l body : Expr) (r : Expr) (env env' : Env) (w w' : W) :
    evalD P H B (k + 1) (.for_ x l body) env w = (.ok r, env', w') ↔
      ∃ items vs env1 w1, evalD P H B k l env w = (.ok (.list items), env1, w1) ∧
        r = .list vs ∧ Iterates (iteration P H B k x body) items vs (env1, w1) (env', w') := by
  constructor
  · intro h
    rw [evalD] at h
    simp only [evalStep] at h
    obtain ⟨v, env1, w1, h1, h2⟩ := M.bind_eq_ok h
    cases v with
    | list items =>
      obtain ⟨vs, env2, w2, h3, h4⟩ := M.bind_eq_ok h2
      cases h4
      exact ⟨items, vs, env1, w1, h1, rfl, (forLoop_iff ..).mp h3⟩
    | _ => cases h2
  · rintro ⟨items, vs, env1, w1, h1, rfl, h2⟩
    rw [evalD]
    simp only [evalStep, M.bind_ok h1, M.bind_ok ((forLoop_iff ..).mpr h2), M.pure_apply]

theorem iterates_length {S A V : Type} {step : A → S → Option V × S} {as : List A} {vs : List V}
    {s s' : S} (h : Iterates step as vs s s') : vs.length = as.length := by
  induction h with
  | nil => rfl
  | cons _ _ ih => simp [ih]

/-- C20.  The result has one entry per element. -/
theorem C20_for_length (k : Nat) (x : Str) (l body : Expr) (vs : List Expr)
    (env env' : Env) (w w' : W)
    (h : evalD P H B (k + 1) (.for_ x l body) env w = (.ok (.list vs), env', w')) :
    ∃ items env1 w1, evalD P H B k l env w = (.ok (.list items), env1, w1) ∧
      vs.length = items.length := by
  obtain ⟨items, vs', env1, w1, h1, h2, h3⟩ := (C20_for_iff ..).mp h
  cases h2
  exact ⟨items, env1, w1, h1, iterates_length h3⟩

/-- C20.  The first failing iteration ends the loop with its error and state; later elements are
not visited. -/
theorem C20_for_first_error (k : Nat) (x : Str) (l body bad : Expr) (good rest vs : List Expr)
    (o : Outcome Expr) (env env1 env2 env3 : Env) (w w1 w2 w3 : W)
    (hl : evalD P H B k l env w = (.ok (.list (good ++ bad :: rest)), env1, w1))
    (hgood : Iterates (iteration P H B k x body) good vs (env1, w1) (env2, w2))
    (hbad : evalD P H B k body (env2.define x bad) w2 = (o, env3, w3)) (ho : ¬ IsValue o) :
    evalD P H B (k + 1) (.for_ x l body) env w = (o, env3, w3) := by
  rw [evalD]
  simp only [evalStep, M.bind_ok hl]
  apply bind_cast _ ho
  generalize hs : (env1, w1) = s at hgood
  generalize ht : (env2, w2) = t at hgood
  clear hl
  induction hgood generalizing env1 w1 with
  | nil =>
    cases hs; cases ht
    simp only [List.nil_append, forLoop, M.define_bind]
    exact bind_stop hbad ho
  | @cons a as v vs s s1 s2 hstep hrest ih =>
    subst hs
    simp only [iteration] at hstep
    rcases hb : evalD P H B k body (env1.define x a) w1 with ⟨o', e', u'⟩
    rw [hb] at hstep
    cases o' with
    | ok v' =>
      cases hstep
      simp only [List.cons_append, forLoop, M.define_bind]
      rw [M.bind_ok hb, M.bind_def, ih e' u' rfl ht]
      cases o with
      | ok a => exact absurd trivial ho
      | _ => rfl
    | _ => simp at hstep

/-- C20.  Iterating over anything but a list is an error naming the list expression. -/
theorem C20_for_non_list (k : Nat) (x : Str) (l body v : Expr) (env env1 : Env) (w w1 : W)
    (hl : evalD P H B k l env w = (.ok v, env1, w1)) (hv : ∀ items, v ≠ .list items) :
    evalD P H B (k + 1) (.for_ x l body) env w = (.err (.forNonList l), env1, w1) := by
  rw [evalD]
  simp only [evalStep, M.bind_ok hl]
  cases v with
  | list items => exact absurd rfl (hv items)
  | _ => rfl

example : evalD Demo.plat Demo.host Demo.noB 801
    (.for_ c!"x" (.list [.int (.lit 1), .int (.lit 2)]) (.list [.symbol c!"x"])) Env.empty [] =
    (.ok (.list [.list [.int (.lit 1)], .list [.int (.lit 2)]]),
      Env.empty.define c!"x" (.int (.lit 2)), []) := rfl

/-! ### C21 -/

theorem evalDo_append (ev : Expr → M W Expr) (ys : List Expr) (hy : ys ≠ []) :
    ∀ xs, xs ≠ [] → evalDo ev (xs ++ ys) = (evalDo ev xs >>= fun _ => evalDo ev ys)
  | [x], _ => by
    obtain ⟨y, ys, rfl⟩ := List.exists_cons_of_ne_nil hy
    rfl
  | x :: x' :: xs, _ => by
    have ih := evalDo_append ev ys hy (x' :: xs) (by simp)
    simp only [List.cons_append, evalDo, bind_assoc] at ih ⊢
    rw [ih]

/-- C21.  A block of statements split anywhere: if the first part produces a value, the rest runs
in the state it left and gives the outcome. -/
theorem C21_block_ok (k : Nat) (xs ys : List Expr) (hx : xs ≠ []) (hy : ys ≠ [])
    (env env1 : Env) (w w1 : W) (v : Expr)
    (h : evalD P H B (k + 1) (.do_ xs) env w = (.ok v, env1, w1)) :
    evalD P H B (k + 1) (.do_ (xs ++ ys)) env w = evalD P H B (k + 1) (.do_ ys) env1 w1 := by
  rw [evalD] at h ⊢
  simp only [evalStep] at h ⊢
  rw [evalDo_append _ ys hy xs hx, M.bind_ok h]
  rfl

/-- C21.  If the first part does not produce a value, the later statements have no effect at
all. -/
theorem C21_block_stop (k : Nat) (xs ys : List Expr) (hx : xs ≠ []) (env env1 : Env) (w w1 : W)
    (o : Outcome Expr) (ho : ¬ IsValue o)
    (h : evalD P H B (k + 1) (.do_ xs) env w = (o, env1, w1)) :
    evalD P H B (k + 1) (.do_ (xs ++ ys)) env w = (o, env1, w1) := by
  by_cases hy : ys = []
  · subst hy; rw [List.append_nil]; exact h
  · rw [evalD] at h ⊢
    simp only [evalStep] at h ⊢
    rw [evalDo_append _ ys hy xs hx]
    exact bind_stop' h ho

example : evalD Demo.plat Demo.hostNotFound Demo.noB 801
    (.do_ ([.assign c!"a" (.int (.lit 1)), .apply (.symbol c!"nope") []] ++
      [.assign c!"b" (.int (.lit 2))])) Env.empty [] =
    (.err (.programNotFound c!"nope"), Env.empty.define c!"a" (.int (.lit 1)),
      [.status c!"nope" c!"/" [] [(c!"a", c!"1")]]) := rfl

/-! ### C22, C23 -/

/-- C22.  A call leaves the caller's environment exactly as the evaluation of the argument left it,
whatever the function body does. -/
theorem C22_call_isolated {k : Nat} {f a body : Expr} {p : Str} {bs : List (Str × Expr)}
    {ps : List (List (Str × Expr))} {env env1 : Env} {w w1 : W}
    (hf : evalD P H B k f env w = (.ok (.lambda p body bs ps), env1, w1)) :
    (evalD P H B (k + 1) (.apply f [a]) env w).2.1 = (evalD P H B k a env1 w1).2.1 := by
  rw [evalD]
  simp only [evalStep, M.bind_ok hf, applyValue, M.getEnv_bind]
  rcases ha : evalD P H B k a env1 w1 with ⟨o, env2, w2⟩
  cases o with
  | ok v => rw [M.bind_ok ha]; rfl
  | err e => rw [M.bind_err ha]
  | panic => rw [M.bind_panic ha]
  | exit c => rw [M.bind_exit ha]
  | noFuel => rw [M.bind_noFuel ha]

example : (evalD Demo.plat Demo.host Demo.noB 801
    (.apply (.lambda c!"x" (.assign c!"y" (.symbol c!"x")) [] []) [.int (.lit 7)])
    (Env.empty.define c!"y" (.int (.lit 1))) []).2.1 = Env.empty.define c!"y" (.int (.lit 1)) := by
  rfl

/-- C23.  Lexical scope: two callers that bind the same function, have the same current directory
and pass arguments with the same value in the same world get the same result and the same effects,
however their other variables differ. -/
theorem C23_lexical_scope {k : Nat} {g : Str} {a a' body v : Expr} {p : Str}
    {bs : List (Str × Expr)} {ps : List (List (Str × Expr))} {env env' env1 env1' : Env}
    {w w' w1 : W}
    (hg : env.get g = some (.lambda p body bs ps)) (hg' : env'.get g = some (.lambda p body bs ps))
    (hcwd : env.getCwd = env'.getCwd)
    (ha : evalD P H B (k + 1) a env w = (.ok v, env1, w1))
    (ha' : evalD P H B (k + 1) a' env' w' = (.ok v, env1', w1)) :
    (evalD P H B (k + 2) (.apply (.symbol g) [a]) env w).1 =
      (evalD P H B (k + 2) (.apply (.symbol g) [a']) env' w').1 ∧
    (evalD P H B (k + 2) (.apply (.symbol g) [a]) env w).2.2 =
      (evalD P H B (k + 2) (.apply (.symbol g) [a']) env' w').2.2 := by
  have key : ∀ {env env1 : Env} {w : W} {a : Expr},
      env.get g = some (.lambda p body bs ps) →
      evalD P H B (k + 1) a env w = (.ok v, env1, w1) →
      evalD P H B (k + 2) (.apply (.symbol g) [a]) env w =
        ((evalD P H B (k + 1) body (callEnv p ⟨bs, ps⟩ env.getCwd v) w1).1, env1,
          (evalD P H B (k + 1) body (callEnv p ⟨bs, ps⟩ env.getCwd v) w1).2.2) := by
    intro env env1 w a hg ha
    have hf : evalD P H B (k + 1) (.symbol g) env w = (.ok (.lambda p body bs ps), env, w) := by
      rw [evalD]
      simp only [evalStep, M.getEnv_bind, hg, M.pure_apply]
    rw [evalD]
    simp only [evalStep, M.bind_ok hf, applyValue, M.getEnv_bind, M.bind_ok ha, M.within_apply]
  rw [key hg ha, key hg' ha', hcwd]
  exact ⟨rfl, rfl⟩

/-- Two callers with different `y` call `x -> [x, y]`, which captured `y = 1`. -/
example :
    let f : Expr := .lambda c!"x" (.list [.symbol c!"x", .symbol c!"y"])
      [(c!"y", .int (.lit 1))] []
    let env : Env := (Env.empty.define c!"f" f)
    let env' : Env := (Env.empty.define c!"f" f).define c!"y" (.int (.lit 9))
    (evalD Demo.plat Demo.host Demo.noB 9 (.apply (.symbol c!"f") [.int (.lit 5)]) env []).1 =
      (evalD Demo.plat Demo.host Demo.noB 9 (.apply (.symbol c!"f") [.int (.lit 5)]) env' []).1
      := by
  intro f env env'
  exact (C23_lexical_scope (P := Demo.plat) (H := Demo.host) (B := Demo.noB) (k := 7)
    (g := c!"f") (a := .int (.lit 5)) (a' := .int (.lit 5)) (v := .int (.lit 5))
    (env := env) (env' := env') (env1 := env) (env1' := env') (w := []) (w' := []) (w1 := [])
    (p := c!"x") (body := .list [.symbol c!"x", .symbol c!"y"])
    (bs := [(c!"y", .int (.lit 1))]) (ps := []) rfl rfl rfl rfl rfl).1

/-- C23.  What a called function sees: it runs its body in a scope where the parameter is the value
of the argument, every other name except `CWD` is what the function captured, and the current
directory is the one the caller had when the call began (neither the one at the definition nor the
one the argument may have changed to).  A parameter named `CWD` takes the directory's place. -/
theorem C23_call_scope {k : Nat} {f a body v : Expr} {p : Str}
    {bs : List (Str × Expr)} {ps : List (List (Str × Expr))} {env env0 env1 : Env} {w w0 w1 : W}
    (hf : evalD P H B (k + 1) f env w = (.ok (.lambda p body bs ps), env0, w0))
    (ha : evalD P H B (k + 1) a env0 w0 = (.ok v, env1, w1)) :
    ∃ scope : Env,
      evalD P H B (k + 2) (.apply f [a]) env w =
        ((evalD P H B (k + 1) body scope w1).1, env1, (evalD P H B (k + 1) body scope w1).2.2) ∧
      scope.get p = some v ∧
      (∀ y, y ≠ p → y ≠ c!"CWD" → scope.get y = (Env.mk bs ps).get y) ∧
      (p ≠ c!"CWD" → scope.get c!"CWD" = some (.str env0.getCwd) ∧
        scope.getCwd = env0.getCwd) := by
  refine ⟨callEnv p ⟨bs, ps⟩ env0.getCwd v, ?_, ?_, ?_, ?_⟩
  · rw [evalD]
    simp only [evalStep, M.bind_ok hf, applyValue, M.getEnv_bind, M.bind_ok ha, M.within_apply]
  · rw [callEnv, Env.get_define, if_pos rfl]
  · intro y hp hc
    rw [callEnv, Env.get_define, if_neg (Ne.symm hp), Env.setCwd, Env.get_define,
      if_neg (show cwdVar ≠ y from Ne.symm hc)]
  · intro hp
    have h : (callEnv p ⟨bs, ps⟩ env0.getCwd v).get c!"CWD" = some (.str env0.getCwd) := by
      rw [callEnv, Env.get_define, if_neg hp, Env.setCwd, Env.get_define,
        if_pos (show cwdVar = c!"CWD" from rfl)]
    refine ⟨h, ?_⟩
    rw [Env.getCwd, show cwdVar = c!"CWD" from rfl, h]

/-- `x -> CWD`, defined where `CWD` was `/old`, called from `/home`: it sees `/home`; a parameter
named `CWD` hides the directory. -/
example :
    let env : Env := Env.empty.define c!"CWD" (.str c!"/home")
    (evalD Demo.plat Demo.host Demo.noB 9
      (.apply (.lambda c!"x" (.symbol c!"CWD") [(c!"CWD", .str c!"/old")] []) [.int (.lit 7)])
      env []).1 = .ok (.str c!"/home") ∧
    (evalD Demo.plat Demo.host Demo.noB 9
      (.apply (.lambda c!"CWD" (.symbol c!"CWD") [(c!"CWD", .str c!"/old")] []) [.int (.lit 7)])
      env []).1 = .ok (.int (.lit 7)) := by
  exact ⟨rfl, rfl⟩

/-! ### C24, C25 -/

/-- C24.  Evaluating a function literal runs nothing and changes nothing; the resulting function
stores exactly: the current value of every mentioned variable that is visible and not the
parameter, the current directory, the parameter (as `None`), and nothing else.  (`[]`, `[]`: the
parser creates function literals with an empty captured environment.) -/
theorem C24_capture_exact (k : Nat) (p : Str) (body : Expr) (env : Env) (w : W) :
    ∃ binds, evalD P H B (k + 1) (.lambda p body [] []) env w =
        (.ok (.lambda p body binds []), env, w) ∧
      ∀ s, BMap.get? binds s =
        if Mentions body s ∧ s ≠ p ∧ (env.get s).isSome = true then env.get s
        else if s = c!"CWD" then some (.str env.getCwd)
        else if s = p then some .none
        else Option.none := by
  refine ⟨(closeLambda env p body ⟨[], []⟩).bindings, ?_, ?_⟩
  · rw [evalD]
    simp only [evalStep, M.getEnv_bind, M.pure_apply, closeLambda_parents]
  · intro s
    have hd : Env.isDefined ⟨[], []⟩ s = false := rfl
    rw [closeLambda, capture_get]
    simp only [hd, true_and, mentions_iff]
    by_cases h : Mentions body s ∧ s ≠ p ∧ (Env.get env s).isSome = true
    · rw [if_pos h, if_pos h]
    · rw [if_neg h, if_neg h]
      simp only [Env.setCwd, Env.define, BMap.get?_insert, BMap.get?_nil, cwdVar]
      by_cases h1 : s = c!"CWD"
      · subst h1; simp
      · rw [if_neg (Ne.symm h1), if_neg h1]
        by_cases h2 : s = p
        · subst h2; simp
        · rw [if_neg (Ne.symm h2), if_neg h2]

/-- C24, for a literal that already captured something (a function evaluated a second time):
captured variables keep their captured value. -/
theorem C24_recapture (k : Nat) (p : Str) (body : Expr) (bs : List (Str × Expr))
    (ps : List (List (Str × Expr))) (env : Env) (w : W) (s : Str) (v : Expr)
    (hs : BMap.get? bs s = some v) (hp : s ≠ p) (hc : s ≠ c!"CWD") :
    ∃ binds, evalD P H B (k + 1) (.lambda p body bs ps) env w =
        (.ok (.lambda p body binds ps), env, w) ∧ BMap.get? binds s = some v := by
  refine ⟨(closeLambda env p body ⟨bs, ps⟩).bindings, ?_, ?_⟩
  · rw [evalD]
    simp only [evalStep, M.getEnv_bind, M.pure_apply, closeLambda_parents]
  · simp only [closeLambda, capture_get]
    have : Env.isDefined ⟨bs, ps⟩ s = true := by
      simp [Env.isDefined_eq, Env.get, hs]
    rw [if_neg (by simp [this])]
    simp only [Env.setCwd, Env.define, BMap.get?_insert, cwdVar]
    rw [if_neg (Ne.symm hc), if_neg (Ne.symm hp), hs]

/-- `x -> y x` with `y = 3` captures 3, and a later `let y = 4` is not seen. -/
example : ∃ binds, evalD Demo.plat Demo.host Demo.noB 801
    (.lambda c!"x" (.list [.symbol c!"y", .symbol c!"x"]) [] [])
    (Env.empty.define c!"y" (.int (.lit 3))) [] =
      (.ok (.lambda c!"x" (.list [.symbol c!"y", .symbol c!"x"]) binds []),
        Env.empty.define c!"y" (.int (.lit 3)), []) ∧
    BMap.get? binds c!"y" = some (.int (.lit 3)) := by
  refine ⟨_, rfl, rfl⟩

/-- C25.  After `let f = x -> body` with `f` unbound before, the name `f` is not visible inside the
body, for every argument; so `f` there means an external program. -/
theorem C25_no_self_reference (k : Nat) (f p : Str) (body : Expr) (env : Env) (w : W)
    (hf : env.get f = Option.none) (hp : f ≠ p) (hc : f ≠ c!"CWD") :
    ∃ binds, evalD P H B (k + 2) (.assign f (.lambda p body [] [])) env w =
        (.ok .none, env.define f (.lambda p body binds []), w) ∧
      ∀ cwd v, (callEnv p ⟨binds, []⟩ cwd v).get f = Option.none := by
  obtain ⟨binds, hb, hg⟩ := C24_capture_exact (P := P) (H := H) (B := B) k p body env w
  refine ⟨binds, ?_, ?_⟩
  · rw [evalD]
    simp only [evalStep, M.bind_ok hb, M.define_bind, M.pure_apply]
  · intro cwd v
    have := hg f
    rw [if_neg (by simp [hf]), if_neg hc, if_neg hp] at this
    simp only [callEnv, Env.get_define, Env.setCwd, if_neg (Ne.symm hp), cwdVar,
      if_neg (Ne.symm hc)]
    simp only [Env.get, this, Env.get.getParents]

/-- C25.  Calling the "recursive" function `let f = x -> f x` with a string argument therefore runs
an external program named `f`, exactly once, with that argument. -/
theorem C25_runs_program (k : Nat) (f p s : Str) (env : Env) (w : W)
    (hf : env.get f = Option.none) (hp : f ≠ p) (hc : f ≠ c!"CWD") (hpc : p ≠ c!"CWD") :
    ∃ env1 envs,
      evalD P H B (k + 4) (.assign f (.lambda p (.apply (.symbol f) [.symbol p]) [] [])) env w =
        (.ok .none, env1, w) ∧
      (evalD P H B (k + 4) (.apply (.symbol f) [.str s]) env1 w).2 =
        (env1, (H.io (.status f env1.getCwd [s] envs) w).2) := by
  obtain ⟨binds, h1, h2⟩ := C25_no_self_reference (P := P) (H := H) (B := B) (k + 2) f p
    (.apply (.symbol f) [.symbol p]) env w hf hp hc
  have hget : (env.define f (Expr.lambda p (.apply (.symbol f) [.symbol p]) binds [])).get f =
      some (Expr.lambda p (.apply (.symbol f) [.symbol p]) binds []) := by
    simp [Env.get_define]
  generalize env.define f (Expr.lambda p (.apply (.symbol f) [.symbol p]) binds []) = env1
    at h1 hget
  refine ⟨env1, exportBindings P (callEnv p ⟨binds, []⟩ env1.getCwd (.str s)).bindings, h1, ?_⟩
  have hfun : evalD P H B (k + 3) (.symbol f) env1 w =
      (.ok (Expr.lambda p (.apply (.symbol f) [.symbol p]) binds []), env1, w) := by
    rw [evalD]
    simp only [evalStep, M.getEnv_bind, hget, M.pure_apply]
  rw [evalD]
  simp only [evalStep]
  rw [M.bind_ok hfun]
  simp only [applyValue, M.getEnv_bind]
  rw [M.bind_ok (show evalD P H B (k + 3) (.str s) env1 w = (.ok (.str s), env1, w) from rfl)]
  generalize hce : callEnv p ⟨binds, []⟩ env1.getCwd (.str s) = ce
  have hcf : ce.get f = Option.none := by rw [← hce]; exact h2 _ _
  have hcp : ce.get p = some (.str s) := by
    rw [← hce]; simp [callEnv, Env.get_define]
  have hcc : ce.getCwd = env1.getCwd := by
    rw [← hce]
    have : (callEnv p ⟨binds, []⟩ env1.getCwd (.str s)).get cwdVar =
        some (.str env1.getCwd) := by
      simp only [callEnv, Env.setCwd, Env.get_define, cwdVar, if_neg hpc, if_true]
    rw [Env.getCwd, this]
  simp only [M.within_apply]
  have hbody : (evalD P H B (k + 3) (.apply (.symbol f) [.symbol p]) ce w).2.2 =
      (H.io (.status f env1.getCwd [s] (exportBindings P ce.bindings)) w).2 := by
    have e1 : evalD P H B (k + 2) (.symbol f) ce w = (.ok (.symbol f), ce, w) := by
      rw [evalD]
      simp only [evalStep, M.getEnv_bind, hcf, M.pure_apply]
    have e2 : evalD P H B (k + 2) (.symbol p) ce w = (.ok (.str s), ce, w) := by
      rw [evalD]
      simp only [evalStep, M.getEnv_bind, hcp, M.pure_apply]
    have e3 : collectArgs P (evalD P H B (k + 2)) [.symbol p] ce w = (.ok [s], ce, w) := by
      simp only [collectArgs]
      rw [M.bind_ok e2]
      rfl
    rw [evalD]
    simp only [evalStep]
    rw [M.bind_ok e1]
    simp only [applyValue, applyName, M.getEnv_bind]
    rw [M.bind_ok e3]
    simp only [runProgram, M.getEnv_bind, M.io_bind, hcc]
    generalize H.io _ w = r
    rcases r with ⟨r, w'⟩
    cases r with
    | err e => cases e <;> rfl
    | _ => rfl
  rw [hbody]

example : (evalD Demo.plat Demo.host Demo.noB 801
    (.do_ [.assign c!"f" (.lambda c!"x" (.apply (.symbol c!"f") [.symbol c!"x"]) [] []),
      .apply (.symbol c!"f") [.str c!"go"]]) Env.empty []).2.2 =
    [.status c!"f" c!"/" [c!"go"] [(c!"CWD", c!"/"), (c!"x", c!"go")]] := rfl

/-! ### C26 -/

/-- C26.  A macro call binds the parameter in the caller's environment and is then exactly the body
evaluated there. -/
theorem C26_macro_in_caller {k : Nat} {f a body v : Expr} {p : Str} {env env1 env2 : Env}
    {w w1 w2 : W}
    (hf : evalD P H B k f env w = (.ok (.macro_ p body), env1, w1))
    (ha : evalD P H B k a env1 w1 = (.ok v, env2, w2)) :
    evalD P H B (k + 1) (.apply f [a]) env w = evalD P H B k body (env2.define p v) w2 := by
  rw [evalD]
  simp only [evalStep, M.bind_ok hf, applyValue, M.bind_ok ha, M.define_bind]

/-- C26.  With more arguments, the first goes to the macro, and what its body gives (still in the
caller's environment) is applied to all the others. -/
theorem C26_macro_more {k : Nat} {f a b body v g : Expr} {rest : List Expr} {p : Str}
    {env env1 env2 env3 : Env} {w w1 w2 w3 : W}
    (hf : evalD P H B k f env w = (.ok (.macro_ p body), env1, w1))
    (ha : evalD P H B k a env1 w1 = (.ok v, env2, w2))
    (hg : evalD P H B k body (env2.define p v) w2 = (.ok g, env3, w3)) :
    evalD P H B (k + 1) (.apply f (a :: b :: rest)) env w =
      evalD P H B k (.apply g (b :: rest)) env3 w3 := by
  rw [evalD]
  simp only [evalStep, M.bind_ok hf, applyValue, M.bind_ok ha, M.define_bind, M.bind_ok hg]

example : (evalD Demo.plat Demo.host Demo.noB 801
    (.apply (.macro_ c!"x" (.macro_ c!"y" (.list [.symbol c!"x", .symbol c!"y"])))
      [.str c!"v", .str c!"u"]) Env.empty []).1 = .ok (.list [.str c!"v", .str c!"u"]) := rfl

/-- C26.  So a macro can assign the caller's variables: `(x ~> let y = x) 5` sets `y` (and `x`) in
the caller, where the function `x -> let y = x` would not (C22). -/
theorem C26_macro_assigns (k : Nat) (x y : Str) (s : Str) (env : Env) (w : W) :
    (evalD P H B (k + 3) (.apply (.macro_ x (.assign y (.symbol x))) [.str s]) env w) =
      (.ok .none, (env.define x (.str s)).define y (.str s), w) := by
  rw [C26_macro_in_caller (k := k + 2) (p := x) (body := .assign y (.symbol x)) (v := .str s)
    (env1 := env) (env2 := env) (w1 := w) (w2 := w) rfl rfl]
  rw [evalD]
  have : evalD P H B (k + 1) (.symbol x) (env.define x (.str s)) w =
      (.ok (.str s), env.define x (.str s), w) := by
    rw [evalD]
    simp only [evalStep, M.getEnv_bind, Env.get_define, if_true, M.pure_apply]
  simp only [evalStep, M.bind_ok this, M.define_bind, M.pure_apply]

example : (evalD Demo.plat Demo.host Demo.noB 801
    (.apply (.macro_ c!"x" (.assign c!"y" (.symbol c!"x"))) [.str c!"v"]) Env.empty []).2.1.get
    c!"y" = some (.str c!"v") := rfl

/-! ### C27 -/

/-- The function part of an application only matters through its value, apart from error payloads:
replacing it changes neither a successful result nor the state. -/
theorem applyValue_ok_irrel {ev : Expr → M W Expr} {f f' g : Expr} {args : List Expr}
    {env env' : Env} {w w' : W} {r : Expr}
    (h : applyValue P H B ev f args g env w = (.ok r, env', w')) :
    applyValue P H B ev f' args g env w = (.ok r, env', w') := by
  have name_case : ∀ name, applyName P H ev name (.apply f args) args env w = (.ok r, env', w') →
      applyName P H ev name (.apply f' args) args env w = (.ok r, env', w') := by
    intro name h
    simp only [applyName, M.getEnv_bind] at h ⊢
    obtain ⟨cs, env1, w1, h1, h2⟩ := M.bind_eq_ok h
    rw [M.bind_ok h1]
    simp only [runProgram, M.getEnv_bind, M.io_bind] at h2 ⊢
    generalize H.io _ w1 = q at h2 ⊢
    rcases q with ⟨q, w2⟩
    cases q with
    | err e => cases e <;> simp at h2
    | _ => exact h2
  cases g with
  | symbol n => exact name_case n h
  | str n => exact name_case n h
  | lambda p body bs ps =>
    match args with
    | [] => cases h
    | [a] => exact h
    | a :: b :: rest => exact h
  | macro_ p body =>
    match args with
    | [] => cases h
    | [a] => exact h
    | a :: b :: rest => exact h
  | builtin n i hh => exact h
  | _ => cases h

/-- The value `g` evaluates to itself in environment `env` (at every depth and world): plain data,
or a function that already captured all it mentions. -/
def SelfValued (P : Plat) (H : Host W) (B : BId → List Expr → M W Expr) (g : Expr) (env : Env) :
    Prop := ∀ k w, evalD P H B (k + 1) g env w = (.ok g, env, w)

/-- C27.  If `f a b ..` succeeds, the intermediate result of `f a` being self-valued in the
caller's scope, then `(f a) b ..` gives the same result with the same effects. -/
theorem C27_curry_of_multi {k : Nat} {f a b body v g r : Expr} {rest : List Expr} {p : Str}
    {bs : List (Str × Expr)} {ps : List (List (Str × Expr))}
    {env env1 env2 env3 env' : Env} {w w1 w2 w3 w' : W}
    (hf : evalD P H B k f env w = (.ok (.lambda p body bs ps), env1, w1))
    (ha : evalD P H B k a env1 w1 = (.ok v, env2, w2))
    (hb : evalD P H B k body (callEnv p ⟨bs, ps⟩ env1.getCwd v) w2 = (.ok g, env3, w3))
    (hg : SelfValued P H B g env2)
    (h : evalD P H B (k + 1) (.apply f (a :: b :: rest)) env w = (.ok r, env', w')) :
    evalD P H B (k + 2) (.apply (.apply f [a]) (b :: rest)) env w = (.ok r, env', w') := by
  have hfa : evalD P H B (k + 1) (.apply f [a]) env w = (.ok g, env2, w3) := by
    rw [evalD]
    simp only [evalStep, M.bind_ok hf, applyValue, M.getEnv_bind, M.bind_ok ha, M.within_apply, hb]
  rw [evalD] at h
  simp only [evalStep, M.bind_ok hf, applyValue, M.getEnv_bind, M.bind_ok ha] at h
  rw [M.bind_ok (show (M.within (evalD P H B k body) (callEnv p ⟨bs, ps⟩ env1.getCwd v)) env2 w2 =
    (.ok g, env2, w3) by rw [M.within_apply, hb])] at h
  rw [evalD]
  simp only [evalStep, M.bind_ok hfa]
  cases k with
  | zero => cases h
  | succ k =>
    rw [evalD] at h
    cases k with
    | zero => cases h
    | succ k =>
      simp only [evalStep, M.bind_ok (hg k w3)] at h
      have h' := applyValue_ok_irrel (f' := .apply f [a]) h
      rcases applyValue_sim (P := P) (H := H) (b := .depth)
        (evalD_depth_mono (P := P) (H := H) B (k := k + 1) (k' := k + 1 + 1 + 1) (by omega))
        (fun i a => M.Sim.refl _ (B i a)) (.apply f [a]) (b :: rest) g env2 w3 with hs | hs
      · rw [h'] at hs; obtain ⟨e, he⟩ := hs; cases he
      · rw [← hs]; exact h'

/-- C27, converse: if `(f a) b ..` succeeds then so does `f a b ..` with three levels of depth to
spare. -/
theorem C27_multi_of_curry {k : Nat} {f a b body v g r : Expr} {rest : List Expr} {p : Str}
    {bs : List (Str × Expr)} {ps : List (List (Str × Expr))}
    {env env1 env2 env3 env' : Env} {w w1 w2 w3 w' : W}
    (hf : evalD P H B k f env w = (.ok (.lambda p body bs ps), env1, w1))
    (ha : evalD P H B k a env1 w1 = (.ok v, env2, w2))
    (hb : evalD P H B k body (callEnv p ⟨bs, ps⟩ env1.getCwd v) w2 = (.ok g, env3, w3))
    (hg : SelfValued P H B g env2)
    (h : evalD P H B (k + 2) (.apply (.apply f [a]) (b :: rest)) env w = (.ok r, env', w')) :
    evalD P H B (k + 4) (.apply f (a :: b :: rest)) env w = (.ok r, env', w') := by
  have up : ∀ {e : Expr} {env env' : Env} {w w' : W} {v : Expr} (j : Nat),
      evalD P H B k e env w = (.ok v, env', w') →
      evalD P H B (k + j) e env w = (.ok v, env', w') := by
    intro e env env' w w' v j h
    rcases evalD_depth_mono (P := P) (H := H) B (k := k) (k' := k + j) (by omega) e env w
      with hs | hs
    · rw [h] at hs; obtain ⟨e, he⟩ := hs; cases he
    · rw [← hs]; exact h
  have hfa : evalD P H B (k + 1) (.apply f [a]) env w = (.ok g, env2, w3) := by
    rw [evalD]
    simp only [evalStep, M.bind_ok hf, applyValue, M.getEnv_bind, M.bind_ok ha, M.within_apply, hb]
  rw [evalD] at h
  simp only [evalStep, M.bind_ok hfa] at h
  rw [evalD]
  simp only [evalStep, M.bind_ok (up 3 hf), applyValue, M.getEnv_bind, M.bind_ok (up 3 ha)]
  rw [M.bind_ok (show (M.within (evalD P H B (k + 3) body) (callEnv p ⟨bs, ps⟩ env1.getCwd v)) env2
    w2 = (.ok g, env2, w3) by rw [M.within_apply, up 3 hb])]
  rw [evalD]
  simp only [evalStep, M.bind_ok (hg (k + 1) w3)]
  have h' := applyValue_ok_irrel (f' := g) h
  rcases applyValue_sim (P := P) (H := H) (b := .depth)
    (evalD_depth_mono (P := P) (H := H) B (k := k + 1) (k' := k + 1 + 1) (by omega))
    (fun i a => M.Sim.refl _ (B i a)) g (b :: rest) g env2 w3 with hs | hs
  · rw [h'] at hs; obtain ⟨e, he⟩ := hs; cases he
  · rw [← hs]; exact h'

/-- C27, the condition is needed: with `f = x -> 'h` and `h` bound to the constant function
`z -> 1`, `(f 0) 0` runs the external program `h`, while `f 0 0` looks `h` up again in the caller's
scope and returns 1. -/
theorem C27_unrestricted_false :
    ∃ (env : Env) (f a b : Expr),
      (evalD Demo.plat Demo.host Demo.noB 801 (.apply f [a, b]) env []).1 =
        .ok (.int (.lit 1)) ∧
      evalD Demo.plat Demo.host Demo.noB 801 (.apply (.apply f [a]) [b]) env [] =
        (.ok .none, env, [.status c!"h" c!"/" [c!"0"] [(c!"h", c!"z -> 1")]]) :=
  ⟨Env.empty.define c!"h" (.lambda c!"z" (.int (.lit 1)) [] []),
    .lambda c!"x" (.quote (.symbol c!"h")) [] [], .int (.lit 0), .int (.lit 0), rfl, rfl⟩

/-- A closed two-argument function meets the hypotheses of `C27_curry_of_multi`. -/
example : ∃ r, evalD Demo.plat Demo.host Demo.noB 801
    (.apply (.lambda c!"x" (.lambda c!"y" (.list [.symbol c!"x", .symbol c!"y"]) [] []) [] [])
      [.int (.lit 1), .int (.lit 2)]) Env.empty [] = (.ok r, Env.empty, []) := ⟨_, rfl⟩

/-! ### C28 -/

/-- The preorder of C28: every visible variable stays visible, enclosing scopes are equal. -/
def keepsVisible (W : Type) : Inv W where
  RE env env' := (∀ x, Visible env x → Visible env' x) ∧ env'.parents = env.parents
  RW _ _ := True
  reflE _ := ⟨fun _ h => h, rfl⟩
  transE h1 h2 := ⟨fun x h => h2.1 x (h1.1 x h), h2.2.trans h1.2⟩
  reflW _ := trivial
  transW _ _ := trivial

theorem keepsVisible_allows (H : Host W) : (keepsVisible W).Allows H where
  define env x v := by
    refine ⟨?_, rfl⟩
    rintro y ⟨u, hu⟩
    by_cases h : x = y
    · exact ⟨v, by simp [Env.get_define, h]⟩
    · exact ⟨u, by simp [Env.get_define, h, hu]⟩
  io _ _ := trivial

/-- C28.  With builtins that never unbind (`NoUndef`), whatever a program does and however it ends
(value, error, panic, exit), every variable visible before is visible after. -/
theorem C28_keeps_variables (bodies : BId → List Expr → BProg Expr)
    (hb : ∀ i a, (bodies i a).NoUndef) (n : Nat) (e : Expr) (env : Env) (w : W) (x : Str)
    (h : Visible env x) : Visible (evalN P H bodies n e env w).2.1 x :=
  (evalN_pres_noUndef (keepsVisible_allows H) bodies hb n e env w).1.1 x h

/-- C20.  With builtins that never unbind, after a loop over a non-empty list the loop variable is
still bound; its value is what the last iteration left (`C20_for_iff`). -/
theorem C20_variable_stays (bodies : BId → List Expr → BProg Expr)
    (hb : ∀ i a, (bodies i a).NoUndef) (n : Nat) (x : Str) (l body : Expr) (vs : List Expr)
    (env env' : Env) (w w' : W)
    (h : evalN P H bodies n (.for_ x l body) env w = (.ok (.list vs), env', w')) (hv : vs ≠ []) :
    Visible env' x := by
  have key : ∀ (B : BId → List Expr → M W Expr), (∀ i a, Pres (keepsVisible W) (B i a)) → ∀ k,
      evalD P H B (k + 1) (.for_ x l body) env w = (.ok (.list vs), env', w') → Visible env' x := by
    intro B hB k h
    have hp := evalD_pres (P := P) (keepsVisible_allows H) hB k body
    obtain ⟨items, vs', env1, w1, -, h2, h3⟩ := (C20_for_iff ..).mp h
    cases h2
    have step : ∀ a v s s1, iteration P H B k x body a s = (some v, s1) →
        Visible s1.1 x ∧ ∀ y, Visible s.1 y → Visible s1.1 y := by
      intro a v s s1 hs
      have hp := (hp (s.1.define x a) s.2).1.1
      have hd := ((keepsVisible_allows H).define s.1 x a).1
      unfold iteration at hs
      split at hs
      · rename_i he
        rw [he] at hp
        cases hs
        exact ⟨hp x ⟨a, by simp [Env.get_define]⟩, fun y hy => hp y (hd y hy)⟩
      · cases hs
    have mono : ∀ {items vs s s'}, Iterates (iteration P H B k x body) items vs s s' →
        ∀ y, Visible s.1 y → Visible s'.1 y := by
      intro items vs s s' h
      induction h with
      | nil => exact fun _ h => h
      | cons h1 _ ih => exact fun y hy => ih y ((step _ _ _ _ h1).2 y hy)
    cases h3 with
    | nil => exact absurd rfl hv
    | cons h1 h2 => exact mono h2 x (step _ _ _ _ h1).1
  cases n with
  | zero => exact key _ (fun _ _ => Pres.lift _) _ h
  | succ n =>
    exact key _ (fun i a => (hb i a).run_pres (keepsVisible_allows H)
      (evalN_pres_noUndef (keepsVisible_allows H) bodies hb n)) _ h

example := C20_variable_stays (P := Demo.plat) (H := Demo.host) (fun _ _ => .ret .none) (fun _ _ => .ret _) 3
  c!"x" (.list [.int (.lit 1), .int (.lit 2)]) (.assign c!"y" (.symbol c!"x")) [.none, .none] Env.empty _ [] [] rfl
  (by simp)

/-- The preorder "enclosing scopes are equal". -/
def keepsParents (W : Type) : Inv W where
  RE env env' := env'.parents = env.parents
  RW _ _ := True
  reflE _ := rfl
  transE h1 h2 := h2.trans h1
  reflW _ := trivial
  transW _ _ := trivial

/-- C28.  No program at all, with any builtins (including ones that unbind), changes an enclosing
scope. -/
theorem C28_keeps_enclosing (bodies : BId → List Expr → BProg Expr) (n : Nat) (e : Expr)
    (env : Env) (w : W) : (evalN P H bodies n e env w).2.1.parents = env.parents :=
  (evalN_pres (I := keepsParents W) ⟨fun _ _ _ => rfl, fun _ _ => trivial⟩ (fun _ _ => rfl)
    bodies n e env w).1

example : (∀ i a, (((fun _ _ => .ret .none) : BId → List Expr → BProg Expr) i a).NoUndef) ∧
    Visible (Env.empty.define c!"a" .none) c!"a" :=
  ⟨fun _ _ => .ret _, .none, rfl⟩

/-! ### C29 -/

/-- Run a history of operations. -/
def runOps (env : Env) : List EnvOp → Env
  | [] => env
  | .define x v :: ops => runOps (env.define x v) ops
  | .undefine x :: ops => runOps (env.undefine x) ops

/-- C29.  After any history, a lookup gives the value of the last operation on that name: the
defined value, or the enclosing scopes' value after a removal; without any operation on it the
lookup is unchanged. -/
theorem C29_last_write_wins (x : Str) : ∀ (ops : List EnvOp) (env : Env),
    (runOps env ops).get x =
      match lastWrite x ops with
      | some (some v) => some v
      | some Option.none => (Env.mk [] env.parents).get x
      | Option.none => env.get x
  | [], env => rfl
  | .define y v :: ops, env => by
    simp only [runOps, lastWrite]
    rw [C29_last_write_wins x ops]
    cases lastWrite x ops with
    | some r => cases r <;> rfl
    | none =>
      simp only [Env.get_define]
      by_cases h : y = x <;> simp [h]
  | .undefine y :: ops, env => by
    simp only [runOps, lastWrite]
    rw [C29_last_write_wins x ops]
    cases lastWrite x ops with
    | some r => cases r <;> rfl
    | none =>
      simp only [Env.get_undefine]
      by_cases h : y = x <;> simp [h, Env.get]

/-- C29.  The variables of a scope are always listed in ascending order without duplicates. -/
theorem C29_sorted : ∀ (ops : List EnvOp) (env : Env), BMap.Sorted env.bindings →
    BMap.Sorted (runOps env ops).bindings
  | [], _, h => h
  | .define y v :: ops, _, h => C29_sorted ops _ (h.insert y v)
  | .undefine y :: ops, _, h => C29_sorted ops _ (h.remove y)

/-- C29.  `is_defined` agrees with `get` at all times. -/
theorem C29_is_defined (env : Env) (x : Str) : env.isDefined x = true ↔ Visible env x := by
  rw [Env.isDefined_eq, Option.isSome_iff_exists]; rfl

example : (runOps Env.empty [.define c!"a" .none, .define c!"b" (.bool true), .undefine c!"a",
    .define c!"b" (.bool false)]).get c!"b" = some (.bool false) ∧
    lastWrite c!"a" [.define c!"a" .none, .define c!"b" (.bool true), .undefine c!"a"] =
      some Option.none := ⟨rfl, rfl⟩

/-! ### C30, C31 -/

theorem evalList_data {k : Nat} : ∀ (args : List Expr), (∀ a ∈ args, Data k a) →
    ∀ (env : Env) (w : W), evalList (evalD P H B k) args env w = (.ok args, env, w)
  | [], _, _, _ => rfl
  | a :: as, h, env, w => by
    simp only [evalList]
    rw [M.bind_ok (C17_data_inert (h a (by simp)) env w),
      M.bind_ok (evalList_data as (fun b hb => h b (by simp [hb])) env w)]
    rfl

/-- What the shell reports for the reaction of the operating system. -/
def commandOutcome (name : Str) (self_ : Expr) (args : List Expr) : IORes → Outcome Expr
  | .err .notFound => .err (.programNotFound name)
  | .err .permissionDenied => .err (.permissionDenied self_)
  | .err (.other _) => .err (.commandFailed name args)
  | _ => .ok .none

/-- C30, C31.  Applying a name that is not a variable, once all arguments evaluated to `vs`, makes
exactly one request to the outside: run that program, in the current directory, with the strings of
`vs` in order and the exported variables of the scope as it was before the arguments were
evaluated. -/
theorem C30_one_command {k : Nat} {name : Str} {args vs : List Expr} {env env' : Env} {w w' : W}
    (hn : env.get name = Option.none)
    (ha : evalList (evalD P H B (k + 1)) args env w = (.ok vs, env', w')) :
    evalD P H B (k + 2) (.apply (.symbol name) args) env w =
      let r := H.io (.status name env'.getCwd (argStrings P vs) (exported P env)) w'
      (commandOutcome name (.apply (.symbol name) args) args r.1, env', r.2) := by
  have hf : evalD P H B (k + 1) (.symbol name) env w = (.ok (.symbol name), env, w) := by
    rw [evalD]
    simp only [evalStep, M.getEnv_bind, hn, M.pure_apply]
  rw [evalD]
  simp only [evalStep, M.bind_ok hf, applyValue, applyName_apply, M.bind_ok ha, runProgram,
    M.getEnv_bind, M.io_bind]
  generalize H.io _ w' = q
  rcases q with ⟨q, w2⟩
  cases q with
  | err e => cases e <;> rfl
  | _ => rfl

/-- The directory commands run in: the text in the variable `CWD`; without such a text, the root. -/
inductive Directory (env : Env) : Str → Prop
  | set {d} : env.get c!"CWD" = some (.str d) → Directory env d
  | unset : (∀ d, env.get c!"CWD" ≠ some (.str d)) → Directory env c!"/"

theorem directory_iff {env : Env} {d : Str} : Directory env d ↔ env.getCwd = d := by
  unfold Env.getCwd cwdVar
  constructor
  · rintro (h | h)
    · rw [h]
    · split
      · exact absurd ‹_› (h _)
      · rfl
  · rintro rfl
    split
    · exact .set ‹_›
    · exact .unset ‹_›

/-- C30.  The one request names the directory in `CWD` as the arguments left it, or the root. -/
theorem C30_directory {k : Nat} {name d : Str} {args vs : List Expr} {env env' : Env} {w w' : W}
    (hn : env.get name = Option.none) (hd : Directory env' d)
    (ha : evalList (evalD P H B (k + 1)) args env w = (.ok vs, env', w')) :
    (evalD P H B (k + 2) (.apply (.symbol name) args) env w).2 =
      (env', (H.io (.status name d (argStrings P vs) (exported P env)) w').2) := by
  rw [C30_one_command hn ha, directory_iff.1 hd]

/-- C30.  If an argument does not produce a value the program is not run: the world is the one that
argument left. -/
theorem C30_no_command_on_error {k : Nat} {name : Str} {good rest vs : List Expr} {bad : Expr}
    {env env1 env2 : Env} {w w1 w2 : W} {o : Outcome Expr}
    (hn : env.get name = Option.none)
    (hgood : evalList (evalD P H B (k + 1)) good env w = (.ok vs, env1, w1))
    (hbad : evalD P H B (k + 1) bad env1 w1 = (o, env2, w2)) (ho : ¬ IsValue o) :
    evalD P H B (k + 2) (.apply (.symbol name) (good ++ bad :: rest)) env w = (o, env2, w2) := by
  have hf : evalD P H B (k + 1) (.symbol name) env w = (.ok (.symbol name), env, w) := by
    rw [evalD]
    simp only [evalStep, M.getEnv_bind, hn, M.pure_apply]
  have hl : ∀ (good : List Expr) (vs : List Expr) (env : Env) (w : W),
      evalList (evalD P H B (k + 1)) good env w = (.ok vs, env1, w1) →
      evalList (evalD P H B (k + 1)) (good ++ bad :: rest) env w = (o.cast, env2, w2) := by
    intro good
    induction good with
    | nil =>
      intro vs env w h
      cases h
      exact bind_stop hbad ho
    | cons a as ih =>
      intro vs env w h
      simp only [evalList] at h
      obtain ⟨v, e1, u1, h1, h2⟩ := M.bind_eq_ok h
      obtain ⟨vs', e2, u2, h3, h4⟩ := M.bind_eq_ok h2
      cases h4
      simp only [List.cons_append, evalList]
      rw [M.bind_ok h1, M.bind_def, ih vs' e1 u1 h3]
      cases o with
      | ok a => exact absurd trivial ho
      | _ => rfl
  rw [evalD]
  simp only [evalStep, M.bind_ok hf, applyValue, applyName_apply]
  exact bind_cast (hl good vs env w hgood) ho

theorem leaves_flatten {e : Expr} {ls : List Expr} (h : Leaves e ls) : Expr.flattenOne e = ls := by
  induction h with
  | nil => rfl
  | @cons e l ls ms _ _ ih1 ih2 =>
    simp only [Expr.flattenOne, Expr.flatten] at ih2 ⊢
    rw [ih1, ih2]
  | group _ ih => simpa [Expr.flattenOne] using ih
  | @atom e hl hg =>
    cases e with
    | list l => exact absurd rfl (hl l)
    | group g => exact absurd rfl (hg g)
    | _ => simp [Expr.flattenOne]

theorem leaves_exist : ∀ n (e : Expr), sizeOf e < n → ∃ ls, Leaves e ls
  | 0, _, h => absurd h (by omega)
  | n + 1, e, h => by
    cases e with
    | list l =>
      have : ∀ l : List Expr, sizeOf l < n → ∃ ls, Leaves (.list l) ls := by
        intro l
        induction l with
        | nil => exact fun _ => ⟨_, .nil⟩
        | cons a as ih =>
          intro hs
          simp only [List.cons.sizeOf_spec] at hs
          obtain ⟨ls, h1⟩ := leaves_exist n a (by omega)
          obtain ⟨ms, h2⟩ := ih (by omega)
          exact ⟨_, .cons h1 h2⟩
      simp only [Expr.list.sizeOf_spec] at h
      exact this l (by omega)
    | group g =>
      simp only [Expr.group.sizeOf_spec] at h
      obtain ⟨ls, h1⟩ := leaves_exist n g (by omega)
      exact ⟨_, .group h1⟩
    | _ => exact ⟨_, .atom (by intro l h; cases h) (by intro g h; cases h)⟩

/-- The string a leaf contributes; `None` contributes nothing. -/
def leafString (P : Plat) : Expr → List Str
  | .none => []
  | .str s => [s]
  | .bytes b => [P.utf8Lossy b]
  | e => [display P e]

/-- C30.  The strings passed for one argument value are those of its leaves, each exactly once and
in order (every value has leaves). -/
theorem C30_argument_strings (v : Expr) :
    ∃ ls, Leaves v ls ∧ argStrings P [v] = ls.flatMap (leafString P) := by
  obtain ⟨ls, h⟩ := leaves_exist _ v (Nat.lt_succ_self _)
  refine ⟨ls, h, ?_⟩
  simp only [argStrings, List.flatMap_cons, List.flatMap_nil, List.append_nil, Expr.flatten,
    leaves_flatten h]
  clear h
  induction ls with
  | nil => rfl
  | cons e ls ih =>
    cases e <;> simp [leafString, ih]

/-- C30.  Several arguments: the strings of the first, then of the second, and so on. -/
theorem C30_argument_order (v : Expr) (vs : List Expr) :
    argStrings P (v :: vs) = argStrings P [v] ++ argStrings P vs := by
  simp [argStrings]

/-- C31.  A variable is exported, with its rendering, exactly when it belongs to the innermost
scope and its rendering has at most 1024 bytes. -/
theorem C31_exported_iff (env : Env) (x s : Str) :
    (x, s) ∈ exported P env ↔
      ∃ v, (x, v) ∈ env.bindings ∧ s = display P v ∧ utf8Len s ≤ 1024 := by
  simp only [exported, List.mem_filter, List.mem_map, decide_eq_true_eq]
  constructor
  · rintro ⟨⟨⟨y, v⟩, hm, he⟩, hl⟩
    cases he
    exact ⟨v, hm, rfl, hl⟩
  · rintro ⟨v, hm, rfl, hl⟩
    exact ⟨⟨(x, v), hm, rfl⟩, hl⟩

/-- C31.  Nothing from an enclosing scope is exported. -/
theorem C31_no_enclosing (env : Env) (ps : List (BMap Expr)) :
    exported P env = exported P ⟨env.bindings, ps⟩ := rfl

example : evalD Demo.plat Demo.host Demo.noB 801
    (.apply (.symbol c!"ls") [.str c!"-l", .none, .list [.int (.lit 1), .group (.str c!"x")]])
    (Env.empty.define c!"HOME" (.str c!"/h")) [] =
    (.ok .none, Env.empty.define c!"HOME" (.str c!"/h"),
      [.status c!"ls" c!"/" [c!"-l", c!"1", c!"x"] [(c!"HOME", c!"/h")]]) := rfl

end

/-! ### Instances: the hypotheses can be met -/

example := C19_if_true (P := Demo.plat) (H := Demo.host) (B := Demo.noB) (k := 5) (c := .str c!"yes")
  (t := .int (.lit 1)) (env := Env.empty) (w := []) rfl (by decide) (.symbol c!"x")

example := C19_if_false (P := Demo.plat) (H := Demo.host) (B := Demo.noB) (k := 5) (c := .str [])
  (e := .int (.lit 1)) (env := Env.empty) (w := []) rfl (by decide) (.symbol c!"x")

example := C19_if_stop (P := Demo.plat) (H := Demo.host) (B := Demo.noB) (k := 5) (c := .apply (.int (.lit 1)) [])
  (env := Env.empty) (w := []) rfl (by simp [IsValue]) (.symbol c!"x") .none

example := C20_for_length (P := Demo.plat) (H := Demo.host) (B := Demo.noB) 5 c!"x"
  (.list [.int (.lit 1), .int (.lit 2)]) (.list [.symbol c!"x"]) [.list [.int (.lit 1)], .list [.int (.lit 2)]]
  Env.empty _ [] [] rfl

example := C20_for_first_error (P := Demo.plat) (H := Demo.host) (B := Demo.noB) 5 c!"x"
  (.list [.int (.lit 1), .int (.lit 2)]) (.apply (.symbol c!"x") []) (.int (.lit 1)) [] [.int (.lit 2)] []
  _ Env.empty Env.empty Env.empty _ [] [] [] [] rfl (.nil _) rfl (by simp [IsValue])

example := C21_block_ok (P := Demo.plat) (H := Demo.host) (B := Demo.noB) 5 [.assign c!"x" (.int (.lit 1))]
  [.symbol c!"x"] (by simp) (by simp) Env.empty _ [] [] _ rfl

example := C25_no_self_reference (P := Demo.plat) (H := Demo.host) (B := Demo.noB) 5 c!"f" c!"x"
  (.apply (.symbol c!"f") [.symbol c!"x"]) Env.empty [] rfl (by decide) (by decide)

example := C26_macro_in_caller (P := Demo.plat) (H := Demo.host) (B := Demo.noB) (k := 5)
  (f := .macro_ c!"x" (.assign c!"y" (.symbol c!"x"))) (a := .int (.lit 7)) (env := Env.empty) (w := []) rfl rfl

example := C30_one_command (P := Demo.plat) (H := Demo.host) (B := Demo.noB) (k := 5) (name := c!"ls")
  (args := [.str c!"-l", .list [.int (.lit 1)]]) (env := Env.empty) (w := []) rfl rfl

example := C30_no_command_on_error (P := Demo.plat) (H := Demo.host) (B := Demo.noB) (k := 5) (name := c!"ls")
  (good := [.str c!"-l"]) (bad := .apply (.int (.lit 1)) []) (rest := [.none]) (env := Env.empty) (w := []) rfl rfl
  rfl (by simp [IsValue])

example := C27_curry_of_multi (P := Demo.plat) (H := Demo.host) (B := Demo.noB) (k := 5)
  (f := .lambda c!"x" (.lambda c!"y" (.list [.symbol c!"y"]) [] []) [] []) (a := .int (.lit 1))
  (b := .int (.lit 2)) (rest := []) (env := Env.empty) (w := []) rfl rfl rfl (fun _ _ => rfl) rfl

example := C27_multi_of_curry (P := Demo.plat) (H := Demo.host) (B := Demo.noB) (k := 5)
  (f := .lambda c!"x" (.lambda c!"y" (.list [.symbol c!"y"]) [] []) [] []) (a := .int (.lit 1))
  (b := .int (.lit 2)) (rest := []) (env := Env.empty) (w := []) rfl rfl rfl (fun _ _ => rfl) rfl

example := C28_keeps_variables (P := Demo.plat) (H := Demo.host) (fun _ _ => .ret .none) (fun _ _ => .ret _) 3
  (.for_ c!"x" (.list [.int (.lit 1)]) (.assign c!"y" .none)) (Env.empty.define c!"z" .none) [] c!"z" ⟨_, rfl⟩

example := C29_sorted [.define c!"b" .none, .undefine c!"a"] (Env.empty.define c!"a" .none)
  (List.pairwise_singleton ..)

example := C30_directory (P := Demo.plat) (H := Demo.host) (B := Demo.noB) (k := 5) (name := c!"ls") (d := c!"/home")
  (args := [.str c!"-l"]) (env := Env.empty.define c!"CWD" (.str c!"/home")) (w := []) rfl (.set rfl) rfl

end Dune.Props
