import Verif.Props.Startup
import Verif.Props.Lists
import Verif.Props.Sections

/-!
C44 for `fn@map`, `fn@filter` and `fn@reduce` with arguments missing: they give a function that waits
for the rest.  These functions are scripts, parsed at run time.
-/

namespace Dune.Props

open Spec

section

variable {W : Type} {P : Plat} {H : Host W} {L : Lib} {n : Nat}

/-! ### Helper lemmas -/

theorem evalD_do1 {B : BId → List Expr → M W Expr} {k : Nat} {e : Expr} {env : Env} {w : W} :
    evalD P H B (k + 1) (.do_ [e]) env w = evalD P H B k e env w := by
  rw [evalD]
  rfl

theorem evalD_for {B : BId → List Expr → M W Expr} {k : Nat} {x : Str} {e body : Expr}
    {l vs : List Expr} {env env1 env2 : Env} {w w1 w2 : W}
    (he : evalD P H B k e env w = (.ok (.list l), env1, w1))
    (hl : forLoop (evalD P H B k) x body l env1 w1 = (.ok vs, env2, w2)) :
    evalD P H B (k + 1) (.for_ x e body) env w = (.ok (.list vs), env2, w2) := by
  rw [evalD]
  simp only [evalStep]
  rw [M.bind_ok he]
  dsimp only
  rw [M.bind_ok hl]
  rfl

/-- a literal function applied to one argument -/
theorem eval_script {m : Nat} {p : Str} {body a v : Expr} {env env1 : Env} {w w1 : W}
    (ha : evalD P H (bodyRun P H (stdB P L) m) 800 a env w = (.ok v, env1, w1)) :
    evalN P H (stdB P L) (m + 1) (.apply (.do_ [.lambda p body [] []]) [a]) env w =
      ((evalD P H (bodyRun P H (stdB P L) m) 800 body
          (callEnv p ⟨(closeLambda env p body ⟨[], []⟩).bindings,
            (closeLambda env p body ⟨[], []⟩).parents⟩ env.getCwd v) w1).1, env1,
        (evalD P H (bodyRun P H (stdB P L) m) 800 body
          (callEnv p ⟨(closeLambda env p body ⟨[], []⟩).bindings,
            (closeLambda env p body ⟨[], []⟩).parents⟩ env.getCwd v) w1).2.2) := by
  have h : evalD P H (bodyRun P H (stdB P L) m) 800 (.do_ [.lambda p body [] []]) env w =
      (.ok (closure env p body), env, w) := by
    rw [evalD_do1]
    rfl
  rw [evalN]
  exact evalD_call1 h ha

/-- the scope of the body of a function made by `eval_script` -/
def scriptScope (env : Env) (p : Str) (body : Expr) (cwd : Str) (v : Expr) : Env :=
  callEnv p ⟨(closeLambda env p body ⟨[], []⟩).bindings,
    (closeLambda env p body ⟨[], []⟩).parents⟩ cwd v

theorem scriptScope_param {env : Env} {p : Str} {body : Expr} {cwd : Str} {v : Expr} :
    (scriptScope env p body cwd v).get p = some v := by
  rw [scriptScope, callEnv, Env.get_define, if_pos rfl]

theorem scriptScope_get {env : Env} {p x : Str} {body : Expr} {cwd : Str} {v u : Expr}
    (hx : x ∈ body.usedSymbols) (h1 : x ≠ p) (h2 : x ≠ c!"CWD") (h : env.get x = some u) :
    (scriptScope env p body cwd v).get x = some u := by
  rw [scriptScope, callEnv_get hx h1 h2 (by rw [h]; rfl), h]

theorem getCwd_define {env : Env} {x : Str} {v : Expr} (hx : x ≠ c!"CWD") :
    (env.define x v).getCwd = env.getCwd := by
  have h : ¬ x = cwdVar := hx
  simp only [Env.getCwd, Env.get_define, if_neg h]

theorem scriptScope_cwd {env : Env} {p : Str} {body : Expr} {cwd : Str} {v : Expr}
    (hp : p ≠ c!"CWD") : (scriptScope env p body cwd v).getCwd = cwd := by
  rw [scriptScope, callEnv, getCwd_define hp]
  simp only [Env.getCwd, Env.setCwd, Env.get_define, if_true]

/-- a library function that runs a script -/
theorem evalD_lib {k : Nat} {m f nm hlp : Str} {id : BId} {args : List Expr} {tbl : List (Str × Expr)}
    {env : Env} {w : W} (hs : Std env)
    (hm : (m, tbl) ∈ Init.modules) (hf : (f, .builtin nm id hlp) ∈ tbl) :
    evalD P H (bodyRun P H (stdB P L) n) (k + 4) (.group (call m f args)) env w =
      (stdB P L id args).run H (evalN P H (stdB P L) n) env w := by
  rw [evalD_paren, call, evalD]
  simp only [evalStep]
  rw [M.bind_ok (evalD_mem (k := k) hs hm hf)]
  rfl

/-! ### Calls in turn -/

/-- `call v w r w'` for each of the values in turn. -/
inductive CallsEach (call : Expr → W → Expr → W → Prop) : List Expr → List Expr → W → W → Prop
  | nil (w) : CallsEach call [] [] w w
  | cons {v l r rs w w1 w2} : call v w r w1 → CallsEach call l rs w1 w2 →
      CallsEach call (v :: l) (r :: rs) w w2

/-- `f`, called with `v` in the directory `cwd`, gives `r`; the caller's variables are untouched. -/
def Called (P : Plat) (H : Host W) (L : Lib) (n k : Nat) (cwd : Str) (f : Expr) (v : Expr) (w : W)
    (r : Expr) (w' : W) : Prop :=
  ∀ scope : Env, scope.getCwd = cwd →
    evalD P H (bodyRun P H (stdB P L) n) k (.apply (.quote f) [.quote v]) scope w = (.ok r, scope, w')

/-- calling a function by name with a variable -/
theorem Called.by_name {k : Nat} {cwd p f x : Str} {body v r : Expr} {bs : List (Str × Expr)}
    {ps : List (List (Str × Expr))} {w w' : W}
    (h : Called P H L n (k + 2) cwd (.lambda p body bs ps) v w r w') {scope : Env}
    (hc : scope.getCwd = cwd) (hf : scope.get f = some (.lambda p body bs ps))
    (hx : scope.get x = some v) :
    evalD P H (bodyRun P H (stdB P L) n) (k + 2) (.apply (.symbol f) [.symbol x]) scope w =
      (.ok r, scope, w') := by
  have h1 := h scope hc
  rw [evalD_call1 (body := body) (p := p) (bs := bs) (ps := ps) (env0 := scope) (env1 := scope)
    (w0 := w) (w1 := w) (v := v) rfl rfl] at h1
  rw [evalD_call1 (evalD_symbol hf) (evalD_symbol hx)]
  exact h1

theorem map_loop {k : Nat} {cwd p : Str} {body : Expr} {bs : List (Str × Expr)}
    {ps : List (List (Str × Expr))} {l vs : List Expr} {w w' : W}
    (h : CallsEach (Called P H L n (k + 2) cwd (.lambda p body bs ps)) l vs w w') :
    ∀ {scope : Env}, scope.getCwd = cwd → scope.get c!"f" = some (.lambda p body bs ps) →
    ∃ scope', forLoop (evalD P H (bodyRun P H (stdB P L) n) (k + 3)) c!"item"
      (.do_ [.apply (.symbol c!"f") [.symbol c!"item"]]) l scope w = (.ok vs, scope', w') := by
  induction h with
  | nil w => exact fun _ _ => ⟨_, rfl⟩
  | @cons v l r rs w w1 w2 h _ ih =>
    intro scope hc hf
    have hc' := (getCwd_define (env := scope) (x := c!"item") (v := v) (by decide)).trans hc
    have hf' : (scope.define c!"item" v).get c!"f" = some (.lambda p body bs ps) := by
      rw [Env.get_define, if_neg (by decide)]; exact hf
    have h1 := h.by_name (f := c!"f") (x := c!"item") hc' hf'
      (by rw [Env.get_define, if_pos rfl])
    obtain ⟨scope', h2⟩ := ih hc' hf'
    refine ⟨scope', ?_⟩
    simp only [forLoop]
    rw [M.bind_ok (a := ()) (env' := scope.define c!"item" v) (w' := w) rfl,
      M.bind_ok (evalD_do1.trans h1), M.bind_ok h2]
    rfl

/-- body of the function that `fn@map f` gives -/
def mapRest : Expr :=
  .for_ c!"item" (.symbol c!"list") (.do_ [.apply (.symbol c!"f") [.symbol c!"item"]])

/-- C44.  `(fn@map f) x`, for a user's function: `f` is evaluated and then `x`, the function is called
with each element in turn, and the results are listed.  The caller's variables are not touched by the
calls, whatever they are named. -/
theorem C44_map_waits {fe x body : Expr} {p : Str} {bs : List (Str × Expr)}
    {ps : List (List (Str × Expr))} {l vs : List Expr} {env env1 env2 : Env} {w w1 w2 w3 : W}
    (hs : Std env)
    (hf : evalD P H (bodyRun P H (stdB P L) n) 800 fe env w = (.ok (.lambda p body bs ps), env1, w1))
    (hx : evalD P H (bodyRun P H (stdB P L) (n + 1)) 800 x env1 w1 = (.ok (.list l), env2, w2))
    (h : CallsEach (Called P H L (n + 1) 798 env1.getCwd (.lambda p body bs ps)) l vs w2 w3) :
    evalN P H (stdB P L) (n + 2) (.apply (.group (call c!"fn" c!"map" [fe])) [x]) env w =
      (.ok (.list vs), env2, w3) := by
  have h1 : evalD P H (bodyRun P H (stdB P L) (n + 1)) 800 (.group (call c!"fn" c!"map" [fe])) env w =
      (.ok (closure (scriptScope env c!"f" (.lambda c!"list" mapRest [] []) env.getCwd
        (.lambda p body bs ps)) c!"list" mapRest), env1, w1) := by
    rw [evalD_lib (k := 796) (m := c!"fn") (f := c!"map") (tbl := Init.fnM) hs (by mem_tac) (by mem_tac)]
    brun [Builtins.mapB, Builtins.countCheck]
    exact (eval_script hf).trans rfl
  have h2 := evalD_call1 h1 hx
  obtain ⟨scope', h3⟩ := map_loop h (k := 796)
    (scope := scriptScope (scriptScope env c!"f" (.lambda c!"list" mapRest [] []) env.getCwd
      (.lambda p body bs ps)) c!"list" mapRest env1.getCwd (.list l))
    (scriptScope_cwd (by decide))
    (scriptScope_get (by decide) (by decide) (by decide) scriptScope_param)
  have h4 : evalD P H (bodyRun P H (stdB P L) (n + 1)) 800 mapRest
      (scriptScope (scriptScope env c!"f" (.lambda c!"list" mapRest [] []) env.getCwd
        (.lambda p body bs ps)) c!"list" mapRest env1.getCwd (.list l)) w2 =
      (.ok (.list vs), scope', w3) := by
    exact evalD_for (evalD_symbol scriptScope_param) h3
  rw [evalN]
  refine h2.trans ?_
  rw [← scriptScope, h4]

/-! ### Filter -/

/-- body of the loop of the function that `fn@filter f` gives -/
def filterStep : Expr :=
  .ite (.group (.apply (.symbol c!"f") [.symbol c!"item"]))
    (.do_ [.assign c!"result"
      (.group (.apply (.symbol c!"+") [.symbol c!"result", .list [.symbol c!"item"]]))])
    .none

/-- body of the function that `fn@filter f` gives -/
def filterRest : Expr :=
  .do_ [.assign c!"result" (.list []),
    .for_ c!"item" (.symbol c!"list") (.do_ [filterStep]),
    .symbol c!"result"]

/-- the scope of the loop -/
structure FilterScope (cwd : Str) (f : Expr) (acc : List Expr) (scope : Env) : Prop where
  cwd : scope.getCwd = cwd
  f : scope.get c!"f" = some f
  add : scope.get c!"+" = some (.builtin c!"+" .add [])
  result : scope.get c!"result" = some (.list acc)

theorem FilterScope.item {cwd : Str} {f : Expr} {acc : List Expr} {scope : Env}
    (h : FilterScope cwd f acc scope) (v : Expr) : FilterScope cwd f acc (scope.define c!"item" v) := by
  constructor
  · rw [getCwd_define (by decide), h.cwd]
  all_goals rw [Env.get_define, if_neg (by decide)]
  · exact h.f
  · exact h.add
  · exact h.result

theorem FilterScope.push {cwd : Str} {f : Expr} {acc acc' : List Expr} {scope : Env}
    (h : FilterScope cwd f acc scope) :
    FilterScope cwd f acc' (scope.define c!"result" (.list acc')) := by
  constructor
  · rw [getCwd_define (by decide), h.cwd]
  all_goals rw [Env.get_define]
  · rw [if_neg (by decide), h.f]
  · rw [if_neg (by decide), h.add]
  · rw [if_pos rfl]

theorem append_item {k : Nat} {scope : Env} {acc : List Expr} {v : Expr} {w : W}
    (ho : scope.get c!"+" = some (.builtin c!"+" .add []))
    (hr : scope.get c!"result" = some (.list acc)) (hv : scope.get c!"item" = some v)
    (hd : ∀ u ∈ acc, Data 800 u) :
    evalD P H (bodyRun P H (stdB P L) (n + 1)) (k + 2)
      (.apply (.symbol c!"+") [.symbol c!"result", .list [.symbol c!"item"]]) scope w =
      (.ok (.list (acc ++ [v])), scope, w) := by
  rw [evalD]
  simp only [evalStep]
  rw [M.bind_ok (evalD_symbol ho)]
  simp only [applyValue, bodyRun, stdB, Builtins.addB, Builtins.evArg, Builtins.arg,
    List.getElem?_cons_zero, BProg.run_bind, BProg.run_ret, pure_bind, BProg.run_ev, List.tail_cons]
  have h1 : evalN P H (stdB P L) (n + 1) (.list [.symbol c!"item"]) scope w =
      (.ok (.list [v]), scope, w) := by
    have hi : evalD P H (bodyRun P H (stdB P L) n) 800 (.symbol c!"item") scope w =
        (.ok v, scope, w) := evalD_symbol hv
    rw [evalN]
    change evalD P H (bodyRun P H (stdB P L) n) 801 _ _ _ = _
    rw [evalD]
    simp only [evalStep]
    rw [M.bind_ok (a := [v]) (env' := scope) (w' := w)]
    · rfl
    · simp only [evalList]
      rw [M.bind_ok hi]
      rfl
  rw [M.bind_ok (evalN_sym hr), opLoop_two (evalN_data (.list hd) _ _) h1]
  rfl

theorem filter_loop {k : Nat} {cwd p : Str} {body : Expr} {bs : List (Str × Expr)}
    {ps : List (List (Str × Expr))} {l vs : List Expr} {w w' : W}
    (h : CallsEach (Called P H L (n + 1) (k + 4) cwd (.lambda p body bs ps)) l vs w w') :
    ∀ {scope : Env} {acc : List Expr}, FilterScope cwd (.lambda p body bs ps) acc scope →
    (∀ v ∈ acc ++ l, Data 800 v) →
    ∃ rs scope', forLoop (evalD P H (bodyRun P H (stdB P L) (n + 1)) (k + 7)) c!"item"
      (.do_ [filterStep]) l scope w = (.ok rs, scope', w') ∧
      scope'.get c!"result" =
        some (.list (acc ++ ((l.zip vs).filter fun p => Truthy p.2).map (·.1))) := by
  induction h with
  | nil w => exact fun hi _ => ⟨_, _, rfl, by simpa using hi.result⟩
  | @cons v l r rs w w1 w2 h _ ih =>
    intro scope acc hi hd
    have hi' := hi.item v
    have h1 := h.by_name (f := c!"f") (x := c!"item") hi'.cwd hi'.f
      (by rw [Env.get_define, if_pos rfl])
    have hstep : ∃ r' scope1, evalD P H (bodyRun P H (stdB P L) (n + 1)) (k + 7) (.do_ [filterStep])
        (scope.define c!"item" v) w = (.ok r', scope1, w1) ∧
        FilterScope cwd (.lambda p body bs ps) (if Truthy r then acc ++ [v] else acc) scope1 := by
      by_cases ht : Truthy r
      · refine ⟨.none, (scope.define c!"item" v).define c!"result" (.list (acc ++ [v])), ?_, ?_⟩
        · rw [evalD_do1, filterStep, evalD]
          simp only [evalStep]
          rw [M.bind_ok (evalD_paren.trans h1), if_pos ((isTruthy_iff _).2 ht), evalD_do1, evalD]
          simp only [evalStep]
          rw [M.bind_ok (evalD_paren.trans (append_item hi'.add hi'.result
            (by rw [Env.get_define, if_pos rfl]) (fun u hu => hd u (by simp [hu]))))]
          rfl
        · rw [if_pos ht]
          exact hi'.push
      · refine ⟨.none, scope.define c!"item" v, ?_, ?_⟩
        · rw [evalD_do1, filterStep, evalD]
          simp only [evalStep]
          rw [M.bind_ok (evalD_paren.trans h1), if_neg (fun h => ht ((isTruthy_iff _).1 h))]
          rfl
        · rw [if_neg ht]
          exact hi'
    obtain ⟨r', scope1, h2, h3⟩ := hstep
    obtain ⟨rs', scope', h4, h5⟩ := ih h3 (by
      intro u hu
      apply hd u
      split at hu <;> simp at hu ⊢ <;> tauto)
    refine ⟨r' :: rs', scope', ?_, ?_⟩
    · simp only [forLoop]
      rw [M.bind_ok (a := ()) (env' := scope.define c!"item" v) (w' := w) rfl, M.bind_ok h2, M.bind_ok h4]
      rfl
    · rw [h5]
      by_cases ht : Truthy r <;> simp [ht]

/-- C44.  `(fn@filter f) x`, for a user's function and a list of data: the elements for which the
function, called with each in turn, gives a truthy value, in their order. -/
theorem C44_filter_waits {fe x body : Expr} {p : Str} {bs : List (Str × Expr)}
    {ps : List (List (Str × Expr))} {l vs : List Expr} {env env1 env2 : Env} {w w1 w2 w3 : W}
    (hs : Std env)
    (hf : evalD P H (bodyRun P H (stdB P L) n) 800 fe env w = (.ok (.lambda p body bs ps), env1, w1))
    (hx : evalD P H (bodyRun P H (stdB P L) (n + 1)) 800 x env1 w1 = (.ok (.list l), env2, w2))
    (hd : ∀ v ∈ l, Data 800 v)
    (h : CallsEach (Called P H L (n + 1) 795 env1.getCwd (.lambda p body bs ps)) l vs w2 w3) :
    evalN P H (stdB P L) (n + 2) (.apply (.group (call c!"fn" c!"filter" [fe])) [x]) env w =
      (.ok (.list (((l.zip vs).filter fun p => Truthy p.2).map (·.1))), env2, w3) := by
  have h1 : evalD P H (bodyRun P H (stdB P L) (n + 1)) 800 (.group (call c!"fn" c!"filter" [fe])) env
      w = (.ok (closure (scriptScope env c!"f" (.lambda c!"list" filterRest [] []) env.getCwd
        (.lambda p body bs ps)) c!"list" filterRest), env1, w1) := by
    rw [evalD_lib (k := 796) (m := c!"fn") (f := c!"filter") (tbl := Init.fnM) hs (by mem_tac)
      (by mem_tac)]
    brun [Builtins.filterB, Builtins.countCheck]
    exact (eval_script hf).trans rfl
  have h2 := evalD_call1 h1 hx
  generalize hsc : scriptScope (scriptScope env c!"f" (.lambda c!"list" filterRest [] []) env.getCwd
      (.lambda p body bs ps)) c!"list" filterRest env1.getCwd (.list l) = scope
  have hop : env.get c!"+" = some (.builtin c!"+" .add []) := hs.op (Init.b c!"+" .add) (by mem_tac)
  have hcwd : scope.getCwd = env1.getCwd := by rw [← hsc]; exact scriptScope_cwd (by decide)
  have hfn : scope.get c!"f" = some (.lambda p body bs ps) := by
    rw [← hsc]; exact scriptScope_get (by decide) (by decide) (by decide) scriptScope_param
  have hadd : scope.get c!"+" = some (.builtin c!"+" .add []) := by
    rw [← hsc]
    exact scriptScope_get (by decide) (by decide) (by decide)
      (scriptScope_get (by decide) (by decide) (by decide) hop)
  have hlist : scope.get c!"list" = some (.list l) := by rw [← hsc]; exact scriptScope_param
  have hi : FilterScope env1.getCwd (.lambda p body bs ps) [] (scope.define c!"result" (.list [])) := by
    constructor
    · rw [getCwd_define (by decide), hcwd]
    all_goals rw [Env.get_define]
    · rw [if_neg (by decide), hfn]
    · rw [if_neg (by decide), hadd]
    · rw [if_pos rfl]
  obtain ⟨rs, scope', h3, h4⟩ := filter_loop (k := 791) h hi (by simpa using hd)
  have h5 : evalD P H (bodyRun P H (stdB P L) (n + 1)) 800 filterRest scope w2 =
      (.ok (.list (((l.zip vs).filter fun p => Truthy p.2).map (·.1))), scope', w3) := by
    have hl : (scope.define c!"result" (.list [])).get c!"list" = some (.list l) := by
      rw [Env.get_define, if_neg (by decide), hlist]
    have a1 : evalD P H (bodyRun P H (stdB P L) (n + 1)) 799 (.assign c!"result" (.list [])) scope w2 =
        (.ok .none, scope.define c!"result" (.list []), w2) := rfl
    rw [filterRest, evalD]
    simp only [evalStep, evalDo]
    rw [M.bind_ok a1, M.bind_ok (evalD_for (evalD_symbol hl) h3)]
    exact (evalD_symbol h4).trans (by simp)
  rw [evalN]
  refine h2.trans ?_
  rw [← scriptScope, hsc, h5]

/-! ### Reduce -/

/-- `call acc v w r w'` for each of the values in turn, starting from `acc`. -/
inductive Folds (call : Expr → Expr → W → Expr → W → Prop) : Expr → List Expr → W → Expr → W → Prop
  | nil (a w) : Folds call a [] w a w
  | cons {a v l r z w w1 w2} : call a v w r w1 → Folds call r l w1 z w2 →
      Folds call a (v :: l) w z w2

/-- `f`, called with `a` and `v` in the directory `cwd`, gives `r`; the caller's variables are
untouched. -/
def Called2 (P : Plat) (H : Host W) (L : Lib) (n k : Nat) (cwd : Str) (f : Expr) (a v : Expr) (w : W)
    (r : Expr) (w' : W) : Prop :=
  ∀ scope : Env, scope.getCwd = cwd →
    evalD P H (bodyRun P H (stdB P L) n) k (.apply (.quote f) [.quote a, .quote v]) scope w =
      (.ok r, scope, w')

theorem Called2.by_name {k : Nat} {cwd p q f x y : Str} {body a v r : Expr} {bs : List (Str × Expr)}
    {ps : List (List (Str × Expr))} {w w' : W}
    (h : Called2 P H L n (k + 3) cwd (.lambda p (.lambda q body [] []) bs ps) a v w r w') {scope : Env}
    (hc : scope.getCwd = cwd) (hf : scope.get f = some (.lambda p (.lambda q body [] []) bs ps))
    (hx : scope.get x = some a) (hy : scope.get y = some v) :
    evalD P H (bodyRun P H (stdB P L) n) (k + 3) (.apply (.symbol f) [.symbol x, .symbol y]) scope w =
      (.ok r, scope, w') := by
  have h1 := h scope hc
  rw [evalD_callMore (k := k + 2) (a := .quote a) (b := .quote v) (rest := []) (env0 := scope)
    (env1 := scope) (w0 := w) (w1 := w) (v := a) (p := p) (bs := bs) (ps := ps) rfl rfl
    (evalD_lambda ..)] at h1
  rw [evalD_call1 (k := k + 1) (evalD_lambda ..) (env1 := scope) (w1 := w) (v := v) rfl] at h1
  rw [evalD_callMore (evalD_symbol hf) (evalD_symbol hx) (evalD_lambda ..),
    evalD_call1 (evalD_lambda ..) (evalD_symbol hy)]
  exact h1

/-- body of the function that `fn@reduce f a` gives -/
def reduceRest : Expr :=
  .do_ [.for_ c!"item" (.symbol c!"list") (.do_ [.assign c!"acc"
      (.apply (.symbol c!"f") [.symbol c!"acc", .symbol c!"item"])]),
    .symbol c!"acc"]

theorem reduce_loop {k : Nat} {cwd p q : Str} {body : Expr} {bs : List (Str × Expr)}
    {ps : List (List (Str × Expr))} {a z : Expr} {l : List Expr} {w w' : W}
    (h : Folds (Called2 P H L n (k + 3) cwd (.lambda p (.lambda q body [] []) bs ps)) a l w z w') :
    ∀ {scope : Env}, scope.getCwd = cwd →
    scope.get c!"f" = some (.lambda p (.lambda q body [] []) bs ps) → scope.get c!"acc" = some a →
    ∃ rs scope', forLoop (evalD P H (bodyRun P H (stdB P L) n) (k + 5)) c!"item"
      (.do_ [.assign c!"acc" (.apply (.symbol c!"f") [.symbol c!"acc", .symbol c!"item"])]) l scope w =
        (.ok rs, scope', w') ∧ scope'.get c!"acc" = some z := by
  induction h with
  | nil a w => exact fun _ _ ha => ⟨_, _, rfl, ha⟩
  | @cons a v l r z w w1 w2 h _ ih =>
    intro scope hc hf ha
    have hc' := (getCwd_define (env := scope) (x := c!"item") (v := v) (by decide)).trans hc
    have get : ∀ {x u}, scope.get x = some u → c!"item" ≠ x → (scope.define c!"item" v).get x = some u := by
      intro x u hx hne
      rw [Env.get_define, if_neg hne, hx]
    have h1 := h.by_name (f := c!"f") (x := c!"acc") (y := c!"item") hc' (get hf (by decide))
      (get ha (by decide)) (by rw [Env.get_define, if_pos rfl])
    have h2 : evalD P H (bodyRun P H (stdB P L) n) (k + 5)
        (.do_ [.assign c!"acc" (.apply (.symbol c!"f") [.symbol c!"acc", .symbol c!"item"])])
        (scope.define c!"item" v) w = (.ok .none, (scope.define c!"item" v).define c!"acc" r, w1) := by
      rw [evalD_do1, evalD]
      simp only [evalStep]
      rw [M.bind_ok h1]
      rfl
    obtain ⟨rs, scope', h3, h4⟩ := ih (scope := (scope.define c!"item" v).define c!"acc" r)
      ((getCwd_define (by decide)).trans hc')
      (by rw [Env.get_define, if_neg (by decide)]; exact get hf (by decide))
      (by rw [Env.get_define, if_pos rfl])
    refine ⟨.none :: rs, scope', ?_, h4⟩
    simp only [forLoop]
    rw [M.bind_ok (a := ()) (env' := scope.define c!"item" v) (w' := w) rfl, M.bind_ok h2, M.bind_ok h3]
    rfl

/-- the function `acc -> list -> …` that `fn@reduce f` runs -/
def reduceMid : Expr := .lambda c!"list" reduceRest [] []

/-- the scope of its body: what the function took along where it was made (`scope`), where it was
called (`env`) -/
def midScope (scope env : Env) (va : Expr) : Env :=
  callEnv c!"acc" ⟨(closeLambda env c!"acc" reduceMid
      ⟨(closeLambda scope c!"acc" reduceMid ⟨[], []⟩).bindings,
        (closeLambda scope c!"acc" reduceMid ⟨[], []⟩).parents⟩).bindings,
    (closeLambda env c!"acc" reduceMid
      ⟨(closeLambda scope c!"acc" reduceMid ⟨[], []⟩).bindings,
        (closeLambda scope c!"acc" reduceMid ⟨[], []⟩).parents⟩).parents⟩ env.getCwd va

theorem midScope_acc {scope env : Env} {va : Expr} : (midScope scope env va).get c!"acc" = some va := by
  rw [midScope, callEnv, Env.get_define, if_pos rfl]

/-- what a function took along where it was made, it finds where it is called -/
theorem reclose_get {scope env : Env} {p x cwd : Str} {body v u : Expr} (hx : x ∈ body.usedSymbols)
    (hp : x ≠ p) (hc : x ≠ c!"CWD") (h : scope.get x = some u) :
    (callEnv p ⟨(closeLambda env p body ⟨(closeLambda scope p body ⟨[], []⟩).bindings,
        (closeLambda scope p body ⟨[], []⟩).parents⟩).bindings,
      (closeLambda env p body ⟨(closeLambda scope p body ⟨[], []⟩).bindings,
        (closeLambda scope p body ⟨[], []⟩).parents⟩).parents⟩ cwd v).get x = some u := by
  have h1 : (closeLambda scope p body ⟨[], []⟩).bindings.get? x = some u := by
    rw [closeLambda, capture_get, if_pos ⟨hx, hp, rfl, by rw [h]; rfl⟩, h]
  rw [callEnv, Env.get_define, if_neg (Ne.symm hp), Env.setCwd, Env.get_define,
    if_neg (by exact Ne.symm hc), Env.get]
  have h2 : (closeLambda env p body ⟨(closeLambda scope p body ⟨[], []⟩).bindings,
      (closeLambda scope p body ⟨[], []⟩).parents⟩).bindings.get? x = some u := by
    rw [closeLambda, capture_get, if_neg]
    · simp only [Env.setCwd, Env.define, BMap.get?_insert]
      rw [if_neg (by exact Ne.symm hc), if_neg (Ne.symm hp), h1]
    · rintro ⟨-, -, h3, -⟩
      simp [Env.isDefined, BMap.contains, h1] at h3
  simp only [h2]

theorem midScope_f {scope env : Env} {va u : Expr} (h : scope.get c!"f" = some u) :
    (midScope scope env va).get c!"f" = some u :=
  reclose_get (by decide) (by decide) (by decide) h

/-- C44.  `(fn@reduce f a) x`, for a user's function `p -> q -> …`: `f`, `a` and `x` are evaluated in
this order, and the function is called with what was accumulated and the element, for each element in
turn. -/
theorem C44_reduce_waits {fe ae x body va z : Expr} {p q : Str} {bs : List (Str × Expr)}
    {ps : List (List (Str × Expr))} {l : List Expr} {env env1 env2 env3 : Env} {w w1 w2 w3 w4 : W}
    (hs : Std env)
    (hf : evalD P H (bodyRun P H (stdB P L) n) 800 fe env w =
      (.ok (.lambda p (.lambda q body [] []) bs ps), env1, w1))
    (ha : evalD P H (bodyRun P H (stdB P L) n) 799 ae env1 w1 = (.ok va, env2, w2))
    (hx : evalD P H (bodyRun P H (stdB P L) (n + 1)) 800 x env2 w2 = (.ok (.list l), env3, w3))
    (h : Folds (Called2 P H L (n + 1) 796 env2.getCwd (.lambda p (.lambda q body [] []) bs ps)) va l w3
      z w4) :
    evalN P H (stdB P L) (n + 2) (.apply (.group (call c!"fn" c!"reduce" [fe, ae])) [x]) env w =
      (.ok z, env3, w4) := by
  generalize hfn : (Expr.lambda p (.lambda q body [] []) bs ps) = fv at hf h
  generalize hsc1 : scriptScope env c!"f" (.lambda c!"acc" reduceMid [] []) env.getCwd fv = scope1
  have hg1 : scope1.get c!"f" = some fv := by rw [← hsc1]; exact scriptScope_param
  have h1 : evalD P H (bodyRun P H (stdB P L) (n + 1)) 800 (.group (call c!"fn" c!"reduce" [fe, ae]))
      env w = (.ok (closure (midScope scope1 env1 va) c!"list" reduceRest), env2, w2) := by
    rw [evalD_lib (k := 796) (m := c!"fn") (f := c!"reduce") (tbl := Init.fnM) hs (by mem_tac)
      (by mem_tac)]
    have h0 : evalD P H (bodyRun P H (stdB P L) n) 800
        (.do_ [.lambda c!"f" (.lambda c!"acc" reduceMid [] []) [] []]) env w =
        (.ok (closure env c!"f" (.lambda c!"acc" reduceMid [] [])), env, w) := by
      rw [evalD_do1]
      rfl
    have h2 := evalD_callMore (b := ae) (rest := []) h0 hf (evalD_lambda ..)
    rw [evalD_call1 (evalD_lambda ..) ha, ← scriptScope, hsc1, ← midScope] at h2
    brun [Builtins.reduceB, Builtins.countCheck]
    rw [evalN]
    exact h2.trans rfl
  have h2 := evalD_call1 h1 hx
  generalize hsc : scriptScope (midScope scope1 env1 va) c!"list" reduceRest env2.getCwd (.list l) =
    scope
  have hcwd : scope.getCwd = env2.getCwd := by rw [← hsc]; exact scriptScope_cwd (by decide)
  have hgf : scope.get c!"f" = some fv := by
    rw [← hsc]; exact scriptScope_get (by decide) (by decide) (by decide) (midScope_f hg1)
  have hga : scope.get c!"acc" = some va := by
    rw [← hsc]; exact scriptScope_get (by decide) (by decide) (by decide) midScope_acc
  have hlist : scope.get c!"list" = some (.list l) := by rw [← hsc]; exact scriptScope_param
  subst hfn
  obtain ⟨rs, scope', h3, h4⟩ := reduce_loop (k := 793) h hcwd hgf hga
  have h5 : evalD P H (bodyRun P H (stdB P L) (n + 1)) 800 reduceRest scope w3 = (.ok z, scope', w4) := by
    rw [reduceRest, evalD]
    simp only [evalStep, evalDo]
    rw [M.bind_ok (evalD_for (evalD_symbol hlist) h3)]
    exact evalD_symbol h4
  rw [evalN]
  refine h2.trans ?_
  rw [← scriptScope, hsc, h5]

/-! ### Examples -/

/-- `x -> [x]` calls -/
theorem wrap_called {k : Nat} {cwd : Str} {bs : List (Str × Expr)} {ps : List (List (Str × Expr))}
    (v : Expr) (w : W) :
    Called P H L n (k + 3) cwd (.lambda c!"x" (.list [.symbol c!"x"]) bs ps) v w (.list [v]) w := by
  intro scope hc
  rw [evalD_call1 (k := k + 2) (env0 := scope) (env1 := scope) (w0 := w) (w1 := w) (v := v) rfl rfl]
  generalize hsc : callEnv c!"x" _ _ v = inner
  have h : inner.get c!"x" = some v := by rw [← hsc, callEnv, Env.get_define, if_pos rfl]
  rw [evalD]
  simp only [evalStep, evalList]
  rw [M.bind_ok (a := [v]) (env' := inner) (w' := w)]
  · rfl
  · rw [M.bind_ok (evalD_symbol h)]
    rfl

/-- `x -> x` calls -/
theorem id_called {k : Nat} {cwd : Str} {bs : List (Str × Expr)} {ps : List (List (Str × Expr))}
    (v : Expr) (w : W) :
    Called P H L n (k + 3) cwd (.lambda c!"x" (.symbol c!"x") bs ps) v w v w := by
  intro scope hc
  rw [evalD_call1 (k := k + 2) (env0 := scope) (env1 := scope) (w0 := w) (w1 := w) (v := v) rfl rfl,
    evalD_symbol (by rw [callEnv, Env.get_define, if_pos rfl])]

/-- `a -> b -> [a, b]` calls -/
theorem pair_called {cwd : Str} {bs : List (Str × Expr)} {ps : List (List (Str × Expr))} (a v : Expr)
    (w : W) :
    Called2 P H L n 796 cwd
      (.lambda c!"a" (.lambda c!"b" (.list [.symbol c!"a", .symbol c!"b"]) [] []) bs ps) a v w
      (.list [a, v]) w := by
  intro scope hc
  rw [evalD_callMore (k := 795) (a := .quote a) (b := .quote v) (rest := []) (env0 := scope)
    (env1 := scope) (w0 := w) (w1 := w) (v := a) rfl rfl (evalD_lambda ..),
    evalD_call1 (k := 794) (evalD_lambda ..) (env1 := scope) (w1 := w) (v := v) rfl]
  generalize hsc : callEnv c!"b" _ _ v = inner
  have h1 : inner.get c!"a" = some a := by
    rw [← hsc]
    exact reclose_get (by decide) (by decide) (by decide) (by rw [callEnv, Env.get_define, if_pos rfl])
  have h2 : inner.get c!"b" = some v := by rw [← hsc, callEnv, Env.get_define, if_pos rfl]
  rw [evalD]
  simp only [evalStep, evalList]
  rw [M.bind_ok (a := [a, v]) (env' := inner) (w' := w)]
  · rfl
  · rw [M.bind_ok (evalD_symbol h1), M.bind_ok (a := [v]) (env' := inner) (w' := w)]
    · rfl
    · rw [M.bind_ok (evalD_symbol h2)]
      rfl

/-- `(fn@map (x -> [x])) ["p", "q"]` is `[["p"], ["q"]]` -/
example : evalN Demo.plat Demo.host (stdB Demo.plat Demo.lib) 2
    (.apply (.group (call c!"fn" c!"map" [.lambda c!"x" (.list [.symbol c!"x"]) [] []]))
      [.list [.str c!"p", .str c!"q"]])
    Demo.env [] = (.ok (.list [.list [.str c!"p"], .list [.str c!"q"]]), Demo.env, []) :=
  C44_map_waits demo_std (evalD_lambda ..) rfl
    (.cons (wrap_called (k := 795) _ _) (.cons (wrap_called (k := 795) _ _) (.nil _)))

/-- `(fn@filter (x -> x)) ["", "p"]` is `["p"]`: the empty text is falsy -/
example : evalN Demo.plat Demo.host (stdB Demo.plat Demo.lib) 2
    (.apply (.group (call c!"fn" c!"filter" [.lambda c!"x" (.symbol c!"x") [] []]))
      [.list [.str [], .str c!"p"]])
    Demo.env [] = (.ok (.list [.str c!"p"]), Demo.env, []) := by
  refine (C44_filter_waits (vs := [.str [], .str c!"p"]) demo_std (evalD_lambda ..) rfl
    (by simp only [List.forall_mem_cons]; exact ⟨.str _, .str _, by simp⟩)
    (.cons (id_called (k := 792) _ _) (.cons (id_called (k := 792) _ _) (.nil _)))).trans ?_
  simp [← isTruthy_iff, Expr.isTruthy]

/-- `(fn@reduce (a -> b -> [a, b]) "o") ["p", "q"]` is `[["o", "p"], "q"]` -/
example : evalN Demo.plat Demo.host (stdB Demo.plat Demo.lib) 2
    (.apply (.group (call c!"fn" c!"reduce" [.lambda c!"a" (.lambda c!"b"
      (.list [.symbol c!"a", .symbol c!"b"]) [] []) [] [], .str c!"o"])) [.list [.str c!"p", .str c!"q"]])
    Demo.env [] = (.ok (.list [.list [.str c!"o", .str c!"p"], .str c!"q"]), Demo.env, []) :=
  C44_reduce_waits demo_std (evalD_lambda ..) rfl rfl
    (.cons (pair_called _ _ _) (.cons (pair_called _ _ _) (.nil _ _)))

end

/-! The functions are what their sources in the code are read as. -/

set_option maxRecDepth 100000 in
set_option maxHeartbeats 4000000 in
set_option cbv.maxSteps 10000000 in
example (P : Plat) : parseScript P
    c!"f -> list -> for item in list {f item}" = .ok Builtins.mapSrc := by cbv

set_option maxRecDepth 100000 in
set_option maxHeartbeats 4000000 in
set_option cbv.maxSteps 10000000 in
example (P : Plat) : parseScript P
    c!"f -> acc -> list -> { for item in list { let acc = f acc item } acc }" = .ok Builtins.reduceSrc := by cbv

set_option maxRecDepth 100000 in
set_option maxHeartbeats 4000000 in
set_option cbv.maxSteps 10000000 in
example (P : Plat) : parseScript P
    c!"f -> list -> {\n                    let result = [];\n                    for item in list {\n                        if (f item) {\n                            let result = result + [item];\n                        }\n                    }\n                    result\n                }" = .ok Builtins.filterSrc := by cbv

end Dune.Props
