import Verif.Props.Startup
import Verif.Props.Lists

/-! C80: the function `join`, which is defined at the start. -/

namespace Dune.Props

open Spec Startup

section

variable {W : Type} {P : Plat} {H : Host W} {L : Lib} {n : Nat} {env : Env} {w : W}

/-! ### Helper lemmas -/

/-- What a variable is in the body of a function. -/
theorem call_get {c : Env} {p x cwd : Str} {body v : Expr} (hx : x ∈ body.usedSymbols)
    (h1 : x ≠ p) (h2 : x ≠ c!"CWD") (hs : (env.get x).isSome ∨ (c.get x).isSome) :
    (callEnv p ⟨(closeLambda env p body c).bindings, (closeLambda env p body c).parents⟩ cwd v).get x =
      if (c.get x).isSome then c.get x else env.get x := by
  rw [callEnv, Env.get_define, if_neg (Ne.symm h1), Env.setCwd, Env.get_define,
    if_neg (by exact Ne.symm h2), Env.get]
  simp only [closeLambda_parents]
  rw [closeLambda, capture_get]
  have h3 : ((c.define p .none).setCwd env.getCwd).bindings.get? x = c.bindings.get? x := by
    simp only [Env.setCwd, Env.define, BMap.get?_insert]
    rw [if_neg (by exact Ne.symm h2), if_neg (Ne.symm h1)]
  rw [h3, Env.isDefined_eq]
  by_cases h : (c.get x).isSome = true
  · rw [if_pos h, if_neg (by simp [h]), Env.get]
  · rw [if_neg h]
    have he : (env.get x).isSome := hs.resolve_right h
    rw [if_pos ⟨hx, h1, by simpa using h, he⟩]
    obtain ⟨u, hu⟩ := Option.isSome_iff_exists.1 he
    rw [hu]

theorem close_get {p x : Str} {body : Expr} (hx : x ∈ body.usedSymbols) (h1 : x ≠ p)
    (hs : (env.get x).isSome) : (closeLambda env p body ⟨[], []⟩).get x = env.get x := by
  have h : (closeLambda env p body ⟨[], []⟩).bindings.get? x = env.get x := by
    rw [closeLambda, capture_get, if_pos ⟨hx, h1, rfl, hs⟩]
  obtain ⟨u, hu⟩ := Option.isSome_iff_exists.1 hs
  rw [hu] at h ⊢
  rw [Env.get, h]

theorem call_param {c : Env} {p cwd : Str} {v : Expr} : (callEnv p c cwd v).get p = some v := by
  rw [callEnv, Env.get_define, if_pos rfl]

theorem Val.toStr {a v : Expr} {n0 k0 : Nat}
    (h : env.get c!"str" = some (.builtin c!"str" .str [])) (ha : Val P H L env w n0 k0 a v)
    (hk : k0 ≤ 801) : Val P H L env w (n0 + 1) 2 (str_ a) (.str (display P v)) := by
  refine Val.call ((Val.symbol h).mono (by omega) (Nat.le_refl _)) ?_
  intro n hn
  brun [Builtins.strB, ha.full hk hn]

def innerBody : Expr :=
  plus (plus (.symbol c!"x") (.symbol c!"sep")) (.group (str_ (.symbol c!"y")))

theorem val_inner {s t : Str} {v : Expr}
    (hadd : env.get c!"+" = some (.builtin c!"+" .add []))
    (hstr : env.get c!"str" = some (.builtin c!"str" .str []))
    (hx : env.get c!"x" = some (.str s)) (hsep : env.get c!"sep" = some (.str t))
    (hy : env.get c!"y" = some v) :
    Val P H L env w 2 3 innerBody (.str (s ++ t ++ display P v)) := by
  have h1 := Val.add (P := P) (H := H) (L := L) (w := w) hadd (Val.symbol hx) (Val.symbol hsep)
    (by decide)
  have h2 := (Val.toStr (P := P) (H := H) (L := L) (w := w) hstr (Val.symbol hy) (by decide)).group
  exact Val.add hadd h1 h2 (by decide)

/-- the function that is folded over the list -/
theorem join_step {envB env1 : Env} {s t : Str} {x : Expr} {w : W}
    (hadd : envB.get c!"+" = some (.builtin c!"+" .add []))
    (hstr : envB.get c!"str" = some (.builtin c!"str" .str []))
    (hsep : envB.get c!"sep" = some (.str t)) (hx : Data 799 x) :
    evalN P H (stdB P L) (n + 3) (.apply (closure envB c!"x" joinInner) [.str s, x]) env1 w =
      (.ok (.str (s ++ t ++ display P x)), env1, w) := by
  let C1 := closeLambda envB c!"x" joinInner ⟨[], []⟩
  have g0 : ∀ y, y ∈ [c!"+", c!"str", c!"sep"] → (envB.get y).isSome = true := by
    simp only [List.forall_mem_cons, List.not_mem_nil, false_imp_iff, implies_true, and_true]
    exact ⟨by rw [hadd]; rfl, by rw [hstr]; rfl, by rw [hsep]; rfl⟩
  have e1 : ∀ y, y ∈ [c!"+", c!"str", c!"sep"] → y ∈ joinInner.usedSymbols ∧ y ≠ c!"x" ∧ y ≠ c!"y" ∧
      y ≠ c!"CWD" := by decide
  have g1 : ∀ y, y ∈ [c!"+", c!"str", c!"sep"] → C1.get y = envB.get y := by
    intro y hy
    exact close_get (e1 y hy).1 (e1 y hy).2.1 (g0 y hy)
  -- the first argument
  let C2 := closeLambda env1 c!"x" joinInner ⟨C1.bindings, C1.parents⟩
  let E2 := callEnv c!"x" ⟨C2.bindings, C2.parents⟩ env1.getCwd (.str s)
  have g2 : ∀ y, y ∈ [c!"+", c!"str", c!"sep"] → E2.get y = envB.get y := by
    intro y hy
    have hc : (Env.get ⟨C1.bindings, C1.parents⟩ y) = envB.get y := g1 y hy
    have := call_get (env := env1) (c := ⟨C1.bindings, C1.parents⟩) (p := c!"x") (body := joinInner)
      (cwd := env1.getCwd) (v := .str s) (e1 y hy).1 (e1 y hy).2.1 (e1 y hy).2.2.2
      (.inr (by rw [hc]; exact g0 y hy))
    rw [hc, if_pos (g0 y hy)] at this
    exact this
  have x2 : E2.get c!"x" = some (.str s) := call_param
  -- the second argument
  let C3 := closeLambda E2 c!"y" innerBody ⟨[], []⟩
  have e3 : ∀ y, y ∈ [c!"+", c!"str", c!"sep", c!"x"] → y ∈ innerBody.usedSymbols ∧ y ≠ c!"y" ∧
      y ≠ c!"CWD" := by decide
  have g2' : ∀ y, y ∈ [c!"+", c!"str", c!"sep", c!"x"] → (E2.get y).isSome = true := by
    simp only [List.forall_mem_cons, List.not_mem_nil, false_imp_iff, implies_true, and_true]
    refine ⟨by rw [g2 _ (by decide), hadd]; rfl, by rw [g2 _ (by decide), hstr]; rfl,
      by rw [g2 _ (by decide), hsep]; rfl, by rw [x2]; rfl⟩
  have g3 : ∀ y, y ∈ [c!"+", c!"str", c!"sep", c!"x"] → C3.get y = E2.get y := by
    intro y hy
    exact close_get (e3 y hy).1 (e3 y hy).2.1 (g2' y hy)
  let C4 := closeLambda env1 c!"y" innerBody ⟨C3.bindings, C3.parents⟩
  let E4 := callEnv c!"y" ⟨C4.bindings, C4.parents⟩ env1.getCwd x
  have g4 : ∀ y, y ∈ [c!"+", c!"str", c!"sep", c!"x"] → E4.get y = E2.get y := by
    intro y hy
    have hc : (Env.get ⟨C3.bindings, C3.parents⟩ y) = E2.get y := g3 y hy
    have := call_get (env := env1) (c := ⟨C3.bindings, C3.parents⟩) (p := c!"y") (body := innerBody)
      (cwd := env1.getCwd) (v := x) (e3 y hy).1 (e3 y hy).2.1 (e3 y hy).2.2
      (.inr (by rw [hc]; exact g2' y hy))
    rw [hc, if_pos (g2' y hy)] at this
    exact this
  have v4 : Val P H L E4 w 2 3 innerBody (.str (s ++ t ++ display P x)) :=
    val_inner (by rw [g4 _ (by decide), g2 _ (by decide), hadd])
      (by rw [g4 _ (by decide), g2 _ (by decide), hstr]) (by rw [g4 _ (by decide), x2])
      (by rw [g4 _ (by decide), g2 _ (by decide), hsep]) call_param
  have r1 : evalD P H (bodyRun P H (stdB P L) (n + 2)) 800 (closure envB c!"x" joinInner) env1 w =
      (.ok (.lambda c!"x" joinInner C2.bindings C2.parents), env1, w) := evalD_lambda (k := 799) ..
  have r2 : evalD P H (bodyRun P H (stdB P L) (n + 2)) 800 joinInner E2 w =
      (.ok (.lambda c!"y" innerBody C3.bindings C3.parents), E2, w) := evalD_lambda (k := 799) ..
  have r3 : evalD P H (bodyRun P H (stdB P L) (n + 2)) 799
      (.lambda c!"y" innerBody C3.bindings C3.parents) env1 w =
      (.ok (.lambda c!"y" innerBody C4.bindings C4.parents), env1, w) := evalD_lambda (k := 798) ..
  rw [evalN]
  change evalD P H (bodyRun P H (stdB P L) (n + 2)) 801 _ _ _ = _
  rw [evalD_callMore (k := 800) r1 rfl r2, evalD_call1 (k := 799) r3 (C17_data_inert hx _ _),
    v4 (n + 2) 799 (by omega) (by omega)]

/-- one step of the fold -/
def joinF (P : Plat) (t : Str) (a x : Expr) : Expr :=
  match a with
  | .str s => .str (s ++ t ++ display P x)
  | a => a

theorem foldl_join (P : Plat) (t : Str) : ∀ (l : List Expr) (s : Str),
    l.foldl (joinF P t) (.str s) = .str (List.intercalate t (s :: l.map (display P)))
  | [], s => by simp [List.intercalate]
  | x :: l, s => by
    rw [List.foldl_cons, joinF, foldl_join P t l]
    cases l <;> simp [List.intercalate, List.intersperse]

/-- The names `join` uses have their initial meaning. -/
structure JoinNames (env : Env) : Prop where
  at_ : env.get c!"@" = some (.builtin c!"@" .index [])
  add : env.get c!"+" = some (.builtin c!"+" .add [])
  str : env.get c!"str" = some (.builtin c!"str" .str [])
  fn : ∃ t : BMap Expr, env.get c!"fn" = some (.map t) ∧
    t.get? c!"reduce" = some (.builtin c!"reduce" .fReduce [])
  list : ∃ t : BMap Expr, env.get c!"list" = some (.map t) ∧
    t.get? c!"tail" = some (.builtin c!"tail" .lTail [])

theorem JoinNames.of_eq {env env' : Env} (h : JoinNames env)
    (he : ∀ x ∈ [c!"@", c!"+", c!"str", c!"fn", c!"list"], env'.get x = env.get x) :
    JoinNames env' := by
  refine ⟨?_, ?_, ?_, ?_, ?_⟩
  · rw [he _ (by decide)]; exact h.at_
  · rw [he _ (by decide)]; exact h.add
  · rw [he _ (by decide)]; exact h.str
  · rw [he _ (by decide)]; exact h.fn
  · rw [he _ (by decide)]; exact h.list

theorem JoinNames.some {env : Env} (h : JoinNames env) :
    ∀ x ∈ [c!"@", c!"+", c!"str", c!"fn", c!"list"], (env.get x).isSome = true := by
  obtain ⟨_, h4, _⟩ := h.fn
  obtain ⟨_, h5, _⟩ := h.list
  simp only [List.forall_mem_cons, List.not_mem_nil, false_imp_iff, implies_true, and_true]
  exact ⟨by rw [h.at_]; rfl, by rw [h.add]; rfl, by rw [h.str]; rfl, by rw [h4]; rfl, by rw [h5]; rfl⟩

theorem JoinNames.of_std {env : Env} (hs : Std env) : JoinNames env := by
  refine ⟨hs.op (Init.b c!"@" .index) (by mem_tac), hs.op (Init.b c!"+" .add) (by mem_tac),
    hs.top (Init.b c!"str" .str) (by mem_tac), ?_, ?_⟩
  · obtain ⟨t, ht, h⟩ := hs.mod (c!"fn", Init.fnM) (by mem_tac)
    exact ⟨t, ht, h (Init.b c!"reduce" .fReduce) (by mem_tac)⟩
  · obtain ⟨t, ht, h⟩ := hs.mod (c!"list", Init.listM) (by mem_tac)
    exact ⟨t, ht, h (Init.b c!"tail" .lTail) (by mem_tac)⟩

theorem Val.member {m f : Str} {t : BMap Expr} {v : Expr}
    (hat : env.get c!"@" = some (.builtin c!"@" .index []))
    (hm : env.get m = Option.some (.map t)) (hf : t.get? f = Option.some v) :
    Val P H L env w 0 2 (member m f) v := by
  intro n k _ hk
  obtain ⟨k, rfl⟩ : ∃ m, k = m + 2 := ⟨k - 2, by omega⟩
  exact evalD_member hat hm hf

/-- the last expression of `join`, for a non-empty list and for the empty list -/
theorem val_reduce {t : Str} {l : List Expr} (hn : JoinNames env)
    (hsep : env.get c!"sep" = some (.str t)) (hl : env.get c!"l" = some (.list l))
    (hd : ∀ x ∈ l.drop 1, Data 799 x) :
    Val P H L env w 4 3 (call c!"fn" c!"reduce" [
      .group (.lambda c!"x" joinInner [] []),
      .group (str_ (.apply (.symbol c!"@") [.symbol c!"l", .int (.lit 0)])),
      .group (call c!"list" c!"tail" [.symbol c!"l"])])
      (.str (List.intercalate t ((l.headD .none :: l.drop 1).map (display P)))) := by
  obtain ⟨tf, hf1, hf2⟩ := hn.fn
  obtain ⟨tl, hl1, hl2⟩ := hn.list
  have v1 : Val P H L env w 0 2 (.group (.lambda c!"x" joinInner [] []))
      (closure env c!"x" joinInner) := by
    refine Val.group (k0 := 1) ?_
    intro n k _ hk
    obtain ⟨k, rfl⟩ : ∃ m, k = m + 1 := ⟨k - 1, by omega⟩
    exact evalD_lambda ..
  have v0 : Val P H L env w 1 2 (.apply (.symbol c!"@") [.symbol c!"l", .int (.lit 0)])
      (l.headD .none) := by
    refine Val.call ((Val.symbol hn.at_).mono (by omega) (Nat.le_refl _)) ?_
    intro n hn'
    have h0 : (I64.lit 0).asUsize = 0 := rfl
    have e := evalN_sym (P := P) (H := H) (bodies := stdB P L) (n := n) (w := w) hl
    cases l <;> brun [Builtins.indexB, Builtins.indexLoop, Expr.index, e, h0]
  have v2 := (Val.toStr hn.str v0 (by decide)).group
  have v3 : Val P H L env w 1 4 (.group (call c!"list" c!"tail" [.symbol c!"l"])) (.list (l.drop 1)) := by
    refine Val.group (k0 := 3) (Val.call ((Val.member hn.at_ hl1 hl2).mono (by omega) (Nat.le_refl _)) ?_)
    intro n hn'
    have e := evalN_sym (P := P) (H := H) (bodies := stdB P L) (n := n) (w := w) hl
    brun [Builtins.tailB, Builtins.needArgs, e]
  refine Val.call ((Val.member hn.at_ hf1 hf2).mono (by omega) (Nat.le_refl _)) ?_
  intro n hn'
  obtain ⟨n, rfl⟩ : ∃ m, n = m + 3 := ⟨n - 3, by omega⟩
  have hc : Computes2 P H L (n + 3) (closure env c!"x" joinInner)
      (joinF P t) (fun a => ∃ s, a = .str s) (l.drop 1) := by
    rintro _ ⟨s, rfl⟩ x hx
    exact ⟨⟨_, rfl⟩, fun env1 w1 => join_step hn.add hn.str hsep (hd x hx)⟩
  have := foldLoop_left (a := .str (display P (l.headD .none))) ⟨_, rfl⟩ hc env w
  rw [foldl_join] at this
  rw [List.map_cons]
  generalize l.headD .none = v0 at v2 this ⊢
  generalize l.drop 1 = rest at v3 this ⊢
  generalize Expr.str (List.intercalate t (display P v0 :: rest.map (display P))) = res at this ⊢
  have e1 := v1.full (by decide) (n := n + 3) (by omega)
  have e2 := v2.full (by decide) (n := n + 3) (by omega)
  have e3 := v3.full (by decide) (n := n + 3) (by omega)
  brun [Builtins.reduceB, Builtins.countCheck, e1, e2, e3, this]

/-- the body of `join` -/
theorem eval_joinBody {k : Nat} {sep : Expr} {l : List Expr} (hn : JoinNames env)
    (hsep : env.get c!"sep" = some sep) (hl : env.get c!"l" = some (.list l))
    (hd : ∀ x ∈ l.drop 1, Data 799 x) :
    evalD P H (bodyRun P H (stdB P L) (n + 4)) (k + 5) joinBody env w =
      (.ok (.str (List.intercalate (display P sep) ((l.headD .none :: l.drop 1).map (display P)))),
        env.define c!"sep" (.str (display P sep)), w) := by
  have h1 := (Val.toStr (P := P) (H := H) (L := L) (w := w) hn.str (Val.symbol hsep) (by decide))
    (n + 4) (k + 3) (by omega) (by omega)
  have hn' : JoinNames (env.define c!"sep" (.str (display P sep))) := by
    refine hn.of_eq ?_
    intro x hx
    rw [Env.get_define, if_neg]
    rintro rfl
    revert hx
    decide
  have h2 := val_reduce (P := P) (H := H) (L := L) (w := w) hn' (t := display P sep) (l := l)
    (by rw [Env.get_define, if_pos rfl]) (by rw [Env.get_define, if_neg (by decide), hl]) hd
    (n + 4) (k + 4) (by omega) (by omega)
  rw [evalD, joinBody]
  simp only [evalStep, evalDo]
  rw [M.bind_ok (a := .none) (env' := env.define c!"sep" (.str (display P sep))) (w' := w) (by
    rw [evalD]
    simp only [evalStep]
    rw [M.bind_ok h1]
    rfl)]
  exact h2

theorem eval_join {env' env1 env2 : Env} {w w1 w2 : W} {a b sep : Expr} {l : List Expr} (hs : Std env)
    (hv : env'.get c!"join" = some (closure env c!"sep" (.lambda c!"l" joinBody [] [])))
    (ha : evalD P H (bodyRun P H (stdB P L) (n + 4)) 800 a env' w = (.ok sep, env1, w1))
    (hb : evalD P H (bodyRun P H (stdB P L) (n + 4)) 799 b env1 w1 = (.ok (.list l), env2, w2))
    (hd : ∀ x ∈ l.drop 1, Data 799 x) :
    evalN P H (stdB P L) (n + 5) (.apply (.symbol c!"join") [a, b]) env' w =
      (.ok (.str (List.intercalate (display P sep) ((l.headD .none :: l.drop 1).map (display P)))),
        env2, w2) := by
  let names := [c!"@", c!"+", c!"str", c!"fn", c!"list"]
  have j0 := JoinNames.of_std hs
  -- the first argument
  let C1 := closeLambda env c!"sep" (.lambda c!"l" joinBody [] []) ⟨[], []⟩
  let E1 := callEnv c!"sep" ⟨C1.bindings, C1.parents⟩ env'.getCwd sep
  have e1 : ∀ x ∈ names, x ∈ (Expr.lambda c!"l" joinBody [] []).usedSymbols ∧ x ≠ c!"sep" ∧
      x ≠ c!"l" ∧ x ≠ c!"CWD" := by decide
  have j1 : JoinNames E1 := by
    refine j0.of_eq fun x hx => ?_
    have := call_get (env := env) (c := ⟨[], []⟩) (p := c!"sep") (body := .lambda c!"l" joinBody [] [])
      (cwd := env'.getCwd) (v := sep) (e1 x hx).1 (e1 x hx).2.1 (e1 x hx).2.2.2 (.inl (j0.some x hx))
    exact this
  have s1 : E1.get c!"sep" = some sep := call_param
  -- the second argument
  let C2 := closeLambda E1 c!"l" joinBody ⟨[], []⟩
  have e2 : ∀ x ∈ c!"sep" :: names, x ∈ joinBody.usedSymbols ∧ x ≠ c!"l" ∧ x ≠ c!"CWD" := by decide
  have some1 : ∀ x ∈ c!"sep" :: names, (E1.get x).isSome = true := by
    intro x hx
    rcases List.mem_cons.1 hx with rfl | hx
    · rw [s1]; rfl
    · exact j1.some x hx
  have g2 : ∀ x ∈ c!"sep" :: names, C2.get x = E1.get x := fun x hx =>
    close_get (e2 x hx).1 (e2 x hx).2.1 (some1 x hx)
  let C3 := closeLambda env1 c!"l" joinBody ⟨C2.bindings, C2.parents⟩
  let E3 := callEnv c!"l" ⟨C3.bindings, C3.parents⟩ env1.getCwd (.list l)
  have g3 : ∀ x ∈ c!"sep" :: names, E3.get x = E1.get x := by
    intro x hx
    have hc : (Env.get ⟨C2.bindings, C2.parents⟩ x) = E1.get x := g2 x hx
    have := call_get (env := env1) (c := ⟨C2.bindings, C2.parents⟩) (p := c!"l") (body := joinBody)
      (cwd := env1.getCwd) (v := .list l) (e2 x hx).1 (e2 x hx).2.1 (e2 x hx).2.2
      (.inr (by rw [hc]; exact some1 x hx))
    rw [hc, if_pos (some1 x hx)] at this
    exact this
  have j3 : JoinNames E3 := j1.of_eq fun x hx => g3 x (List.mem_cons_of_mem _ hx)
  have hbody := eval_joinBody (P := P) (H := H) (L := L) (n := n) (w := w2) (k := 794) (sep := sep) j3
    (by rw [g3 _ (by decide), s1]) call_param hd
  have r2 : evalD P H (bodyRun P H (stdB P L) (n + 4)) 800 (.lambda c!"l" joinBody [] []) E1 w1 =
      (.ok (.lambda c!"l" joinBody C2.bindings C2.parents), E1, w1) := evalD_lambda (k := 799) ..
  have r3 : evalD P H (bodyRun P H (stdB P L) (n + 4)) 799
      (.lambda c!"l" joinBody C2.bindings C2.parents) env1 w1 =
      (.ok (.lambda c!"l" joinBody C3.bindings C3.parents), env1, w1) := evalD_lambda (k := 798) ..
  rw [evalN]
  change evalD P H (bodyRun P H (stdB P L) (n + 4)) 801 _ _ _ = _
  rw [evalD_callMore (k := 800) (evalD_symbol hv) ha r2, evalD_call1 (k := 799) r3 hb, hbody]

/-! ### `join` -/

/-- C80.  `join sep list` is the text of the items of the list, with the text of the separator
between them. -/
theorem C80_join {env0 : Env} {w' w0 : W} {n0 : Nat} (hs : Std env)
    (hst : Starts P (evalN P H (stdB P L) n0) env env0 w' w0)
    {env' env1 env2 : Env} {w w1 w2 : W} (hv : env'.get c!"join" = env0.get c!"join")
    {a b sep v : Expr} {l : List Expr}
    (ha : evalD P H (bodyRun P H (stdB P L) (n + 4)) 800 a env' w = (.ok sep, env1, w1))
    (hb : evalD P H (bodyRun P H (stdB P L) (n + 4)) 799 b env1 w1 = (.ok (.list (v :: l)), env2, w2))
    (hd : ∀ x ∈ l, Data 799 x) :
    evalN P H (stdB P L) (n + 5) (.apply (.symbol c!"join") [a, b]) env' w =
      (.ok (.str (List.intercalate (display P sep) ((v :: l).map (display P)))), env2, w2) := by
  obtain ⟨rfl, rfl⟩ := starts_eq hst
  refine eval_join (env := started2 env) ?_ ?_ ha hb hd
  · refine std_started hs fun x hx => ?_
    simp only [List.mem_cons, List.not_mem_nil, or_false, not_or] at hx
    simp only [started2, Env.get_define, Ne.symm hx.1, Ne.symm hx.2.1, if_false]
  · rw [hv]
    simp only [started, started4, started3, Env.get_define]
    rw [if_neg (by decide), if_neg (by decide), if_pos trivial]

/-- C80.  Of the empty list it makes the text `None`. -/
theorem C80_join_empty {env0 : Env} {w' w0 : W} {n0 : Nat} (hs : Std env)
    (hst : Starts P (evalN P H (stdB P L) n0) env env0 w' w0)
    {env' env1 env2 : Env} {w w1 w2 : W} (hv : env'.get c!"join" = env0.get c!"join")
    {a b sep : Expr}
    (ha : evalD P H (bodyRun P H (stdB P L) (n + 4)) 800 a env' w = (.ok sep, env1, w1))
    (hb : evalD P H (bodyRun P H (stdB P L) (n + 4)) 799 b env1 w1 = (.ok (.list []), env2, w2)) :
    evalN P H (stdB P L) (n + 5) (.apply (.symbol c!"join") [a, b]) env' w =
      (.ok (.str c!"None"), env2, w2) := by
  obtain ⟨rfl, rfl⟩ := starts_eq hst
  have h := eval_join (P := P) (H := H) (L := L) (n := n) (env := started2 env) (env' := env') ?_ ?_ ha
    hb (by simp)
  · rw [h]
    have : display P .none = c!"None" := rfl
    simp [List.intercalate, this]
  · refine std_started hs fun x hx => ?_
    simp only [List.mem_cons, List.not_mem_nil, or_false, not_or] at hx
    simp only [started2, Env.get_define, Ne.symm hx.1, Ne.symm hx.2.1, if_false]
  · rw [hv]
    simp only [started, started4, started3, Env.get_define]
    rw [if_neg (by decide), if_neg (by decide), if_pos trivial]

set_option maxRecDepth 100000 in
example : parseText Demo.plat c!"join \", \" [1, 2, 3]" =
    .ok (.do_ [.apply (.symbol c!"join") [.str c!", ", .list [.int (.lit 1), .int (.lit 2), .int (.lit 3)]]]) :=
  rfl

/-- `join ", " [1, 2, 3]` is `"1, 2, 3"`. -/
example : evalN Demo.plat Demo.host (stdB Demo.plat Demo.lib) 5
    (.apply (.symbol c!"join") [.str c!", ", .list [.int (.lit 1), .int (.lit 2), .int (.lit 3)]])
    (started Demo.env) [] = (.ok (.str c!"1, 2, 3"), started Demo.env, []) :=
  C80_join (n := 0) (n0 := 0) (w' := ([] : List IOp)) (w0 := []) demo_std (startup_eq _ _) rfl
    (sep := .str c!", ") rfl
    (v := .int (.lit 1)) (l := [.int (.lit 2), .int (.lit 3)]) rfl (by
      intro x hx
      simp only [List.mem_cons, List.not_mem_nil, or_false] at hx
      rcases hx with rfl | rfl <;> exact .int _)

end

end Dune.Props
