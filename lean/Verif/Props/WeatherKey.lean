import Verif.Model.WeatherKey
import Verif.Props.Weather

/-! `set-weather-api-key` of the default prelude. -/

namespace Dune.Props

open Spec Calc Prelude Repl

/-! ### Proofs -/

/-- the rest of the macro, once the key is set -/
def cityMacro : Expr := .macro_ c!"CITY" (.do_ [.apply (.symbol c!"reload-weather-api") [.none]])

theorem setKey_parse (P : Plat) : parseText P setKeyText =
    .ok (.do_ [.assign c!"set-weather-api-key" (.macro_ c!"WEATHER-API-KEY" cityMacro)]) := by kernel_rfl

theorem noKey_parse (P : Plat) : parseText P noKeyText =
    .ok (.do_ [.apply (.symbol c!"set-weather-api-key") [.none]]) := by kernel_rfl

variable {W : Type} {H : Host W} {P : Plat} {L : Lib} {d d1 d2 n m : Nat} {env env' env1 env2 env3 : Env} {w w' : W}

/-- a macro with one argument runs in the environment of the caller -/
theorem run_macro {f x v b r : Expr} {p : Str} (hf : Yields H P L d1 env f (.macro_ p b)) (hx : Yields H P L d1 env x v)
    (hb : Run H P L d (env.define p v) b r env1) : Run H P L (max d1 d + 1) env (.apply f [x]) r env1 := by
  intro n k w hn hk
  obtain ⟨k, rfl, hk⟩ := pos_succ hk
  rw [evalD]
  simp only [evalStep]
  rw [M.bind_ok (hf n k w (by omega) (by omega))]
  simp only [applyValue]
  rw [M.bind_ok (hx n k w (by omega) (by omega))]
  exact hb n k w (by omega) (by omega)

/-- with two arguments, what it gives is applied to the second -/
theorem run_macro2 {f x y v b g r : Expr} {p : Str} (hf : Yields H P L d1 env f (.macro_ p b))
    (hx : Yields H P L d1 env x v) (hb : Run H P L d (env.define p v) b g env1)
    (hg : Run H P L d2 env1 (.apply g [y]) r env2) : Run H P L (max (max d1 d) d2 + 1) env (.apply f [x, y]) r env2 := by
  intro n k w hn hk
  obtain ⟨k, rfl, hk⟩ := pos_succ hk
  rw [evalD]
  simp only [evalStep]
  rw [M.bind_ok (hf n k w (by omega) (by omega))]
  simp only [applyValue]
  rw [M.bind_ok (hx n k w (by omega) (by omega))]
  show M.bind (M.define p v) _ env w = _
  simp only [M.bind, M.define]
  rw [M.bind_ok (hb n k w (by omega) (by omega))]
  exact hg n k w (by omega) (by omega)

theorem setKey_entered (hn : 4 ≤ n) : Entered H P L n w [setKeyText] env
    (env.define c!"set-weather-api-key" (.macro_ c!"WEATHER-API-KEY" cityMacro)) :=
  enter_text (setKey_parse P) ((yields_macro _ _).assign.last.block) hn (.nil _)

/-- C121.  Entering the definition changes only this name. -/
theorem C121_defines (hn : 4 ≤ n) : ∃ env', Entered H P L n w [setKeyText] env env' ∧
    ∀ s, s ≠ c!"set-weather-api-key" → env'.get s = env.get s :=
  ⟨_, setKey_entered hn, fun s hs => by rw [Env.get_define, if_neg (Ne.symm hs)]⟩

theorem setKey_run {x v : Expr} (hf : env.get c!"set-weather-api-key" = some (.macro_ c!"WEATHER-API-KEY" cityMacro))
    (hx : Gives H P L env x v) :
    Run H P L 2 env (.apply (.symbol c!"set-weather-api-key") [x]) cityMacro (env.define c!"WEATHER-API-KEY" v) :=
  run_macro (yields_symbol hf) (gives_yields hx) (yields_macro _ _)

/-- C121.  With the key alone, the variable `WEATHER-API-KEY` is set, and nothing else happens: no other variable
changes. -/
theorem C121_key (hn : 4 ≤ n) (he : Entered H P L n w [setKeyText] env env')
    (hf : env2.get c!"set-weather-api-key" = env'.get c!"set-weather-api-key") (hm : 3 ≤ m) {x v : Expr}
    (hx : Gives H P L env2 x v) :
    ∃ r env3, evalN P H (stdB P L) m (.apply (.symbol c!"set-weather-api-key") [x]) env2 w' = (.ok r, env3, w') ∧
      env3.get c!"WEATHER-API-KEY" = some v ∧ ∀ s, s ≠ c!"WEATHER-API-KEY" → env3.get s = env2.get s := by
  cases he.unique (setKey_entered hn)
  rw [Env.get_define, if_pos rfl] at hf
  exact ⟨_, _, (setKey_run hf hx).evalN hm (by decide) w', by rw [Env.get_define, if_pos rfl],
    fun s hs => by rw [Env.get_define, if_neg (Ne.symm hs)]⟩

/-- C121.  With the key and a city, both variables are set and then `reload-weather-api ()` is evaluated, in the
environment of the caller. -/
theorem C121_city (hn : 4 ≤ n) (he : Entered H P L n w [setKeyText] env env')
    (hf : env2.get c!"set-weather-api-key" = env'.get c!"set-weather-api-key") {x y v u : Expr}
    (hx : Gives H P L env2 x v) (hy : Gives H P L (env2.define c!"WEATHER-API-KEY" v) y u) {p : Str} {b r : Expr}
    (hr : env2.get c!"reload-weather-api" = some (.macro_ p b))
    (hb : Run H P L d (((env2.define c!"WEATHER-API-KEY" v).define c!"CITY" u).define p .none) b r env3) (hd : d ≤ 790)
    (hm : d + 10 ≤ m) :
    evalN P H (stdB P L) m (.apply (.symbol c!"set-weather-api-key") [x, y]) env2 w' = (.ok r, env3, w') := by
  cases he.unique (setKey_entered hn)
  rw [Env.get_define, if_pos rfl] at hf
  have hr' : ((env2.define c!"WEATHER-API-KEY" v).define c!"CITY" u).get c!"reload-weather-api" = some (.macro_ p b) := by
    rw [Env.get_define, if_neg (by decide), Env.get_define, if_neg (by decide), hr]
  have h1 := (run_macro (H := H) (P := P) (L := L) (d1 := 1) (yields_symbol hr') yields_none hb).last.block
  have h2 := run_macro (H := H) (P := P) (L := L) (d1 := 1) (yields_macro _ _) (gives_yields hy) h1
  have h3 := run_macro2 (H := H) (P := P) (L := L) (d1 := 1) (yields_symbol hf) (gives_yields hx) (yields_macro _ _) h2
  exact h3.evalN (by omega) (by omega) w'

theorem run_of_block {x v : Expr} (h : Run H P L d env (.do_ [x]) v env1) : Run H P L d env x v env1 := by
  intro n k w hn hk
  have := h n (k + 1) w hn (by omega)
  rw [evalD] at this
  exact this

theorem run_lambda (p : Str) (b : Expr) : ∃ v, Run H P L 1 env (.lambda p b [] []) v env := by
  refine ⟨.lambda p b (closeLambda env p b ⟨[], []⟩).bindings (closeLambda env p b ⟨[], []⟩).parents, fun n k w hn hk => ?_⟩
  obtain ⟨k, rfl, hk⟩ := pos_succ hk
  rw [evalD]
  rfl

/-- C121.  In particular, with the macro of the default prelude, which defines `weather-api` as C118 says and some function
`weather`: afterwards `weather-api` downloads with the key given, in the session of the caller. -/
theorem C121_ready (hn : 4 ≤ n) (he : Entered H P L n w [setKeyText] env env')
    (hf : env2.get c!"set-weather-api-key" = env'.get c!"set-weather-api-key") {x y u : Expr} {key : Str}
    (hx : Gives H P L env2 x (.str key)) (hy : Gives H P L (env2.define c!"WEATHER-API-KEY" (.str key)) y u) {q : Str} {b : Expr}
    (hr : env2.get c!"reload-weather-api" = some (.macro_ c!"_" (.do_ [
      .assign c!"weather-api" (.lambda c!"units" (.lambda c!"city" weatherBody [] []) [] []),
      .assign c!"weather" (.lambda q b [] [])])))
    (hk : Kept weatherNames env2) (h1 : env2.get c!"curl" = none) (h2 : env2.get c!"--silent" = none) (hm : 50 ≤ m) :
    ∃ env3, evalN P H (stdB P L) m (.apply (.symbol c!"set-weather-api-key") [x, y]) env2 w' = (.ok .none, env3, w') ∧
      env3.get c!"WEATHER-API-KEY" = some (.str key) ∧ env3.get c!"CITY" = some u ∧
      (∀ s ∉ [c!"WEATHER-API-KEY", c!"CITY", c!"weather-api", c!"weather", c!"_"], env3.get s = env2.get s) ∧
      ∀ {x' y' units city : Expr} {dir : Str} (w1 : W), Gives H P L env3 x' units → Gives H P L env3 y' city →
        Directory env3 dir → ∃ o w2,
        evalN P H (stdB P L) m (.apply (.symbol c!"weather-api") [x', y']) env3 w1 = (o, env3, w2) ∧
        Downloaded H P L dir (weatherUrl (display P city) (display P units) key) w1 o w2 := by
  have hk' : Kept weatherNames (((env2.define c!"WEATHER-API-KEY" (.str key)).define c!"CITY" u).define c!"_" .none) :=
    ((hk.define (by decide)).define (by decide)).define (by decide)
  obtain ⟨f, hr1, hv⟩ := weather_define (H := H) (P := P) (L := L) (key := .str key) hk'
    (by simp [Unbound, Env.get_define, h1, h2]) (by simp [Env.get_define]) (.inr ⟨key, rfl⟩)
  obtain ⟨g, hg⟩ := run_lambda (H := H) (P := P) (L := L) (env := (((env2.define c!"WEATHER-API-KEY" (.str key)).define
    c!"CITY" u).define c!"_" .none).define c!"weather-api" f) q b
  have hb := ((run_of_block hr1).then_ (hg.assign (x := c!"weather")).last).block
  have hrun := C121_city (w' := w') (m := m) hn he hf hx hy hr hb (by omega) (by omega)
  refine ⟨_, hrun, by simp [Env.get_define], by simp [Env.get_define], fun s hs => ?_, fun {x' y' units city dir} w1 hx' hy' hd => ?_⟩
  · simp only [List.mem_cons, List.not_mem_nil, or_false, not_or] at hs
    obtain ⟨a1, a2, a3, a4, a5⟩ := hs
    simp only [Env.get_define, if_neg (Ne.symm a1), if_neg (Ne.symm a2), if_neg (Ne.symm a3), if_neg (Ne.symm a4),
      if_neg (Ne.symm a5)]
  · obtain ⟨A, ⟨a', b', hab, hA⟩, hc⟩ := acts_call [x', y'] [units, city]
      (.cons (gives_yields hx') (.cons (gives_yields hy') .nil)) (U := [c!"curl", c!"--silent"])
      (by simp [Unbound, Env.get_define, h1, h2]) _ _ _ (yields_symbol (x := c!"weather-api") (v := f) (by simp [Env.get_define])) hv
    cases hab
    rw [directory_iff.mp hd] at hA
    obtain ⟨m, rfl⟩ : ∃ j, m = j + 1 := ⟨m - 1, by omega⟩
    exact ⟨_, _, hc m 801 w1 (by simp; omega) (by simp), (hA w1).2 key rfl⟩

/-- C121.  What the default prelude does: the key is None, and nothing else changes; so `weather-api` is not defined. -/
theorem C121_start (hn : 4 ≤ n) (he : Entered H P L n w [setKeyText] env env') :
    ∃ r env1, runText P (evalN P H (stdB P L) n) noKeyText env' w' = (.ok r, env1, w') ∧
      env1.get c!"WEATHER-API-KEY" = some .none ∧ ∀ s, s ≠ c!"WEATHER-API-KEY" → env1.get s = env'.get s := by
  cases he.unique (setKey_entered hn)
  have hf : (env.define c!"set-weather-api-key" (.macro_ c!"WEATHER-API-KEY" cityMacro)).get c!"set-weather-api-key" =
      some (.macro_ c!"WEATHER-API-KEY" cityMacro) := by rw [Env.get_define, if_pos rfl]
  have h := (setKey_run (H := H) (P := P) (L := L) hf (x := .none) (v := .none) (fun m k w => by rw [evalD]; rfl)).last.block
  exact ⟨_, _, by rw [run_of_parse (noKey_parse P)]; exact h.evalN (by omega) (by decide) w',
    by rw [Env.get_define, if_pos rfl], fun s hs => by rw [Env.get_define, if_neg (Ne.symm hs)]⟩

/-- C121.  After that, `weather-api` is not the function that asks for a key but the name of a program: if there is no such
program, the error says so. -/
theorem C121_no_function (hn : 4 ≤ n) (h0 : env.get c!"weather-api" = none)
    (he : Entered H P L n w [setKeyText] env env') {r : Expr} {w0 : W}
    (hs : runText P (evalN P H (stdB P L) n) noKeyText env' w0 = (.ok r, env1, w0)) (hm : 4 ≤ m) (units city : Str)
    (hio : ∀ args envs, (H.io (.status c!"weather-api" env1.getCwd args envs) w').1 = .err .notFound) :
    (evalN P H (stdB P L) m (.apply (.symbol c!"weather-api") [.str units, .str city]) env1 w').1 =
      .err (.programNotFound c!"weather-api") := by
  obtain ⟨r', env1', h1, -, h3⟩ := C121_start (w' := w0) hn he
  rw [hs] at h1
  cases h1
  have h4 : env1.get c!"weather-api" = none := by
    rw [h3 _ (by decide)]
    cases he.unique (setKey_entered hn)
    rw [Env.get_define, if_neg (by decide), h0]
  obtain ⟨m, rfl⟩ : ∃ j, m = j + 1 := ⟨m - 1, by omega⟩
  have h5 := C30_one_command (P := P) (H := H) (B := bodyRun P H (stdB P L) m) (k := 799) (w := w') h4
    (args := [.str units, .str city]) (vs := [.str units, .str city]) (env' := env1) (w' := w') rfl
  have h6 := congrArg Prod.fst h5
  simp only [hio, commandOutcome] at h6
  exact h6

/-! ### Examples -/

/-- In the demonstration shell, as the default prelude does. -/
example : ∃ env' r env1, Entered Demo.host Demo.plat Demo.lib 9 [] [setKeyText] Demo.env env' ∧
    runText Demo.plat (evalN Demo.plat Demo.host (stdB Demo.plat Demo.lib) 9) noKeyText env' [] = (.ok r, env1, []) ∧
    env1.get c!"WEATHER-API-KEY" = some .none ∧ env1.get c!"weather-api" = none := by
  obtain ⟨env', h, h'⟩ := C121_defines (H := Demo.host) (P := Demo.plat) (L := Demo.lib) (n := 9) (w := []) (env := Demo.env)
    (by decide)
  obtain ⟨r, env1, h1, h2, h3⟩ := C121_start (w' := []) (by decide) h
  exact ⟨env', r, env1, h, h1, h2, by rw [h3 _ (by decide), h' _ (by decide)]; decide +kernel⟩

/-- Where no program exists, the function is not found. -/
example : ∃ env' r env1, Entered Demo.hostNotFound Demo.plat Demo.lib 9 [] [setKeyText] Demo.env env' ∧
    runText Demo.plat (evalN Demo.plat Demo.hostNotFound (stdB Demo.plat Demo.lib) 9) noKeyText env' [] = (.ok r, env1, []) ∧
    (evalN Demo.plat Demo.hostNotFound (stdB Demo.plat Demo.lib) 9
      (.apply (.symbol c!"weather-api") [.str c!"metric", .str c!"Knoxville"]) env1 []).1 =
      .err (.programNotFound c!"weather-api") := by
  obtain ⟨env', h, -⟩ := C121_defines (H := Demo.hostNotFound) (P := Demo.plat) (L := Demo.lib) (n := 9) (w := [])
    (env := Demo.env) (by decide)
  obtain ⟨r, env1, h1, -⟩ := C121_start (w' := []) (by decide) h
  exact ⟨env', r, env1, h, h1, C121_no_function (by decide) (by decide +kernel) h h1 (by decide) _ _ fun _ _ => rfl⟩

/-- With a city, a macro that defines a variable from the key runs. -/
example (env : Env) : ∃ env' env3, Entered Demo.host Demo.plat Demo.lib 9 [] [setKeyText]
      (env.define c!"reload-weather-api" (.macro_ c!"_" (.assign c!"k" (.symbol c!"WEATHER-API-KEY")))) env' ∧
    evalN Demo.plat Demo.host (stdB Demo.plat Demo.lib) 20
      (.apply (.symbol c!"set-weather-api-key") [.str c!"secret", .str c!"Knoxville"]) env' [] = (.ok .none, env3, []) ∧
    env3.get c!"k" = some (.str c!"secret") := by
  obtain ⟨env', h, h'⟩ := C121_defines (H := Demo.host) (P := Demo.plat) (L := Demo.lib) (n := 9) (w := [])
    (env := env.define c!"reload-weather-api" (.macro_ c!"_" (.assign c!"k" (.symbol c!"WEATHER-API-KEY")))) (by decide)
  have hb := (yields_symbol (H := Demo.host) (P := Demo.plat) (L := Demo.lib)
    (env := ((env'.define c!"WEATHER-API-KEY" (.str c!"secret")).define c!"CITY" (.str c!"Knoxville")).define c!"_" .none)
    (x := c!"WEATHER-API-KEY") (v := .str c!"secret") (by simp [Env.get_define])).assign (x := c!"k")
  refine ⟨env', _, h, C121_city (x := .str c!"secret") (y := .str c!"Knoxville") (by decide) h rfl
    (fun m k w => by rw [evalD]; rfl) (fun m k w => by rw [evalD]; rfl)
    (by rw [h' _ (by decide), Env.get_define, if_pos rfl]) hb (by decide) (by decide), ?_⟩
  rw [Env.get_define, if_pos rfl]

/-- With the macro that defines `weather-api` (and a trivial `weather`): the function is there and the city is set. -/
example : ∃ env' env3, Entered Demo.host Demo.plat Demo.lib 9 [] [setKeyText] (Demo.env.define c!"reload-weather-api"
      (.macro_ c!"_" (.do_ [.assign c!"weather-api" (.lambda c!"units" (.lambda c!"city" weatherBody [] []) [] []),
        .assign c!"weather" (.lambda c!"units" .none [] [])]))) env' ∧
    evalN Demo.plat Demo.host (stdB Demo.plat Demo.lib) 50
      (.apply (.symbol c!"set-weather-api-key") [.str c!"secret", .str c!"Knoxville"]) env' [] = (.ok .none, env3, []) ∧
    env3.get c!"CITY" = some (.str c!"Knoxville") ∧
    ∃ o w2, evalN Demo.plat Demo.host (stdB Demo.plat Demo.lib) 50
        (.apply (.symbol c!"weather-api") [.str c!"metric", .str c!"Paris"]) env3 [] = (o, env3, w2) ∧
      Downloaded Demo.host Demo.plat Demo.lib env3.getCwd
        c!"http://api.openweathermap.org/data/2.5/weather?q=Paris&units=metric&appid=secret" [] o w2 := by
  obtain ⟨env', h, h'⟩ := C121_defines (H := Demo.host) (P := Demo.plat) (L := Demo.lib) (n := 9) (w := [])
    (env := Demo.env.define c!"reload-weather-api" (.macro_ c!"_" (.do_ [
      .assign c!"weather-api" (.lambda c!"units" (.lambda c!"city" weatherBody [] []) [] []),
      .assign c!"weather" (.lambda c!"units" .none [] [])]))) (by decide)
  have hg : ∀ s, s ≠ c!"set-weather-api-key" → s ≠ c!"reload-weather-api" → env'.get s = Demo.env.get s := fun s a1 a2 => by
    rw [h' s a1, Env.get_define, if_neg (Ne.symm a2)]
  obtain ⟨env3, h1, -, h3, -, h5⟩ := C121_ready (w' := []) (x := .str c!"secret") (y := .str c!"Knoxville")
    (key := c!"secret") (u := .str c!"Knoxville") (m := 50) (by decide) h rfl
    (fun m k w => by rw [evalD]; rfl) (fun m k w => by rw [evalD]; rfl)
    (by rw [h' _ (by decide), Env.get_define, if_pos rfl])
    ⟨Demo.env, demo_std, fun s hs => hg s (by rintro rfl; revert hs; decide) (by rintro rfl; revert hs; decide)⟩
    (by rw [hg _ (by decide) (by decide)]; decide +kernel) (by rw [hg _ (by decide) (by decide)]; decide +kernel) (by decide)
  exact ⟨env', env3, h, h1, h3, h5 [] (x' := .str c!"metric") (y' := .str c!"Paris") (units := .str c!"metric")
    (city := .str c!"Paris") (fun m k w => by rw [evalD]; rfl) (fun m k w => by rw [evalD]; rfl) (directory_iff.mpr rfl)⟩

end Dune.Props
