import Verif.Model.Weather
import Verif.Props.Pipe
import Verif.Props.Tilde
import Verif.Props.Styles

/-! `weather-api` of the default prelude. -/

namespace Dune.Props

open Spec Calc Prelude Repl

/-! ### Specification -/

/-- The program curl is started once, in the directory `dir`, silent and with this address, reading what the shell
reads; its output is collected, nothing else is done.  If it can be run, the outcome is what `parse@json` says about
the output; else it is a failure. -/
def Downloaded {W : Type} (H : Host W) (P : Plat) (L : Lib) (dir url : Str) (w : W) (o : Outcome Expr) (w' : W) :
    Prop :=
  ∃ vars r, H.io (.stage c!"curl" dir [c!"--silent", url] vars none .piped) w = (r, w') ∧
    ((∃ b v, r = .bytes b ∧ Received b v ∧ ∀ (env0 : Env) (m : Nat) (w0 : W), Std env0 → 3 ≤ m →
        evalN P H (stdB P L) m (call c!"parse" c!"json" [v]) env0 w0 = (o, env0, w0)) ∨
      ((∀ b, r ≠ .bytes b) ∧ ∃ m, o = .err (.customError m)))

/-- The address of the weather in a city. -/
def weatherUrl (city units key : Str) : Str :=
  c!"http://api.openweathermap.org/data/2.5/weather?q=" ++ city ++ c!"&units=" ++ units ++ c!"&appid=" ++ key

/-- What is said to a user without a key. -/
def noKey : Str :=
  inStyle c!"3" (inStyle c!"91"
    c!"Please set your `openweathermap.org` API key with the `set-weather-api-key` macro!") ++ c!"\n"

/-- The text is printed, nothing else is done. -/
def JustPrints {W : Type} (H : Host W) (s : Str) (w : W) (o : Outcome Expr) (w' : W) : Prop :=
  ∃ r, H.io (.print s) w = (r, w') ∧ ((∀ e, r ≠ .err e) → o = .ok .none)

/-- The names that the definition uses. -/
def weatherNames : List Str := [c!"str", c!"+", c!"==", c!"|", c!"@", c!"parse", c!"fmt", c!"echo"]

/-! ### Proofs -/

/-- the address in the text -/
def urlBody : Expr :=
  plus (plus (plus (plus (plus (.symbol c!"BASE_URL") (strOf c!"city")) (.str c!"&units=")) (strOf c!"units"))
    (.str c!"&appid=")) (strOf c!"WEATHER-API-KEY")

/-- the message in the text -/
def noKeyBody : Expr :=
  .apply (.symbol c!"echo") [.group (call c!"fmt" c!"italics" [.group (call c!"fmt" c!"red"
    [.str c!"Please set your `openweathermap.org` API key with the `set-weather-api-key` macro!"])])]

/-- the download in the text -/
def curlBody : Expr :=
  .apply (.symbol c!"|") [.apply (.symbol c!"curl") [.symbol c!"--silent", .symbol c!"URL"],
    .apply (.symbol c!"@") [.symbol c!"parse", .symbol c!"json"]]

/-- the body of `weather-api` -/
def weatherBody : Expr :=
  .do_ [.ite (infix_ c!"==" (.symbol c!"WEATHER-API-KEY") .none) (.do_ [noKeyBody])
    (.group (.do_ [.assign c!"BASE_URL" (.str c!"http://api.openweathermap.org/data/2.5/weather?q="),
      .assign c!"URL" urlBody, .group curlBody]))]

theorem weather_parse (P : Plat) : parseText P weatherApiText =
    .ok (.do_ [.assign c!"weather-api" (.lambda c!"units" (.lambda c!"city" weatherBody [] []) [] [])]) := by kernel_rfl

section

variable {W : Type} {H : Host W} {P : Plat} {L : Lib} {d d1 d2 : Nat}

theorem acts_group {env : Env} {e : Expr} {A : W → Outcome Expr × W} (h : Acts H P L d env e A) :
    Acts H P L (d + 1) env (.group e) A := by
  intro n k w hn hk
  obtain ⟨k, rfl, hk⟩ := pos_succ hk
  rw [evalD]
  exact h n k w (by omega) (by omega)

theorem acts_ite {env : Env} {c t e : Expr} {b : Bool} {A : W → Outcome Expr × W} (hc : Yields H P L d env c (.bool b))
    (h : Acts H P L d1 env (if b then t else e) A) : Acts H P L (max d d1 + 1) env (.ite c t e) A := by
  intro n k w hn hk
  obtain ⟨k, rfl, hk⟩ := pos_succ hk
  obtain ⟨env', he⟩ := h n k w (by omega) (by omega)
  refine ⟨env', ?_⟩
  rw [evalD]
  simp only [evalStep]
  rw [M.bind_ok (hc n k w (by omega) (by omega))]
  cases b <;> exact he

theorem acts_after {env env1 : Env} {e1 v1 e : Expr} {es : List Expr} {A : W → Outcome Expr × W}
    (h : Run H P L d env e1 v1 env1) (h' : Acts H P L (d1 + 1) env1 (.do_ (e :: es)) A) :
    Acts H P L (max d d1 + 1) env (.do_ (e1 :: e :: es)) A := by
  intro n k w hn hk
  obtain ⟨env', he⟩ := h' n k w (by omega) (by omega)
  obtain ⟨k, rfl, hk⟩ := pos_succ hk
  refine ⟨env', ?_⟩
  rw [evalD] at he ⊢
  simp only [evalStep] at he ⊢
  rw [evalDo, M.bind_ok (h n k w (by omega) (by omega))]
  exact he

theorem received_textOrBytes (b : List UInt8) : Received b (Builtins.textOrBytes b) := by
  obtain ⟨v, hv⟩ := received_exists b
  rw [(wire_received (P := Demo.plat) hv).1]
  exact hv

theorem received_self {b : List UInt8} {v : Expr} (h : Received b v) (env : Env) : Yields H P L 1 env v v := by
  intro n k w _ hk
  obtain ⟨k, rfl, -⟩ := pos_succ hk
  cases h <;> rfl

/-- what `parse@json` makes of a value -/
def jsonOutcome (P : Plat) (L : Lib) (v : Expr) : Outcome Expr :=
  if (display P v).isEmpty then .ok .none
  else match L.json (display P v) with
    | some j => .ok (Builtins.jsonToExpr P j)
    | none => .err (.customError (c!"could not parse `" ++ display P v ++ c!"` as JSON"))

theorem run_json {ev : Expr → M W Expr} {env : Env} {v : Expr} {w : W} (h : ev v env w = (.ok v, env, w)) :
    (stdB P L .pJson [v]).run H ev env w = (jsonOutcome P L v, env, w) := by
  brun [Builtins.jsonB, h, jsonOutcome]
  split
  · rfl
  · cases L.json (display P v) <;> rfl

/-- the action of the download -/
def curlAct (H : Host W) (P : Plat) (L : Lib) (dir url : Str) (vars : BMap Str) (w : W) : Outcome Expr × W :=
  let q := H.io (.stage c!"curl" dir [c!"--silent", url] vars none .piped) w
  (match q.1 with
    | .bytes b => jsonOutcome P L (Builtins.textOrBytes b)
    | .stageErr .spawn => .err (.customError (c!"could not spawn process `" ++
        display P (.apply (.symbol c!"curl") [.symbol c!"--silent", .symbol c!"URL"]) ++ c!"`"))
    | .stageErr .pipe => .err (.customError (c!"error when piping into process `" ++
        display P (.apply (.symbol c!"curl") [.symbol c!"--silent", .symbol c!"URL"]) ++ c!"`"))
    | _ => .err (.customError (c!"error when waiting for process `" ++
        display P (.apply (.symbol c!"curl") [.symbol c!"--silent", .symbol c!"URL"]) ++ c!"`")), q.2)

theorem acts_curl {env : Env} {url : Str} {tbl : List (Str × Expr)}
    (h1 : env.get c!"|" = some (.builtin c!"|" .pipe []))
    (h3 : env.get c!"@" = some (.builtin c!"@" .index [])) (h4 : env.get c!"parse" = some (.map tbl))
    (h5 : BMap.get? tbl c!"json" = some (.builtin c!"json" .pJson []))
    (hu : env.get c!"URL" = some (.str url)) (hU : Unbound env [c!"curl", c!"--silent"]) :
    Acts H P L 9 env curlBody (curlAct H P L env.getCwd url (exportBindings P env.bindings)) := by
  intro n k w hn hk
  obtain ⟨k, rfl⟩ : ∃ j, k = j + 3 := ⟨k - 3, by omega⟩
  obtain ⟨n, rfl⟩ : ∃ j, n = j + 3 := ⟨n - 3, by omega⟩
  refine ⟨env, ?_⟩
  have hm : Yields H P L 3 env (.apply (.symbol c!"@") [.symbol c!"parse", .symbol c!"json"])
      (.builtin c!"json" .pJson []) := yields_member h3 (yields_symbol h4) (by decide) h5
  have hB : ∀ (v : Expr) (w : W), Yields H P L 1 env v v → evalN P H (stdB P L) (n + 3)
      (.apply (.apply (.symbol c!"@") [.symbol c!"parse", .symbol c!"json"]) [v]) env w =
      (jsonOutcome P L v, env, w) := by
    intro v w hv
    rw [evalN_unfold]
    simp only [evalStep]
    rw [M.bind_ok (hm (n + 2) 800 w (by omega) (by omega))]
    exact run_json (hv.evalN (by omega) (by decide) w)
  have hn : Names env (.apply (.symbol c!"curl") [.symbol c!"--silent", .symbol c!"URL"]) c!"curl" _ :=
    .app (hU _ (by simp))
  have hr : Rendered P (evalN P H (stdB P L) (n + 3)) env [.symbol c!"--silent", .symbol c!"URL"]
      [c!"--silent", url] :=
    .cons (by simp) (fun w => (yields_unbound (hU _ (by simp))).evalN (by omega) (by decide) w)
      (.cons (by simp) (fun w => (yields_symbol hu).evalN (by omega) (by decide) w) .nil)
  have hnot : ¬ ∃ name args, Names env (.apply (.symbol c!"@") [.symbol c!"parse", .symbol c!"json"]) name args := by
    rintro ⟨name, args, h⟩
    cases h with
    | app h => simp [h3] at h
    | appAlias h => simp [h3] at h
  rw [curlBody, evalD]
  simp only [evalStep]
  rw [M.bind_ok (evalD_symbol h1)]
  simp only [applyValue, bodyRun]
  show ((Builtins.pipeB P _).run H _) env w = _
  rw [Builtins.pipeB, if_neg (by simp), pipeLoop_cons, BProg.run_bind, M.bind_ok (run_exprToCommand hn hr w)]
  simp only [List.isEmpty_cons, if_true, Bool.false_eq_true, if_false]
  rw [BProg.run_bind, BProg.run_ask]
  unfold curlAct
  rcases hq : H.io (.stage c!"curl" env.getCwd [c!"--silent", url] (exportBindings P env.bindings) none .piped) w
    with ⟨q, w2⟩
  rw [M.bind_ok (show M.io H _ env w = (.ok q, env, w2) by rw [M.io, hq])]
  cases q with
  | bytes b =>
    simp only
    rw [pipeLoop_cons, BProg.run_bind, M.bind_ok (run_notCommand hnot w2)]
    simp only [Bool.false_eq_true, if_false]
    rw [BProg.run_bind, BProg.run_ev]
    have := hB (Builtins.textOrBytes b) w2 (received_self (received_textOrBytes b) env)
    rw [M.bind_def, this]
    cases jsonOutcome P L (Builtins.textOrBytes b) <;> rfl
  | stageErr x => cases x <;> rfl
  | _ => rfl

theorem curl_downloads {dir url : Str} {vars : BMap Str} (w : W) :
    Downloaded H P L dir url w (curlAct H P L dir url vars w).1 (curlAct H P L dir url vars w).2 := by
  refine ⟨vars, _, rfl, ?_⟩
  simp only [curlAct]
  generalize (H.io (.stage c!"curl" dir [c!"--silent", url] vars none .piped) w).1 = r
  cases r with
  | bytes b =>
    refine .inl ⟨b, _, rfl, received_textOrBytes b, fun env0 m w0 hs hm => ?_⟩
    obtain ⟨m, rfl⟩ : ∃ j, m = j + 3 := ⟨m - 3, by omega⟩
    lib hs, Init.parseM
    rw [evalN_builtin]
    exact run_json ((received_self (H := H) (P := P) (L := L) (received_textOrBytes b) env0).evalN (n := m + 2) (by omega) (by decide) w0)
  | stageErr x => cases x <;> exact .inr ⟨by simp, _, rfl⟩
  | _ => exact .inr ⟨by simp, _, rfl⟩

theorem yields_isNone {env : Env} {x : Str} {v : Expr} (hf : env.get c!"==" = some (.builtin c!"==" .eq []))
    (hx : env.get x = some v) {b : Bool} (hv : v = .none ∧ b = true ∨ (∃ s, v = .str s) ∧ b = false) :
    Yields H P L 4 env (infix_ c!"==" (.symbol x) .none) (.bool b) := by
  refine Run.group (yields_builtin2 hf (yields_symbol hx) yields_none ?_ ?_ (by decide))
  · rcases hv with ⟨rfl, rfl⟩ | ⟨⟨s, rfl⟩, rfl⟩
    · exact yields_none
    · exact yields_str s
  intro ev0 h1 h2 h3 w
  simp only [stdB, Builtins.cmpB, Builtins.evArg, Builtins.arg, List.getElem?_cons_succ,
        List.getElem?_cons_zero, BProg.run_bind, BProg.run_ret, pure_bind, BProg.run_ev]
  rw [M.bind_ok (h1 w), M.bind_ok (h2 w)]
  rcases hv with ⟨rfl, rfl⟩ | ⟨⟨s, rfl⟩, rfl⟩ <;> simp [Expr.beq]

/-- the action of the message -/
def printAct (H : Host W) (s : Str) (w : W) : Outcome Expr × W :=
  (match (H.io (.print s) w).1 with
    | .err _ => .panic
    | _ => .ok .none, (H.io (.print s) w).2)

theorem prints_action {s : Str} (w : W) : JustPrints H s w (printAct H s w).1 (printAct H s w).2 := by
  refine ⟨_, rfl, fun h => ?_⟩
  simp only [printAct]

theorem yields_style {env : Env} {f code : Str} {x v : Expr} {tbl : List (Str × Expr)}
    (h1 : env.get c!"@" = some (.builtin c!"@" .index [])) (h2 : env.get c!"fmt" = some (.map tbl))
    (h3 : BMap.get? tbl f = some (.builtin f (.tStyle code) [])) (hd : d ≤ 700) (hx : Yields H P L d env x v) :
    Yields H P L (d + 6) env (.group (call c!"fmt" f [x])) (.str (inStyle code (display P v))) := by
  refine Run.mono (Run.group (d := d + 5) ?_) (by omega)
  intro n k w hn hk
  obtain ⟨k, rfl⟩ : ∃ j, k = j + 5 := ⟨k - 5, by omega⟩
  have hm : Yields H P L 3 env (.apply (.symbol c!"@") [.symbol c!"fmt", .symbol f])
      (.builtin f (.tStyle code) []) := yields_member h1 (yields_symbol h2) (by decide) h3
  rw [evalD]
  simp only [evalStep]
  rw [M.bind_ok (hm n (k + 4) w (by omega) (by omega))]
  exact run_style [] (hx.evalN (by omega) (by omega) w)

theorem acts_noKey {env : Env} {tbl : List (Str × Expr)}
    (h1 : env.get c!"@" = some (.builtin c!"@" .index [])) (h2 : env.get c!"fmt" = some (.map tbl))
    (h3 : BMap.get? tbl c!"italics" = some (.builtin c!"italics" (.tStyle c!"3") []))
    (h4 : BMap.get? tbl c!"red" = some (.builtin c!"red" (.tStyle c!"91") []))
    (h5 : env.get c!"echo" = some (.builtin c!"println" .println [])) :
    Acts H P L 20 env noKeyBody (printAct H noKey) := by
  intro n k w hn hk
  obtain ⟨k, rfl⟩ : ∃ j, k = j + 2 := ⟨k - 2, by omega⟩
  refine ⟨env, ?_⟩
  have hy := yields_style (H := H) (P := P) (L := L) h1 h2 h3 (by decide) (yields_style h1 h2 h4 (by decide)
    (yields_str c!"Please set your `openweathermap.org` API key with the `set-weather-api-key` macro!"))
  rw [noKeyBody, evalD]
  simp only [evalStep]
  rw [M.bind_ok (evalD_symbol h5)]
  simp only [applyValue, bodyRun]
  show ((Builtins.printLoop (display P) c!"\n" _).run H _) env w = _
  rw [Builtins.printLoop, BProg.run_bind, BProg.run_ev, M.bind_ok (hy.evalN (by omega) (by decide) w), BProg.run_bind,
    Builtins.out, BProg.run_bind, BProg.run_ask]
  unfold printAct
  show (M.io H (.print noKey) >>= _ >>= _) env w = _
  rcases hq : H.io (.print noKey) w with ⟨q, w2⟩
  cases q <;> simp [M.bind_def, M.io, hq] <;> rfl

variable {n m : Nat} {w w' : W} {env env' env2 : Env}

/-- what `weather-api` does with a key -/
def weatherSpec (H : Host W) (P : Plat) (L : Lib) (key : Expr) (as : List Expr) (cwd : Str)
    (A : W → Outcome Expr × W) : Prop :=
  ∃ a b, as = [a, b] ∧ ∀ w,
    (key = .none → JustPrints H noKey w (A w).1 (A w).2) ∧
    ∀ s, key = .str s → Downloaded H P L cwd (weatherUrl (display P b) (display P a) s) w (A w).1 (A w).2

theorem weather_define {key : Expr} (hk : Kept weatherNames env) (hu : Unbound env [c!"curl", c!"--silent"])
    (hkey : env.get c!"WEATHER-API-KEY" = some key) (hkv : key = .none ∨ ∃ s, key = .str s) :
    ∃ v, Run H P L 3 env (.do_ [.assign c!"weather-api" (curried [c!"units", c!"city"] weatherBody)]) .none
        (env.define c!"weather-api" v) ∧
      IsAct H P L 40 [c!"curl", c!"--silent"] 2 (weatherSpec H P L key) v := by
  obtain ⟨env0, hs, hk0⟩ := id hk
  obtain ⟨t1, ht1, ht1'⟩ := hs.mod (c!"parse", Init.parseM) (by mem_tac)
  obtain ⟨t2, ht2, ht2'⟩ := hs.mod (c!"fmt", Init.fmtM) (by mem_tac)
  have j1 := ht1' (c!"json", .builtin c!"json" .pJson []) (by mem_tac)
  have j2 := ht2' (c!"italics", .builtin c!"italics" (.tStyle c!"3") []) (by mem_tac)
  have j3 := ht2' (c!"red", .builtin c!"red" (.tStyle c!"91") []) (by mem_tac)
  have hp : env.get c!"parse" = some (.map t1) := (hk0 _ (by simp [weatherNames])).trans ht1
  have hf : env.get c!"fmt" = some (.map t2) := (hk0 _ (by simp [weatherNames])).trans ht2
  refine run_define_act (K := [(c!"str", .builtin c!"str" .str []), (c!"+", .builtin c!"+" .add []),
    (c!"==", .builtin c!"==" .eq []), (c!"|", .builtin c!"|" .pipe []), (c!"@", .builtin c!"@" .index []),
    (c!"parse", .map t1), (c!"fmt", .map t2), (c!"echo", .builtin c!"println" .println []),
    (c!"WEATHER-API-KEY", key)]) (by decide) (by decide) (by decide) ?_ ?_ (by decide) hu ?_
  · intro q hq
    have : ∀ s ∈ [c!"str", c!"+", c!"==", c!"|", c!"@", c!"parse", c!"fmt", c!"echo", c!"WEATHER-API-KEY"],
        Mentions weatherBody s ∧ s ∉ [c!"units", c!"city"] ∧ s ≠ c!"CWD" := by decide
    refine this q.1 ?_
    have := List.mem_map_of_mem (f := Prod.fst) hq
    simpa using this
  · intro q hq
    simp only [List.mem_cons, List.not_mem_nil, or_false] at hq
    rcases hq with rfl | rfl | rfl | rfl | rfl | rfl | rfl | rfl | rfl
    · exact hk.top (by simp [weatherNames]) (by mem_tac)
    · exact hk.op (by simp [weatherNames]) (by mem_tac)
    · exact hk.op (by simp [weatherNames]) (by mem_tac)
    · exact hk.op (by simp [weatherNames]) (by mem_tac)
    · exact hk.op (by simp [weatherNames]) (by mem_tac)
    · exact hp
    · exact hf
    · exact hk.top (by simp [weatherNames]) (by mem_tac)
    · exact hkey
  · intro env as hl hs hU
    obtain ⟨a, b, rfl⟩ : ∃ a b, as = [a, b] := by
      match as, hl with
      | [a, b], _ => exact ⟨a, b, rfl⟩
    have h1 := hs (c!"str", .builtin c!"str" .str []) (by simp)
    have h2 := hs (c!"+", .builtin c!"+" .add []) (by simp)
    have h3 := hs (c!"==", .builtin c!"==" .eq []) (by simp)
    have h4 := hs (c!"|", .builtin c!"|" .pipe []) (by simp)
    have h5 := hs (c!"@", .builtin c!"@" .index []) (by simp)
    have h6 := hs (c!"parse", .map t1) (by simp)
    have h7 := hs (c!"fmt", .map t2) (by simp)
    have h8 := hs (c!"echo", .builtin c!"println" .println []) (by simp)
    have h9 := hs (c!"WEATHER-API-KEY", key) (by simp)
    have h10 := hs (c!"units", a) (by simp)
    have h11 := hs (c!"city", b) (by simp)
    rcases hkv with rfl | ⟨s, rfl⟩
    · have hc := yields_isNone (H := H) (P := P) (L := L) h3 h9 (.inl ⟨rfl, rfl⟩)
      refine ⟨printAct H noKey, ⟨a, b, rfl, fun w => ⟨fun _ => prints_action w, by simp⟩⟩,
        ((acts_ite hc ((acts_noKey h5 h7 j2 j3 h8).block)).block).mono (by decide)⟩
    · have hc := yields_isNone (H := H) (P := P) (L := L) h3 h9 (.inr ⟨⟨s, rfl⟩, rfl⟩)
      let base := c!"http://api.openweathermap.org/data/2.5/weather?q="
      let env1 := env.define c!"BASE_URL" (.str base)
      let env2 := env1.define c!"URL" (.str (weatherUrl (display P b) (display P a) s))
      have k1 : ∀ {x v}, x ≠ c!"BASE_URL" → env.get x = v → env1.get x = v := by
        intro x v hx h
        rw [Env.get_define, if_neg (Ne.symm hx), h]
      have k2 : ∀ {x v}, x ≠ c!"BASE_URL" → x ≠ c!"URL" → env.get x = v → env2.get x = v := by
        intro x v hx hx' h
        rw [Env.get_define, if_neg (Ne.symm hx'), k1 hx h]
      have hcwd : env2.getCwd = env.getCwd := by
        unfold Env.getCwd
        rw [k2 (x := cwdVar) (by decide) (by decide) rfl]
      have hurl : Yields H P L 21 env1 urlBody (.str (weatherUrl (display P b) (display P a) s)) := by
        have e1 := k1 (by decide) h1
        have e2 := k1 (by decide) h2
        have hb : env1.get c!"BASE_URL" = some (.str base) := by rw [Env.get_define, if_pos rfl]
        exact Run.mono (yields_concat e2 (yields_concat e2 (yields_concat e2 (yields_concat e2 (yields_concat e2
          (yields_symbol hb) (yields_strOf e1 (k1 (by decide) h11)) (by decide)) (yields_str c!"&units=") (by decide))
          (yields_strOf e1 (k1 (by decide) h10)) (by decide)) (yields_str c!"&appid=") (by decide))
          (yields_strOf e1 (k1 (x := c!"WEATHER-API-KEY") (by decide) h9)) (by decide)) (by decide)
      have hU2 : Unbound env2 [c!"curl", c!"--silent"] := by
        intro u hu
        refine k2 ?_ ?_ (hU u hu) <;>
        · simp only [List.mem_cons, List.not_mem_nil, or_false] at hu
          rcases hu with rfl | rfl <;> decide
      have hA := acts_curl (H := H) (P := P) (L := L) (k2 (by decide) (by decide) h4) (k2 (by decide) (by decide) h5)
        (k2 (by decide) (by decide) h6) j1 (by rw [Env.get_define, if_pos rfl]) hU2
      rw [hcwd] at hA
      refine ⟨_, ⟨a, b, rfl, fun w => ⟨by simp, ?_⟩⟩, ((acts_ite hc (acts_group (acts_after (Run.assign (yields_str base))
        (acts_after (Run.assign hurl) (acts_group hA).block)))).block).mono (by decide)⟩
      rintro _ ⟨⟩
      exact curl_downloads w

/-- C118.  Entering the definition of `weather-api` changes only this name. -/
theorem C118_defines {key : Expr} (hk : Kept weatherNames env) (h1 : env.get c!"curl" = none)
    (h2 : env.get c!"--silent" = none) (hkey : env.get c!"WEATHER-API-KEY" = some key)
    (hkv : key = .none ∨ ∃ s, key = .str s) (hn : 4 ≤ n) :
    ∃ env', Entered H P L n w [weatherApiText] env env' ∧ ∀ s, s ≠ c!"weather-api" → env'.get s = env.get s := by
  obtain ⟨v, hr, -⟩ := weather_define (H := H) (P := P) (L := L) hk (by simp [Unbound, h1, h2]) hkey hkv
  exact ⟨_, enter_text (weather_parse P) hr hn (.nil _), fun s hs => by rw [Env.get_define, if_neg (Ne.symm hs)]⟩

theorem weather_call {key : Expr} (hk : Kept weatherNames env) (h1 : env.get c!"curl" = none)
    (h2 : env.get c!"--silent" = none) (hkey : env.get c!"WEATHER-API-KEY" = some key)
    (hkv : key = .none ∨ ∃ s, key = .str s) (hn : 4 ≤ n) (he : Entered H P L n w [weatherApiText] env env')
    (hf : env2.get c!"weather-api" = env'.get c!"weather-api") (h3 : env2.get c!"curl" = none)
    (h4 : env2.get c!"--silent" = none) (hm : 43 ≤ m) {x y a b : Expr} (hx : Gives H P L env2 x a)
    (hy : Gives H P L env2 y b) :
    ∃ A, weatherSpec H P L key [a, b] env2.getCwd A ∧ ∀ w',
      evalN P H (stdB P L) m (.apply (.symbol c!"weather-api") [x, y]) env2 w' = ((A w').1, env2, (A w').2) := by
  obtain ⟨v, hr, hv⟩ := weather_define (H := H) (P := P) (L := L) hk (by simp [Unbound, h1, h2]) hkey hkv
  cases he.unique (enter_text (weather_parse P) hr hn (.nil _))
  rw [Env.get_define, if_pos rfl] at hf
  obtain ⟨A, hA, hc⟩ := acts_call [x, y] [a, b] (.cons (gives_yields hx) (.cons (gives_yields hy) .nil))
    (U := [c!"curl", c!"--silent"]) (by simp [Unbound, h3, h4]) _ _ _ (yields_symbol hf) hv
  obtain ⟨m, rfl⟩ : ∃ j, m = j + 1 := ⟨m - 1, by omega⟩
  exact ⟨A, hA, fun w' => hc m 801 w' (by simp; omega) (by simp)⟩

/-- C118.  With the key `s`, `weather-api units city` starts curl once for the address with the city, the units and the
key, and is what `parse@json` makes of the answer; the key is the one at the time of the definition, also if the
variable, or a function that the definition uses, has another meaning now.  No variable of the caller changes. -/
theorem C118_download {s : Str} (hk : Kept weatherNames env) (h1 : env.get c!"curl" = none)
    (h2 : env.get c!"--silent" = none) (hkey : env.get c!"WEATHER-API-KEY" = some (.str s)) (hn : 4 ≤ n)
    (he : Entered H P L n w [weatherApiText] env env') (hf : env2.get c!"weather-api" = env'.get c!"weather-api")
    (h3 : env2.get c!"curl" = none) (h4 : env2.get c!"--silent" = none) (hm : 43 ≤ m) {x y a b : Expr}
    (hx : Gives H P L env2 x a) (hy : Gives H P L env2 y b) {d : Str} (hd : Directory env2 d) :
    ∃ o w1, evalN P H (stdB P L) m (.apply (.symbol c!"weather-api") [x, y]) env2 w' = (o, env2, w1) ∧
      Downloaded H P L d (weatherUrl (display P b) (display P a) s) w' o w1 := by
  obtain ⟨A, ⟨a', b', hab, hA⟩, hc⟩ := weather_call hk h1 h2 hkey (.inr ⟨s, rfl⟩) hn he hf h3 h4 hm hx hy
  cases hab
  rw [directory_iff.mp hd] at hA
  exact ⟨_, _, hc w', (hA w').2 s rfl⟩

/-- C118.  Without a key (`None`) a message in red italics is printed, no program is started and nothing else is done. -/
theorem C118_no_key (hk : Kept weatherNames env) (h1 : env.get c!"curl" = none)
    (h2 : env.get c!"--silent" = none) (hkey : env.get c!"WEATHER-API-KEY" = some .none) (hn : 4 ≤ n)
    (he : Entered H P L n w [weatherApiText] env env') (hf : env2.get c!"weather-api" = env'.get c!"weather-api")
    (h3 : env2.get c!"curl" = none) (h4 : env2.get c!"--silent" = none) (hm : 43 ≤ m) {x y a b : Expr}
    (hx : Gives H P L env2 x a) (hy : Gives H P L env2 y b) :
    ∃ o w1, evalN P H (stdB P L) m (.apply (.symbol c!"weather-api") [x, y]) env2 w' = (o, env2, w1) ∧
      JustPrints H noKey w' o w1 := by
  obtain ⟨A, ⟨a', b', hab, hA⟩, hc⟩ := weather_call hk h1 h2 hkey (.inl rfl) hn he hf h3 h4 hm hx hy
  cases hab
  exact ⟨_, _, hc w', (hA w').1 rfl⟩

/-- C118.  Contrary to what a user expects, the city is not encoded: a city whose name has a space (`New York`) makes an
address with a space in it, which is not an address. -/
theorem C118_encoding_refuted {s t t' : Str} (hk : Kept weatherNames env) (h1 : env.get c!"curl" = none)
    (h2 : env.get c!"--silent" = none) (hkey : env.get c!"WEATHER-API-KEY" = some (.str s)) (hn : 4 ≤ n)
    (he : Entered H P L n w [weatherApiText] env env') (hf : env2.get c!"weather-api" = env'.get c!"weather-api")
    (h3 : env2.get c!"curl" = none) (h4 : env2.get c!"--silent" = none) (hm : 43 ≤ m) {x a : Expr}
    (hx : Gives H P L env2 x a) {d : Str} (hd : Directory env2 d) :
    ∃ o w1 url, evalN P H (stdB P L) m (.apply (.symbol c!"weather-api") [x, .str (t ++ ' ' :: t')]) env2 w' =
      (o, env2, w1) ∧ Downloaded H P L d url w' o w1 ∧ ' ' ∈ url := by
  obtain ⟨o, w1, h, hD⟩ := C118_download (w' := w') (y := .str (t ++ ' ' :: t')) (b := .str (t ++ ' ' :: t')) hk h1 h2
    hkey hn he hf h3 h4 hm hx (fun m k w => by rw [evalD]; rfl) hd
  exact ⟨o, w1, _, h, hD, by simp [weatherUrl, display_str]⟩

/-- C118.  And a part of the city can take the place of another parameter: two different questions ask for the same
address. -/
theorem C118_ambiguous_refuted {s city u1 u2 : Str} (hk : Kept weatherNames env) (h1 : env.get c!"curl" = none)
    (h2 : env.get c!"--silent" = none) (hkey : env.get c!"WEATHER-API-KEY" = some (.str s)) (hn : 4 ≤ n)
    (he : Entered H P L n w [weatherApiText] env env') (hf : env2.get c!"weather-api" = env'.get c!"weather-api")
    (h3 : env2.get c!"curl" = none) (h4 : env2.get c!"--silent" = none) (hm : 43 ≤ m) {d : Str}
    (hd : Directory env2 d) :
    ∃ url o w1 o' w1', evalN P H (stdB P L) m
        (.apply (.symbol c!"weather-api") [.str u2, .str (city ++ c!"&units=" ++ u1)]) env2 w' = (o, env2, w1) ∧
      Downloaded H P L d url w' o w1 ∧
      evalN P H (stdB P L) m
        (.apply (.symbol c!"weather-api") [.str (u1 ++ c!"&units=" ++ u2), .str city]) env2 w' = (o', env2, w1') ∧
      Downloaded H P L d url w' o' w1' := by
  have hg : ∀ t : Str, Gives H P L env2 (.str t) (.str t) := fun t m k w => by rw [evalD]; rfl
  obtain ⟨o, w1, h, hD⟩ := C118_download (w' := w') hk h1 h2 hkey hn he hf h3 h4 hm (hg u2)
    (hg (city ++ c!"&units=" ++ u1)) hd
  obtain ⟨o', w1', h', hD'⟩ := C118_download (w' := w') hk h1 h2 hkey hn he hf h3 h4 hm (hg (u1 ++ c!"&units=" ++ u2))
    (hg city) hd
  have e : weatherUrl (city ++ c!"&units=" ++ u1) u2 s = weatherUrl city (u1 ++ c!"&units=" ++ u2) s := by
    simp [weatherUrl]
  simp only [display_str, e] at hD hD'
  exact ⟨_, o, w1, o', w1', h, hD, h', hD'⟩

end

/-! ### Instances -/

/-- With the key `k`, after the variable was changed: `weather-api metric "New York"`. -/
example : ∃ env', Entered Demo.host Demo.plat Demo.lib 9 [] [weatherApiText]
      (Demo.env.define c!"WEATHER-API-KEY" (.str c!"k")) env' ∧
    ∃ o w1, evalN Demo.plat Demo.host (stdB Demo.plat Demo.lib) 43
        (.apply (.symbol c!"weather-api") [.str c!"metric", .str c!"New York"])
        (env'.define c!"WEATHER-API-KEY" .none) [] = (o, env'.define c!"WEATHER-API-KEY" .none, w1) ∧
      Downloaded Demo.host Demo.plat Demo.lib (env'.define c!"WEATHER-API-KEY" .none).getCwd
        c!"http://api.openweathermap.org/data/2.5/weather?q=New York&units=metric&appid=k" [] o w1 := by
  have hk := (kept_of_std demo_std weatherNames).define (x := c!"WEATHER-API-KEY") (v := .str c!"k")
    (by simp [weatherNames])
  have ho : ∀ x, x ≠ c!"WEATHER-API-KEY" → Demo.env.get x = none →
      (Demo.env.define c!"WEATHER-API-KEY" (.str c!"k")).get x = none := fun x hx h => by
    rw [Env.get_define, if_neg (Ne.symm hx), h]
  obtain ⟨env', h, h'⟩ := C118_defines (H := Demo.host) (P := Demo.plat) (L := Demo.lib) (n := 9) (w := []) hk
    (ho _ (by decide) (by decide +kernel)) (ho _ (by decide) (by decide +kernel)) (by rw [Env.get_define, if_pos rfl])
    (.inr ⟨_, rfl⟩) (by decide)
  refine ⟨env', h, ?_⟩
  exact C118_download (a := .str c!"metric") (b := .str c!"New York") (s := c!"k") hk
    (ho _ (by decide) (by decide +kernel)) (ho _ (by decide) (by decide +kernel)) (by rw [Env.get_define, if_pos rfl])
    (by decide) h ((Env.get_define ..).trans (if_neg (by decide)))
    ((Env.get_define ..).trans ((if_neg (by decide)).trans ((h' _ (by decide)).trans
      (ho _ (by decide) (by decide +kernel)))))
    ((Env.get_define ..).trans ((if_neg (by decide)).trans ((h' _ (by decide)).trans
      (ho _ (by decide) (by decide +kernel)))))
    (by decide) (fun m k w => by rw [evalD]; rfl) (fun m k w => by rw [evalD]; rfl) (directory_iff.mpr rfl)

/-- Without a key: `weather-api metric Knoxville`. -/
example : ∃ env', Entered Demo.host Demo.plat Demo.lib 9 [] [weatherApiText]
      (Demo.env.define c!"WEATHER-API-KEY" .none) env' ∧
    ∃ o w1, evalN Demo.plat Demo.host (stdB Demo.plat Demo.lib) 43
        (.apply (.symbol c!"weather-api") [.str c!"metric", .str c!"Knoxville"]) env' [] = (o, env', w1) ∧
      JustPrints Demo.host noKey [] o w1 := by
  have hk := (kept_of_std demo_std weatherNames).define (x := c!"WEATHER-API-KEY") (v := .none)
    (by simp [weatherNames])
  have ho : ∀ x, x ≠ c!"WEATHER-API-KEY" → Demo.env.get x = none →
      (Demo.env.define c!"WEATHER-API-KEY" .none).get x = none := fun x hx h => by
    rw [Env.get_define, if_neg (Ne.symm hx), h]
  obtain ⟨env', h, h'⟩ := C118_defines (H := Demo.host) (P := Demo.plat) (L := Demo.lib) (n := 9) (w := []) hk
    (ho _ (by decide) (by decide +kernel)) (ho _ (by decide) (by decide +kernel)) (by rw [Env.get_define, if_pos rfl])
    (.inl rfl) (by decide)
  refine ⟨env', h, ?_⟩
  exact C118_no_key (a := .str c!"metric") (b := .str c!"Knoxville") hk
    (ho _ (by decide) (by decide +kernel)) (ho _ (by decide) (by decide +kernel)) (by rw [Env.get_define, if_pos rfl])
    (by decide) h rfl
    ((h' _ (by decide)).trans (ho _ (by decide) (by decide +kernel)))
    ((h' _ (by decide)).trans (ho _ (by decide) (by decide +kernel)))
    (by decide) (fun m k w => by rw [evalD]; rfl) (fun m k w => by rw [evalD]; rfl)

/-- `weather-api metric "New York"` asks for an address with a space; `weather-api metric "x&units=imperial"` and
`weather-api "imperial&units=metric" x` ask for the same address. -/
example : ∃ env', Entered Demo.host Demo.plat Demo.lib 9 [] [weatherApiText]
      (Demo.env.define c!"WEATHER-API-KEY" (.str c!"k")) env' ∧
    (∃ o w1 url, evalN Demo.plat Demo.host (stdB Demo.plat Demo.lib) 43
        (.apply (.symbol c!"weather-api") [.str c!"metric", .str c!"New York"]) env' [] = (o, env', w1) ∧
      Downloaded Demo.host Demo.plat Demo.lib env'.getCwd url [] o w1 ∧ ' ' ∈ url) ∧
    ∃ url o w1 o' w1', evalN Demo.plat Demo.host (stdB Demo.plat Demo.lib) 43
        (.apply (.symbol c!"weather-api") [.str c!"metric", .str c!"x&units=imperial"]) env' [] = (o, env', w1) ∧
      Downloaded Demo.host Demo.plat Demo.lib env'.getCwd url [] o w1 ∧
      evalN Demo.plat Demo.host (stdB Demo.plat Demo.lib) 43
        (.apply (.symbol c!"weather-api") [.str c!"imperial&units=metric", .str c!"x"]) env' [] = (o', env', w1') ∧
      Downloaded Demo.host Demo.plat Demo.lib env'.getCwd url [] o' w1' := by
  have hk := (kept_of_std demo_std weatherNames).define (x := c!"WEATHER-API-KEY") (v := .str c!"k")
    (by simp [weatherNames])
  have ho : ∀ x, x ≠ c!"WEATHER-API-KEY" → Demo.env.get x = none →
      (Demo.env.define c!"WEATHER-API-KEY" (.str c!"k")).get x = none := fun x hx h => by
    rw [Env.get_define, if_neg (Ne.symm hx), h]
  have a1 := ho c!"curl" (by decide) (by decide +kernel)
  have a2 := ho c!"--silent" (by decide) (by decide +kernel)
  have a3 : (Demo.env.define c!"WEATHER-API-KEY" (.str c!"k")).get c!"WEATHER-API-KEY" = some (.str c!"k") := by
    rw [Env.get_define, if_pos rfl]
  obtain ⟨env', h, h'⟩ := C118_defines (H := Demo.host) (P := Demo.plat) (L := Demo.lib) (n := 9) (w := []) hk a1 a2 a3
    (.inr ⟨_, rfl⟩) (by decide)
  have b1 := (h' c!"curl" (by decide)).trans a1
  have b2 := (h' c!"--silent" (by decide)).trans a2
  exact ⟨env', h,
    C118_encoding_refuted (t := c!"New") (t' := c!"York") hk a1 a2 a3 (by decide) h rfl b1 b2 (by decide)
      (fun m k w => by rw [evalD]; rfl) (directory_iff.mpr rfl),
    C118_ambiguous_refuted (city := c!"x") (u1 := c!"imperial") (u2 := c!"metric") hk a1 a2 a3 (by decide) h rfl b1 b2
      (by decide) (directory_iff.mpr rfl)⟩

end Dune.Props
