import Verif.Props.Program
import Verif.Props.Shown
import Verif.Props.Startup
import Verif.Props.Sys
import Verif.Props.Terminal

/-! C100: `pwd` and `clear`, the macros defined when the shell starts. -/

namespace Dune.Props

open Spec Repl

set_option maxRecDepth 100000 in
set_option maxHeartbeats 4000000 in
set_option cbv.maxSteps 10000000 in
theorem parse_pwd (P : Plat) : parseText P c!"pwd" = .ok (.do_ [.symbol c!"pwd"]) := by cbv

set_option maxRecDepth 100000 in
set_option maxHeartbeats 4000000 in
set_option cbv.maxSteps 10000000 in
theorem parse_clear (P : Plat) : parseText P c!"clear" = .ok (.do_ [.symbol c!"clear"]) := by cbv

section

variable {W : Type} {P : Plat} {H : Host W} {L : Lib} {n : Nat} {env env0 env1 : Env} {w w1 : W}
  {shown : W → Str}

theorem evalN_name {bodies : BId → List Expr → BProg Expr} {x : Str} {v : Expr}
    (h : env.get x = some v) :
    evalN P H bodies n (.do_ [.symbol x]) env w = (.ok v, env, w) := by
  cases n <;>
  · rw [evalN, evalD]
    simp only [evalStep, evalDo]
    exact evalD_symbol h

theorem evalN_macroCall {p nm hlp : Str} {f : Expr} {args : List Expr} {id : BId} {s : Str}
    (hf : evalD P H (bodyRun P H (stdB P L) n) 799 f (env.define p (.str s)) w =
      (.ok (.builtin nm id hlp), env.define p (.str s), w)) :
    evalN P H (stdB P L) (n + 1) (.apply (.macro_ p (.apply f args)) [.str s]) env w =
      (stdB P L id args).run H (evalN P H (stdB P L) n) (env.define p (.str s)) w := by
  show evalD P H (bodyRun P H (stdB P L) n) 801 _ env w = _
  rw [C26_macro_in_caller (k := 800) (p := p) (body := .apply f args) (v := .str s)
    (env1 := env) (env2 := env) (w1 := w) (w2 := w) (by rw [evalD]; rfl) (by rw [evalD]; rfl)]
  rw [evalD]
  simp only [evalStep]
  rw [M.bind_ok hf]
  rfl

theorem std_blank (hs : Std env) (v : Expr) : Std (env.define c!"_" v) :=
  std_define hs (by decide) (by decide) (by decide)

/-- entering a name that stands for a macro calls the macro with the current directory -/
theorem take_macro (hs : Std env) (hc : Console H shown) {line p x : Str} {body : Expr}
    (hp : parseText P line = .ok (.do_ [.symbol x])) (hx : env.get x = some (.macro_ p body))
    (hb : evalN P H (stdB P L) n (.apply (.macro_ p body) [.str env.getCwd]) env w =
      (.ok .none, env1, w1)) :
    takeLine P H (evalN P H (stdB P L) (n + 1)) [] line env w = (.ok [], env1, w1) := by
  have hp' : parseText P (joinStr c!"\n" ([] ++ [line])) = .ok (.do_ [.symbol x]) := by
    rw [← hp]; rfl
  obtain ⟨w', h1, h2, -⟩ := C71_report (P := P) (L := L) (n := n) hs hc hb
  rw [h2 rfl] at h1
  unfold takeLine
  rw [hp']
  simp only [runAccepted]
  refine M.bind_ok (a := ()) (env' := env1) (w' := w1) ?_
  rw [M.bind_ok (a := .ok (.macro_ p body)) (env' := env) (w' := w) (by
    rw [M.catch_, evalN_name hx])]
  simp only [showValue]
  rw [M.getEnv_bind, M.bind_ok (a := .ok .none) (env' := env1) (w' := w1) (by rw [M.catch_, h1])]
  rfl

/-- C100.  Entering `pwd` at the prompt shows the current directory on a line of its own and nothing
else, and the prompt is ready for the next text.  But the variable `_` is overwritten. -/
theorem C100_pwd (hs : Std env) (hc : Console H shown) {q : Str}
    (hpwd : env.get c!"pwd" = (started env0).get c!"pwd") (hq : env.get c!"CWD" = some (.str q)) :
    ∃ env' w', takeLine P H (evalN P H (stdB P L) (n + 2)) [] c!"pwd" env w = (.ok [], env', w') ∧
      shown w' = shown w ++ q ++ c!"\n" ∧
      env'.get c!"_" = some (.str q) ∧ ∀ y, y ≠ c!"_" → env'.get y = env.get y := by
  have hd : env.getCwd = q := by rw [Env.getCwd, show cwdVar = c!"CWD" from rfl, hq]
  have hm : env.get c!"pwd" = some (.macro_ c!"_" (.apply (.symbol c!"echo") [.symbol c!"CWD"])) := by
    rw [hpwd]
    simp [started, started4, started3, started2, Env.get_define]
  have hs' := std_blank hs (.str q)
  have hq' : (env.define c!"_" (.str q)).get c!"CWD" = some (.str q) := by
    rw [Env.get_define, if_neg (by decide), hq]
  obtain ⟨w', h1, h2⟩ := C71_println (P := P) (L := L) (n := n) (w := w) (args := [.symbol c!"CWD"])
    (vs := [.str q]) (f := c!"echo") hs' hc
    (.cons (fun w => ⟨w, evalN_sym hq', rfl⟩) .nil) (by simp) (by simp)
  rw [eval_top hs' (nm := c!"println") (id := .println) (hlp := []) (by mem_tac), evalN_builtin] at h1
  refine ⟨env.define c!"_" (.str q), w', take_macro hs hc (parse_pwd P) hm ?_, ?_, ?_, ?_⟩
  · rw [hd, evalN_macroCall (evalD_symbol (hs'.top (c!"echo", .builtin c!"println" .println [])
      (by mem_tac))), h1]
  · simpa [display_str, spaced] using h2
  · rw [Env.get_define, if_pos rfl]
  · intro y hy
    rw [Env.get_define, if_neg (Ne.symm hy)]

/-- C100.  After a `cd` that succeeds, `pwd` shows the full path of the directory entered. -/
theorem C100_cd_pwd (hs : Std env) (hc : Console H shown) {p p' q : Str} {r : IORes} {w2 w3 : W}
    (hpwd : env.get c!"pwd" = (started env0).get c!"pwd")
    (hp : Resolved env.getCwd p p')
    (h1 : H.io (.canonicalize p') w = (.str q, w2))
    (h2 : H.io (.setCurrentDir q) w2 = (r, w3)) (hr : ∀ e, r ≠ .err e) :
    ∃ env1 env2 w4, evalN P H (stdB P L) (n + 2) (.apply (.symbol c!"cd") [.str p]) env w =
        (.ok .none, env1, w3) ∧
      takeLine P H (evalN P H (stdB P L) (n + 2)) [] c!"pwd" env1 w3 = (.ok [], env2, w4) ∧
      shown w4 = shown w3 ++ q ++ c!"\n" := by
  have h3 : evalN P H (stdB P L) (n + 2) (.apply (.symbol c!"cd") [.str p]) env w =
      (.ok .none, env.define c!"CWD" (.str q), w3) := by
    rw [eval_top hs (nm := c!"cd") (id := .cd) (hlp := []) (by mem_tac)]
    brun [Builtins.cdB, Builtins.strOrSym, M.getEnv, M.io, hp.join, h1, h2]
    cases r <;> first | exact absurd rfl (hr _) | rfl
  obtain ⟨env2, w4, h4, h5, -⟩ := C100_pwd (P := P) (L := L) (n := n) (env0 := env0) (w := w3)
    (std_cwd hs (.str q)) hc (q := q) (by rw [Env.get_define, if_neg (by decide), hpwd])
    (by rw [Env.get_define, if_pos rfl])
  exact ⟨_, env2, w4, h3, h4, h5⟩

/-- C100.  Entering `clear` empties the screen and puts the cursor into its corner.  The variable `_`
is overwritten. -/
theorem C100_clear (hs : Std env) (hc : Console H shown)
    (hclear : env.get c!"clear" = (started env0).get c!"clear") (t0 : Term)
    {t : Term} (ht : t0.feed (shown w) = t) (hg : t.state = .ground) (hr : 1 ≤ t.rows)
    (hcl : 1 ≤ t.cols) :
    ∃ env' w', takeLine P H (evalN P H (stdB P L) (n + 2)) [] c!"clear" env w = (.ok [], env', w') ∧
      t0.feed (shown w') = { t with cell := fun _ _ => ' ', row := 1, col := 1 } ∧
      ∀ y, y ≠ c!"_" → env'.get y = env.get y := by
  have hm : env.get c!"clear" = some (.macro_ c!"_" (call c!"console" c!"clear" [.none])) := by
    rw [hclear]
    simp [started, started4, started3, started2, Env.get_define]
  have hs' := std_blank hs (.str env.getCwd)
  obtain ⟨w', h1, h2⟩ := C84_clear (P := P) (L := L) (n := n) hs' hc t0 .none ht hg hr hcl
  refine ⟨env.define c!"_" (.str env.getCwd), w', take_macro hs hc (parse_clear P) hm ?_, h2, ?_⟩
  · rw [eval_lib hs' (tbl := Init.consoleM) (by mem_tac) (nm := c!"clear") (id := .cClear) (hlp := [])
      (by mem_tac), evalN_builtin] at h1
    rw [call, evalN_macroCall (nm := c!"clear") (id := .cClear) (hlp := [])
      (evalD_mem (k := 797) hs' (tbl := Init.consoleM) (by mem_tac) (by mem_tac)), h1]
  · intro y hy
    rw [Env.get_define, if_neg (Ne.symm hy)]

/-- C100.  In a script, a statement `pwd` or `clear` does nothing: its value is the macro, which only
the prompt calls. -/
theorem C100_script_refuted {x : Str} (hx : x ∈ [c!"pwd", c!"clear"])
    (hm : env.get x = (started env0).get x) :
    ∃ p body, evalN P H (stdB P L) (n + 1) (.do_ [.symbol x]) env w =
        (.ok (.macro_ p body), env, w) ∧
      ∀ e rest, evalN P H (stdB P L) (n + 1) (.do_ (.symbol x :: e :: rest)) env w =
        evalN P H (stdB P L) (n + 1) (.do_ (e :: rest)) env w := by
  have h : ∃ p body, env.get x = some (.macro_ p body) := by
    simp only [List.mem_cons, List.not_mem_nil, or_false] at hx
    rcases hx with rfl | rfl <;>
    · rw [hm]
      simp [started, started4, started3, started2, Env.get_define]
  obtain ⟨p, body, h⟩ := h
  refine ⟨p, body, evalN_name h, fun e rest => ?_⟩
  rw [evalN_unfold, evalN_unfold]
  simp only [evalStep, evalDo]
  rw [M.bind_ok (evalD_symbol h)]

end

/-! ### Cases -/

theorem demo_started : Std (started Demo.env) := by
  obtain ⟨env0, h1, -, h3⟩ := C78_startup Demo.plat Demo.host Demo.lib 1 Demo.env []
  rw [Starts, startup_eq] at h1
  obtain rfl : started Demo.env = env0 := congrArg (fun r => r.2.1) h1
  exact std_started demo_std h3

/-- entering `pwd` in /home/me -/
example : ∃ env' w', takeLine Demo.plat Demo.host
      (evalN Demo.plat Demo.host (stdB Demo.plat Demo.lib) 3) [] c!"pwd"
      ((started Demo.env).define c!"CWD" (.str c!"/home/me")) [] = (.ok [], env', w') ∧
    demoShown w' = c!"/home/me\n" := by
  obtain ⟨env', w', h1, h2, -⟩ := C100_pwd (P := Demo.plat) (L := Demo.lib) (n := 1) (w := [])
    (env0 := Demo.env) (std_cwd demo_started (.str c!"/home/me")) demo_console (q := c!"/home/me")
    (by rw [Env.get_define, if_neg (by decide)]) (by rw [Env.get_define, if_pos rfl])
  exact ⟨env', w', h1, h2⟩

/-- entering `clear` when something is on the screen -/
example : ∃ env' w', takeLine Demo.plat Demo.host
      (evalN Demo.plat Demo.host (stdB Demo.plat Demo.lib) 3) [] c!"clear" (started Demo.env)
      [.print c!"ls\n"] = (.ok [], env', w') ∧
    (demoTerm.feed (demoShown w')).cell 1 1 = ' ' := by
  obtain ⟨env', w', h1, h2, -⟩ := C100_clear (P := Demo.plat) (L := Demo.lib) (n := 1)
    (w := [.print c!"ls\n"]) (env0 := Demo.env) demo_started demo_console rfl demoTerm rfl rfl
    (by decide) (by decide)
  exact ⟨env', w', h1, by rw [h2]⟩

/-- `cd "me"` in /home, then `pwd` -/
example : ∃ env1 env2 w3 w4, evalN Demo.plat cdHost (stdB Demo.plat Demo.lib) 3
      (.apply (.symbol c!"cd") [.str c!"me"])
      ((started Demo.env).define c!"CWD" (.str c!"/home")) [] = (.ok .none, env1, w3) ∧
    takeLine Demo.plat cdHost (evalN Demo.plat cdHost (stdB Demo.plat Demo.lib) 3) [] c!"pwd" env1 w3 =
      (.ok [], env2, w4) ∧ demoShown w4 = c!"/home/me\n" := by
  obtain ⟨env1, env2, w4, h1, h2, h3⟩ := C100_cd_pwd (P := Demo.plat) (L := Demo.lib) (n := 1) (w := [])
    (H := cdHost) (shown := demoShown) (env0 := Demo.env) (std_cwd demo_started (.str c!"/home"))
    ⟨fun s w e => by simp [cdHost], fun s w => by simp [cdHost, demoShown]⟩
    (by rw [Env.get_define, if_neg (by decide)])
    (show Resolved c!"/home" c!"me" c!"/home/me" from
      .relative c!"/home" c!"me" (by decide) (by decide) (by decide)) rfl rfl
    (fun e => by simp)
  exact ⟨env1, env2, _, w4, h1, h2, h3⟩

example : c!"pwd" ∈ [c!"pwd", c!"clear"] ∧
    (started Demo.env).get c!"pwd" = (started Demo.env).get c!"pwd" := ⟨by decide, rfl⟩

end Dune.Props
