import Verif.Proof.Lib
import Verif.Proof.Numeral
import Verif.Props.Eval
import Mathlib.Data.List.Forall2

/-! C71: printing, leaving, changing directory, unbinding, conversion. -/

namespace Dune.Props

open Spec

/-- A world with an open standard output: `shown` is the text printed so far. -/
structure Console {W : Type} (H : Host W) (shown : W → Str) : Prop where
  open_ : ∀ s w e, (H.io (.print s) w).1 ≠ .err e
  print : ∀ s w, shown (H.io (.print s) w).2 = shown w ++ s

/-- In the variables `env` the expression has this value in every world, changes no variable and
prints nothing. -/
def Quiet {W : Type} (ev : Expr → M W Expr) (shown : W → Str) (env : Env) (a v : Expr) : Prop :=
  ∀ w, ∃ w', ev a env w = (.ok v, env, w') ∧ shown w' = shown w

/-- The path `p`, meant from the directory `cwd`, is the path `q`. -/
inductive Resolved : Str → Str → Str → Prop
  | absolute (cwd p : Str) : Resolved cwd ('/' :: p) ('/' :: p)
  | root (p : Str) : p.head? ≠ some '/' → Resolved c!"/" p ('/' :: p)
  | relative (cwd p : Str) : p.head? ≠ some '/' → cwd ≠ [] → cwd.getLast? ≠ some '/' →
      Resolved cwd p (cwd ++ '/' :: p)

theorem Resolved.join {cwd p q : Str} (h : Resolved cwd p q) : pathJoin cwd p = q := by
  cases h with
  | absolute => rfl
  | root _ h =>
    unfold pathJoin
    split
    · simp at h
    · rfl
  | relative _ _ h h1 h2 =>
    unfold pathJoin
    split
    · simp at h
    · rw [if_neg (by simp [h1, h2])]

/-- Texts with one space between them. -/
def spaced : List Str → Str
  | [] => []
  | [s] => s
  | s :: t :: r => s ++ ' ' :: spaced (t :: r)

section

variable {W : Type} {P : Plat} {H : Host W} {L : Lib} {n : Nat} {env env1 env2 : Env}
  {w w1 w2 : W} {shown : W → Str}

theorem run_out_shown {ev0 : Expr → M W Expr} (hc : Console H shown) (s : Str) :
    (Builtins.out s).run H ev0 env w = (.ok (), env, (H.io (.print s) w).2) := by
  have h := hc.open_ s w
  rw [Builtins.out, BProg.run_bind, BProg.run_ask]
  rcases hr : H.io (.print s) w with ⟨r, w'⟩
  rw [hr] at h
  have e : M.io H (.print s) env w = (.ok r, env, w') := by rw [M.io, hr]
  rw [M.bind_ok e]
  cases r <;> first | exact absurd rfl (h _) | rfl

theorem run_printLoop (hc : Console H shown) (fmt : Expr → Str) (ending : Str)
    {ev0 : Expr → M W Expr} {args vs : List Expr}
    (ha : List.Forall₂ (Quiet ev0 shown env) args vs) (hne : args ≠ []) :
    ∀ w, ∃ w', (Builtins.printLoop fmt ending args).run H ev0 env w = (.ok .none, env, w') ∧
      shown w' = shown w ++ spaced (vs.map fmt) ++ ending := by
  induction ha with
  | nil => exact absurd rfl hne
  | @cons a v as vs h1 h2 ih =>
    intro w
    obtain ⟨w1, e1, s1⟩ := h1 w
    cases h2 with
    | nil =>
      refine ⟨(H.io (.print (fmt v ++ ending)) w1).2, ?_, ?_⟩
      · simp only [Builtins.printLoop, BProg.run_bind, BProg.run_ev]
        rw [M.bind_ok e1, M.bind_ok (run_out_shown hc _)]
        rfl
      · rw [hc.print, s1]
        simp [spaced]
    | @cons b u bs us h3 h4 =>
      obtain ⟨w2, e2, s2⟩ := ih (by simp) (H.io (.print (fmt v ++ c!" ")) w1).2
      refine ⟨w2, ?_, ?_⟩
      · rw [Builtins.printLoop]
        simp only [BProg.run_bind, BProg.run_ev]
        rw [M.bind_ok e1, M.bind_ok (run_out_shown hc _)]
        exact e2
      · rw [s2, hc.print, s1]
        simp [spaced]

theorem run_printLoop_err (hc : Console H shown) (fmt : Expr → Str) (ending : Str)
    {ev0 : Expr → M W Expr} {args vs rest : List Expr} {b : Expr} {e : Error}
    (ha : List.Forall₂ (Quiet ev0 shown env) args vs)
    (hb : ∀ w, ∃ w', ev0 b env w = (.err e, env, w') ∧ shown w' = shown w) :
    ∀ w, ∃ w', (Builtins.printLoop fmt ending (args ++ b :: rest)).run H ev0 env w =
        (.err e, env, w') ∧
      shown w' = shown w ++ (vs.map fun v => fmt v ++ c!" ").flatten := by
  induction ha with
  | nil =>
    intro w
    obtain ⟨w1, e1, s1⟩ := hb w
    refine ⟨w1, ?_, by simp [s1]⟩
    cases rest with
    | nil =>
      simp only [List.nil_append, Builtins.printLoop, BProg.run_bind, BProg.run_ev]
      rw [M.bind_err e1]
    | cons c cs =>
      simp only [List.nil_append, Builtins.printLoop, BProg.run_bind, BProg.run_ev]
      rw [M.bind_err e1]
  | @cons a v as vs h1 h2 ih =>
    intro w
    obtain ⟨w1, e1, s1⟩ := h1 w
    obtain ⟨w2, e2, s2⟩ := ih (H.io (.print (fmt v ++ c!" ")) w1).2
    refine ⟨w2, ?_, ?_⟩
    · obtain ⟨c, cs, hcs⟩ : ∃ c cs, as ++ b :: rest = c :: cs := by
        cases as with
        | nil => exact ⟨_, _, rfl⟩
        | cons c cs => exact ⟨_, _, rfl⟩
      rw [List.cons_append, hcs, Builtins.printLoop]
      simp only [BProg.run_bind, BProg.run_ev]
      rw [M.bind_ok e1, M.bind_ok (run_out_shown hc _), ← hcs]
      exact e2
    · rw [s2, hc.print, s1]
      simp

/-- C71, `print` shows exactly its arguments as they are displayed, with single spaces between
them. -/
theorem C71_print (hs : Std env) (hc : Console H shown) {args vs : List Expr}
    (ha : List.Forall₂ (Quiet (evalN P H (stdB P L) n) shown env) args vs) :
    ∃ w', evalN P H (stdB P L) (n + 1) (.apply (.symbol c!"print") args) env w =
        (.ok .none, env, w') ∧
      shown w' = shown w ++ spaced (vs.map (display P)) := by
  rw [eval_top hs (nm := c!"print") (id := .print) (hlp := []) (by mem_tac), evalN_builtin]
  by_cases hne : args = []
  · subst hne
    cases ha
    exact ⟨w, rfl, by simp [spaced]⟩
  · obtain ⟨w', h1, h2⟩ := run_printLoop hc (display P) [] ha hne w
    exact ⟨w', h1, by simpa using h2⟩

/-- C71, `println` and `echo` end the line after at least one argument. -/
theorem C71_println (hs : Std env) (hc : Console H shown) {args vs : List Expr}
    (ha : List.Forall₂ (Quiet (evalN P H (stdB P L) n) shown env) args vs) (hne : args ≠ [])
    {f : Str} (hf : f ∈ [c!"println", c!"echo"]) :
    ∃ w', evalN P H (stdB P L) (n + 1) (.apply (.symbol f) args) env w = (.ok .none, env, w') ∧
      shown w' = shown w ++ spaced (vs.map (display P)) ++ c!"\n" := by
  simp only [List.mem_cons, List.not_mem_nil, or_false] at hf
  rcases hf with rfl | rfl <;>
  · rw [eval_top hs (nm := c!"println") (id := .println) (hlp := []) (by mem_tac), evalN_builtin]
    exact run_printLoop hc (display P) c!"\n" ha hne w

/-- C71, `debug` shows the arguments in source form, and ends the line. -/
theorem C71_debug (hs : Std env) (hc : Console H shown) {args vs : List Expr}
    (ha : List.Forall₂ (Quiet (evalN P H (stdB P L) n) shown env) args vs) (hne : args ≠ []) :
    ∃ w', evalN P H (stdB P L) (n + 1) (.apply (.symbol c!"debug") args) env w =
        (.ok .none, env, w') ∧
      shown w' = shown w ++ spaced (vs.map (debug P)) ++ c!"\n" := by
  rw [eval_top hs (nm := c!"debug") (id := .debug) (hlp := []) (by mem_tac), evalN_builtin]
  exact run_printLoop hc (debug P) c!"\n" ha hne w

/-- C71, without arguments none of them prints anything, not even the end of a line. -/
theorem C71_print_nothing (hs : Std env) {f : Str}
    (hf : f ∈ [c!"print", c!"println", c!"echo", c!"debug"]) :
    evalN P H (stdB P L) (n + 1) (.apply (.symbol f) []) env w = (.ok .none, env, w) := by
  simp only [List.mem_cons, List.not_mem_nil, or_false] at hf
  rcases hf with rfl | rfl | rfl | rfl
  · rw [eval_top hs (nm := c!"print") (id := .print) (hlp := []) (by mem_tac), evalN_builtin]
    rfl
  · rw [eval_top hs (nm := c!"println") (id := .println) (hlp := []) (by mem_tac), evalN_builtin]
    rfl
  · rw [eval_top hs (nm := c!"println") (id := .println) (hlp := []) (by mem_tac), evalN_builtin]
    rfl
  · rw [eval_top hs (nm := c!"debug") (id := .debug) (hlp := []) (by mem_tac), evalN_builtin]
    rfl

/-- C71, if an argument fails, those before it have already been shown, each followed by a space, and
those after it are not evaluated. -/
theorem C71_print_error (hs : Std env) (hc : Console H shown) {args vs rest : List Expr} {b : Expr}
    {e : Error} (ha : List.Forall₂ (Quiet (evalN P H (stdB P L) n) shown env) args vs)
    (hb : ∀ w, ∃ w', evalN P H (stdB P L) n b env w = (.err e, env, w') ∧ shown w' = shown w)
    {f : Str} (hf : f ∈ [c!"print", c!"println", c!"echo"]) :
    ∃ w', evalN P H (stdB P L) (n + 1) (.apply (.symbol f) (args ++ b :: rest)) env w =
        (.err e, env, w') ∧
      shown w' = shown w ++ (vs.map fun v => display P v ++ c!" ").flatten := by
  simp only [List.mem_cons, List.not_mem_nil, or_false] at hf
  rcases hf with rfl | rfl | rfl
  · rw [eval_top hs (nm := c!"print") (id := .print) (hlp := []) (by mem_tac), evalN_builtin]
    exact run_printLoop_err hc (display P) [] ha hb w
  · rw [eval_top hs (nm := c!"println") (id := .println) (hlp := []) (by mem_tac), evalN_builtin]
    exact run_printLoop_err hc (display P) c!"\n" ha hb w
  · rw [eval_top hs (nm := c!"println") (id := .println) (hlp := []) (by mem_tac), evalN_builtin]
    exact run_printLoop_err hc (display P) c!"\n" ha hb w

/-- C71, if standard output is closed, printing crashes the shell instead of failing. -/
theorem C71_print_closed (hs : Std env) {a v : Expr} {e : IOErr}
    (ha : evalN P H (stdB P L) n a env w = (.ok v, env1, w1))
    (hc : ∀ s, ∃ w', H.io (.print s) w1 = (.err e, w')) {f : Str}
    (hf : f ∈ [c!"print", c!"println", c!"echo"]) :
    (evalN P H (stdB P L) (n + 1) (.apply (.symbol f) [a]) env w).1 = .panic := by
  have key : ∀ ending, ((Builtins.printLoop (display P) ending [a]).run H
      (evalN P H (stdB P L) n) env w).1 = .panic := by
    intro ending
    obtain ⟨w', h⟩ := hc (display P v ++ ending)
    brun [Builtins.printLoop, ha, Builtins.out, M.io, h]
  simp only [List.mem_cons, List.not_mem_nil, or_false] at hf
  rcases hf with rfl | rfl | rfl
  · rw [eval_top hs (nm := c!"print") (id := .print) (hlp := []) (by mem_tac), evalN_builtin]
    exact key _
  · rw [eval_top hs (nm := c!"println") (id := .println) (hlp := []) (by mem_tac), evalN_builtin]
    exact key _
  · rw [eval_top hs (nm := c!"println") (id := .println) (hlp := []) (by mem_tac), evalN_builtin]
    exact key _

/-- C71, `report v` prints the value on a line of its own, and nothing for `None`. -/
theorem C71_report (hs : Std env) (hc : Console H shown) {a v : Expr}
    (ha : evalN P H (stdB P L) n a env w = (.ok v, env1, w1)) :
    ∃ w', evalN P H (stdB P L) (n + 1) (.apply (.symbol c!"report") [a]) env w =
        (.ok .none, env1, w') ∧
      (v = .none → w' = w1) ∧ (v ≠ .none → shown w' = shown w1 ++ display P v ++ c!"\n") := by
  rw [eval_top hs (nm := c!"report") (id := .report) (hlp := []) (by mem_tac)]
  by_cases hv : v = .none
  · subst hv
    exact ⟨w1, by brun [Builtins.reportB, ha], fun _ => rfl, fun h => absurd rfl h⟩
  · refine ⟨(H.io (.print (display P v ++ c!"\n")) w1).2, ?_, fun h => absurd h hv, fun _ => by
      rw [hc.print, List.append_assoc]⟩
    rw [evalN_builtin]
    show (Builtins.reportB P [a]).run _ _ _ _ = _
    have h : (Builtins.reportB P [a]) = (do
      match ← BProg.ev a with
      | .none => .ret .none
      | v => do
        Builtins.out (display P v ++ c!"\n")
        .ret .none) := rfl
    rw [h]
    simp only [BProg.run_bind, BProg.run_ev]
    rw [M.bind_ok ha]
    cases v <;> first | exact absurd rfl hv | (
      simp only [BProg.run_bind]
      rw [M.bind_ok (run_out_shown hc _)]
      rfl)

/-! ### `exit` -/

/-- C71, `exit n` leaves the shell with the status that agrees with `n` in the low 32 bits, whatever
statements follow. -/
theorem C71_exit (hs : Std env) {a : Expr} {i : I64} {more : List Expr} {f : Str}
    (hf : f ∈ [c!"exit", c!"quit"])
    (ha : evalN P H (stdB P L) n a env w = (.ok (.int i), env1, w1)) :
    ∃ c : Int, (2 ^ 32 ∣ i.val - c) ∧ -2 ^ 31 ≤ c ∧ c < 2 ^ 31 ∧
      evalN P H (stdB P L) (n + 1) (.apply (.symbol f) (a :: more)) env w = (.exit c, env1, w1) := by
  refine ⟨Int.bmod i.val 4294967296, ?_, ?_, ?_, ?_⟩
  · exact Int.dvd_self_sub_bmod
  · have := Int.le_bmod (x := i.val) (m := 4294967296) (by omega)
    omega
  · have := Int.bmod_lt (x := i.val) (m := 4294967296) (by omega)
    omega
  · simp only [List.mem_cons, List.not_mem_nil, or_false] at hf
    rcases hf with rfl | rfl <;>
    · rw [eval_top hs (nm := c!"exit") (id := .exit_) (hlp := []) (by mem_tac)]
      brun [Builtins.exitB, ha]

/-- C71, a status that fits 32 bits is passed on as it is. -/
theorem C71_exit_small (hs : Std env) {a : Expr} {i : I64} (h1 : -2 ^ 31 ≤ i.val) (h2 : i.val < 2 ^ 31)
    (ha : evalN P H (stdB P L) n a env w = (.ok (.int i), env1, w1)) :
    evalN P H (stdB P L) (n + 1) (.apply (.symbol c!"exit") [a]) env w =
      (.exit i.val, env1, w1) := by
  obtain ⟨c, ⟨q, hq⟩, h3, h4, h5⟩ := C71_exit (P := P) (L := L) (more := []) hs
    (f := c!"exit") (by simp) ha
  have : c = i.val := by omega
  rw [← this]
  exact h5

/-- C71, `exit` alone means success. -/
theorem C71_exit_default (hs : Std env) :
    evalN P H (stdB P L) (n + 1) (.apply (.symbol c!"exit") []) env w = (.exit 0, env, w) := by
  rw [eval_top hs (nm := c!"exit") (id := .exit_) (hlp := []) (by mem_tac)]
  brun [Builtins.exitB]

/-- C71, no statement after an `exit` runs. -/
theorem C71_exit_stops (hs : Std env) {a : Expr} {i : I64} (h1 : -2 ^ 31 ≤ i.val)
    (h2 : i.val < 2 ^ 31) (ha : evalN P H (stdB P L) n a env w = (.ok (.int i), env1, w1))
    (b : Expr) (rest : List Expr) :
    evalN P H (stdB P L) (n + 1) (.do_ (.apply (.symbol c!"exit") [a] :: b :: rest)) env w =
      (.exit i.val, env1, w1) := by
  have h := C71_exit_small (P := P) (L := L) (H := H) hs h1 h2 ha
  rw [evalN_unfold]
  simp only [evalStep, evalDo]
  have hg : env.get c!"exit" = some (.builtin c!"exit" .exit_ []) :=
    hs.top (c!"exit", _) (by mem_tac)
  rw [M.bind_exit (c := i.val) (env' := env1) (w' := w1)]
  rw [eval_top hs (nm := c!"exit") (id := .exit_) (hlp := []) (by mem_tac), evalN_builtin] at h
  rw [← h, evalD]
  simp only [evalStep]
  rw [M.bind_ok (a := .builtin c!"exit" .exit_ []) (env' := env) (w' := w)]
  · rfl
  · rw [evalD]
    simp only [evalStep, M.getEnv_bind, hg]
    rfl

/-! ### `unbind` -/

/-- C71, `unbind x` removes the innermost meaning of `x`: what an outer scope says about `x` shows
through again, and no other name is affected. -/
theorem C71_unbind (hs : Std env) {x : Str} {a : Expr} (ha : a = .symbol x ∨ a = .str x) :
    ∃ env', evalN P H (stdB P L) (n + 1) (.apply (.symbol c!"unbind") [a]) env w =
        (.ok .none, env', w) ∧
      env'.parents = env.parents ∧
      env'.get x = (Env.mk [] env.parents).get x ∧
      ∀ y, y ≠ x → env'.get y = env.get y := by
  refine ⟨env.undefine x, ?_, rfl, ?_, ?_⟩
  · rw [eval_top hs (nm := c!"unbind") (id := .unbind) (hlp := []) (by mem_tac)]
    rcases ha with rfl | rfl <;> brun [Builtins.unbindB, M.undefine]
  · rw [Env.get_undefine, if_pos rfl]
    rfl
  · intro y hy
    rw [Env.get_undefine, if_neg (Ne.symm hy)]

/-! ### `cd` -/

/-- C71, `cd p`, if the directory exists and may be entered, makes its full path the current
directory, and changes no other variable. -/
theorem C71_cd (hs : Std env) {a : Expr} {p p' q : Str} {r : IORes} {w2 w3 : W}
    (hp : Resolved env1.getCwd p p')
    (ha : evalN P H (stdB P L) n a env w = (.ok (.str p), env1, w1) ∨
      evalN P H (stdB P L) n a env w = (.ok (.symbol p), env1, w1))
    (h1 : H.io (.canonicalize p') w1 = (.str q, w2))
    (h2 : H.io (.setCurrentDir q) w2 = (r, w3)) (hr : ∀ e, r ≠ .err e) :
    ∃ env', evalN P H (stdB P L) (n + 1) (.apply (.symbol c!"cd") [a]) env w =
        (.ok .none, env', w3) ∧
      env'.getCwd = q ∧ ∀ y, y ≠ c!"CWD" → env'.get y = env1.get y := by
  refine ⟨env1.define c!"CWD" (.str q), ?_, ?_, ?_⟩
  · rw [eval_top hs (nm := c!"cd") (id := .cd) (hlp := []) (by mem_tac)]
    rcases ha with ha | ha <;>
    · brun [Builtins.cdB, ha, Builtins.strOrSym, M.getEnv, M.io, hp.join, h1, h2]
      cases r <;> first | exact absurd rfl (hr _) | rfl
  · rw [Env.getCwd, show cwdVar = c!"CWD" from rfl, Env.get_define, if_pos rfl]
  · intro y hy
    rw [Env.get_define, if_neg (Ne.symm hy)]

/-- C71, if there is no such directory, or it may not be entered, `cd` fails and the current directory
stays. -/
theorem C71_cd_fails (hs : Std env) {a : Expr} {p p' q : Str} {e : IOErr} {w2 w3 : W}
    (hp : Resolved env1.getCwd p p')
    (ha : evalN P H (stdB P L) n a env w = (.ok (.str p), env1, w1))
    (h : (H.io (.canonicalize p') w1 = (.err e, w3)) ∨
      (H.io (.canonicalize p') w1 = (.str q, w2) ∧
        H.io (.setCurrentDir q) w2 = (.err e, w3))) :
    ∃ m, evalN P H (stdB P L) (n + 1) (.apply (.symbol c!"cd") [a]) env w =
      (.err (.customError m), env1, w3) := by
  rw [eval_top hs (nm := c!"cd") (id := .cd) (hlp := []) (by mem_tac)]
  rcases h with h1 | ⟨h1, h2⟩
  · exact ⟨_, by brun [Builtins.cdB, ha, Builtins.strOrSym, M.getEnv, M.io, hp.join, h1]; rfl⟩
  · exact ⟨_, by brun [Builtins.cdB, ha, Builtins.strOrSym, M.getEnv, M.io, hp.join, h1, h2]; rfl⟩

/-- C71, a `cd` inside a function lasts until the function returns: the caller's current directory is
as before, although the process has been moved. -/
theorem C71_cd_local {f a v : Expr} {x p p' q : Str} {bs : List (Str × Expr)}
    {ps : List (List (Str × Expr))} {r : IORes} {w2 w3 : W}
    (hcd : (Env.mk bs ps).get c!"cd" = some (.builtin c!"cd" .cd []))
    (hp : Resolved env.getCwd p p') (hx : x ≠ c!"cd") (hx' : x ≠ c!"CWD")
    (hf : evalD P H (bodyRun P H (stdB P L) n) 800 f env w =
      (.ok (.lambda x (.apply (.symbol c!"cd") [.str p]) bs ps), env, w))
    (ha : evalD P H (bodyRun P H (stdB P L) n) 800 a env w = (.ok v, env, w1))
    (h1 : H.io (.canonicalize p') w1 = (.str q, w2))
    (h2 : H.io (.setCurrentDir q) w2 = (r, w3)) (hr : ∀ e, r ≠ .err e) :
    evalN P H (stdB P L) (n + 1) (.apply f [a]) env w = (.ok .none, env, w3) := by
  obtain ⟨scope, h, _, hy, hc⟩ := C23_call_scope (k := 799) hf ha
  obtain ⟨_, hcwd⟩ := hc hx'
  have hg : scope.get c!"cd" = some (.builtin c!"cd" .cd []) := by
    rw [hy _ (Ne.symm hx) (by decide), hcd]
  have hb : evalD P H (bodyRun P H (stdB P L) n) 800 (.apply (.symbol c!"cd") [.str p]) scope w1 =
      (.ok .none, scope.define c!"CWD" (.str q), w3) := by
    rw [evalD]
    simp only [evalStep]
    rw [M.bind_ok (a := .builtin c!"cd" .cd []) (env' := scope) (w' := w1)]
    · show (stdB P L .cd [.str p]).run _ _ _ _ = _
      brun [Builtins.cdB, Builtins.strOrSym, M.getEnv, M.io, hcwd, hp.join, h1, h2]
      cases r <;> first | exact absurd rfl (hr _) | rfl
    · rw [evalD]
      simp only [evalStep, M.getEnv_bind, hg]
      rfl
  have hd : evalN P H (stdB P L) (n + 1) (.apply f [a]) =
      evalD P H (bodyRun P H (stdB P L) n) (799 + 2) (.apply f [a]) := by
    rw [evalN]
    rfl
  rw [hd, h, hb]

/-! ### Conversions, conditional evaluation -/

/-- C71, `str v` is the text that `print v` shows. -/
theorem C71_str (hs : Std env) {a v : Expr}
    (ha : evalN P H (stdB P L) n a env w = (.ok v, env1, w1)) :
    evalN P H (stdB P L) (n + 1) (.apply (.symbol c!"str") [a]) env w =
      (.ok (.str (display P v)), env1, w1) := by
  rw [eval_top hs (nm := c!"str") (id := .str) (hlp := []) (by mem_tac)]
  brun [Builtins.strB, ha]

/-- C71, `string@to-string v` is the same text. -/
theorem C71_to_string (hs : Std env) {a v : Expr}
    (ha : evalN P H (stdB P L) n a env w = (.ok v, env1, w1)) :
    evalN P H (stdB P L) (n + 1) (call c!"string" c!"to-string" [a]) env w =
      evalN P H (stdB P L) (n + 1) (.apply (.symbol c!"str") [a]) env w := by
  rw [C71_str hs ha]
  lib hs, Init.stringM
  brun [Builtins.toStringB, ha]

/-- C71, converting an integer to text and back gives the integer. -/
theorem C71_int_str (hs : Std env) {a : Expr} {i : I64}
    (ha : evalN P H (stdB P L) n a env w = (.ok (.int i), env1, w1)) :
    evalN P H (stdB P L) (n + 2)
      (.apply (.symbol c!"int") [.apply (.symbol c!"str") [a]]) env w =
      (.ok (.int i), env1, w1) := by
  have h := C71_str (P := P) (L := L) (H := H) hs ha
  have hd : display P (.int i) = intToStr i.val := rfl
  have hp := (intToStr_lexeme i).2
  rw [eval_top hs (nm := c!"int") (id := .int) (hlp := []) (by mem_tac)]
  brun [Builtins.intB, h, hd, hp]

/-- C71, `fn@? c a b` evaluates exactly one of `a` and `b`. -/
theorem C71_conditional (hs : Std env) {c a b v : Expr}
    (hc : evalN P H (stdB P L) n c env w = (.ok v, env1, w1)) :
    evalN P H (stdB P L) (n + 1) (call c!"fn" c!"?" [c, a, b]) env w =
      evalN P H (stdB P L) n (if Truthy v then a else b) env1 w1 := by
  simp only [← isTruthy_iff]
  lib hs, Init.fnM
  cases hv : v.isTruthy <;> brun [Builtins.conditionalB, hc, hv]

end

/-! ### Cases -/

/-- What the demo world has printed. -/
def demoShown (w : List IOp) : Str :=
  (w.map fun
    | .print s => s
    | _ => []).flatten

theorem demo_console : Console Demo.host demoShown where
  open_ s w e := by simp [Demo.host]
  print s w := by simp [Demo.host, demoShown]

theorem quiet_int {B : BId → List Expr → BProg Expr} {n : Nat} {env : Env} (i : I64) :
    Quiet (evalN Demo.plat Demo.host B n) demoShown env (.int i) (.int i) :=
  fun w => ⟨w, evalN_int n i env w, rfl⟩

theorem quiet_str {B : BId → List Expr → BProg Expr} {n : Nat} {env : Env} (s : Str) :
    Quiet (evalN Demo.plat Demo.host B n) demoShown env (.str s) (.str s) :=
  fun w => ⟨w, evalN_str n s env w, rfl⟩

/-- `println "a" 7` shows `a 7` and ends the line. -/
example : ∃ w', evalN Demo.plat Demo.host (stdB Demo.plat Demo.lib) 2
    (.apply (.symbol c!"println") [.str c!"a", .int (.lit 7)]) Demo.env [] =
      (.ok .none, Demo.env, w') ∧ demoShown w' = c!"a 7\n" :=
  C71_println demo_std demo_console (.cons (quiet_str _) (.cons (quiet_int _) .nil)) (by simp)
    (by simp)

/-- `print "a" (exit "x")` shows `a ` and fails. -/
example : evalN Demo.plat Demo.host (stdB Demo.plat Demo.lib) 3
    (.apply (.symbol c!"print") [.str c!"a", .apply (.symbol c!"exit") [.str c!"x"]]) Demo.env [] =
      (.err (.customError c!"expected integer but got `\"x\"`"), Demo.env,
        [.print c!"a "]) := rfl

example : (evalN Demo.plat Demo.host (stdB Demo.plat Demo.lib) 3
    (.do_ [.apply (.symbol c!"exit") [.int (.lit 3)], .apply (.symbol c!"print") [.str c!"a"]])
    Demo.env []) = (.exit 3, Demo.env, []) := rfl

example : (evalN Demo.plat Demo.host (stdB Demo.plat Demo.lib) 2
    (.apply (.symbol c!"exit") [.int (.lit 4294967299)]) Demo.env []).1 = .exit 3 := rfl

/-- `x` is bound in two scopes. -/
example : (evalN Demo.plat Demo.host (stdB Demo.plat Demo.lib) 2
    (.apply (.symbol c!"unbind") [.symbol c!"x"])
    ⟨(Demo.env.define c!"x" (.int (.lit 1))).bindings, [[(c!"x", .int (.lit 2))]]⟩
    []).2.1.get c!"x" = some (.int (.lit 2)) := rfl

/-- A world in which every path is canonical. -/
def cdHost : Host (List IOp) where
  io op w :=
    match op with
    | .canonicalize p => (.str p, w ++ [op])
    | _ => (.unit, w ++ [op])

example : Resolved c!"/home" c!"me" c!"/home/me" :=
  .relative c!"/home" c!"me" (by decide) (by decide) (by decide)

example : (evalN Demo.plat cdHost (stdB Demo.plat Demo.lib) 2
    (.apply (.symbol c!"cd") [.symbol c!"me"])
    (Demo.env.define c!"CWD" (.str c!"/home")) []).2.1.getCwd = c!"/home/me" := rfl

example : (evalN Demo.plat Demo.hostNotFound (stdB Demo.plat Demo.lib) 2
    (.apply (.symbol c!"cd") [.symbol c!"me"])
    (Demo.env.define c!"CWD" (.str c!"/home")) []).2.1.getCwd = c!"/home" := rfl

/-- `(x -> cd "me") 1` moves the process but not the caller. -/
example : evalN Demo.plat cdHost (stdB Demo.plat Demo.lib) 2
    (.apply (.lambda c!"x" (.apply (.symbol c!"cd") [.str c!"me"])
      [(c!"cd", .builtin c!"cd" .cd [])] []) [.int (.lit 1)])
    (Env.empty.define c!"CWD" (.str c!"/home")) [] =
    (.ok .none, Env.empty.define c!"CWD" (.str c!"/home"),
      [.canonicalize c!"/home/me", .setCurrentDir c!"/home/me"]) := rfl

example : (evalN Demo.plat Demo.host (stdB Demo.plat Demo.lib) 3
    (.apply (.symbol c!"int") [.apply (.symbol c!"str") [.int (.lit 12)]]) Demo.env []).1 =
    .ok (.int (.lit 12)) := rfl

/-- The branch that is not taken would leave the shell. -/
example : (evalN Demo.plat Demo.host (stdB Demo.plat Demo.lib) 3
    (call c!"fn" c!"?" [.bool true, .int (.lit 1), .apply (.symbol c!"exit") []]) Demo.env []).1 =
    .ok (.int (.lit 1)) := rfl

/-! ### Instances: the hypotheses can be met -/

section

example := C71_debug (P := Demo.plat) (L := Demo.lib) (n := 1) (w := []) demo_std demo_console
  (.cons (quiet_str c!"a\"") .nil) (by simp)

example := C71_print_nothing (P := Demo.plat) (H := Demo.host) (L := Demo.lib) (n := 0) (w := [])
  demo_std (f := c!"echo") (by simp)

example := C71_report (P := Demo.plat) (L := Demo.lib) (n := 1) (w := []) demo_std demo_console
  (a := .str c!"a") rfl

example := C71_exit (P := Demo.plat) (H := Demo.host) (L := Demo.lib) (n := 0) (w := [])
  demo_std (f := c!"quit") (a := .int .min) (more := [.none]) (by simp) rfl

example := C71_exit_small (P := Demo.plat) (H := Demo.host) (L := Demo.lib) (n := 0) (w := [])
  demo_std (a := .int (.lit 3)) (i := .lit 3) (by decide) (by decide) rfl

example := C71_exit_stops (P := Demo.plat) (H := Demo.host) (L := Demo.lib) (n := 0) (w := [])
  demo_std (a := .int (.lit 3)) (i := .lit 3) (by decide) (by decide) rfl .none []

example := C71_unbind (P := Demo.plat) (H := Demo.host) (L := Demo.lib) (n := 0) (w := [])
  demo_std (x := c!"x") (a := .str c!"x") (.inr rfl)

example := C71_cd (P := Demo.plat) (H := cdHost) (L := Demo.lib) (n := 0) (w := []) (env := Demo.env)
  demo_std (a := .str c!"/me") (p := c!"/me") (.absolute _ c!"me") (.inl rfl) rfl rfl
  (by intro e h; exact IORes.noConfusion h)

example := C71_cd_fails (P := Demo.plat) (H := Demo.hostNotFound) (L := Demo.lib) (n := 0) (w := [])
  (env := Demo.env) demo_std (a := .str c!"/me") (p := c!"/me") (q := []) (w2 := [])
  (.absolute _ c!"me") rfl (.inl rfl)

example := C71_str (P := Demo.plat) (H := Demo.host) (L := Demo.lib) (n := 0) (w := [])
  demo_std (a := .list [.none]) rfl

example := C71_int_str (P := Demo.plat) (H := Demo.host) (L := Demo.lib) (n := 0) (w := [])
  demo_std (a := .int .min) rfl

end

example := C71_print_error (P := Demo.plat) (L := Demo.lib) (n := 1) (w := []) demo_std demo_console
  (b := .apply (.int (.lit 1)) []) (rest := [.none]) (.cons (quiet_str c!"a") .nil)
  (fun w => ⟨w, rfl, rfl⟩) (f := c!"echo") (by simp)

example := C71_print_closed (P := Demo.plat) (H := Demo.hostNotFound) (L := Demo.lib) (n := 0) (w := []) demo_std
  (a := .str c!"a") rfl (fun s => ⟨_, rfl⟩) (f := c!"echo") (by simp)

example := C71_exit_default (P := Demo.plat) (H := Demo.host) (L := Demo.lib) (n := 0) (w := [])
  demo_std

example := C71_cd_local (P := Demo.plat) (H := cdHost) (L := Demo.lib) (n := 0) (w := [])
  (env := Env.empty.define c!"CWD" (.str c!"/home"))
  (f := .lambda c!"x" (.apply (.symbol c!"cd") [.str c!"me"]) [(c!"cd", .builtin c!"cd" .cd [])] [])
  (a := .int (.lit 1)) rfl (.relative c!"/home" c!"me" (by decide) (by decide) (by decide))
  (by decide) (by decide) rfl rfl rfl rfl (by simp)

example := C71_to_string (P := Demo.plat) (H := Demo.host) (L := Demo.lib) (n := 0) (w := [])
  demo_std (a := .list [.none]) rfl

end Dune.Props
