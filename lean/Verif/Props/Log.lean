import Verif.Proof.Lib
import Verif.Props.Compare

/-! C57: log levels. -/

namespace Dune.Props

open Spec

/-- A world that keeps the log level `lv`: it can be read and set, and nothing else changes it. -/
structure LogHost {W : Type} (H : Host W) (lv : W → I64) : Prop where
  get : ∀ w, H.io .getLogLevel w = (.int (lv w), w)
  set : ∀ l w, lv (H.io (.setLogLevel l) w).2 = l
  other : ∀ op w, (∀ l, op ≠ .setLogLevel l) → lv (H.io op w).2 = lv w

/-- A call that changes the log level. -/
inductive LogCmd
  | set (l : I64)
  | disable

/-- the call -/
def LogCmd.expr : LogCmd → Expr
  | .set l => call c!"log" c!"set-level" [.int l]
  | .disable => call c!"log" c!"disable" []

/-- The level after a history that starts with level `l`: that of the last call. -/
def levelAfter (l : I64) (h : List LogCmd) : I64 :=
  match h.getLast? with
  | none => l
  | some (.set l') => l'
  | some .disable => .lit 0

/-- The five log functions and their levels. -/
def logFns : List (Str × I64) :=
  [(c!"error", .lit 1), (c!"warn", .lit 2), (c!"info", .lit 3), (c!"debug", .lit 4),
    (c!"trace", .lit 5)]

section

variable {W : Type} {P : Plat} {H : Host W} {L : Lib} {n : Nat} {env env1 : Env} {w w1 : W}
  {lv : W → I64}

theorem levelAfter_cons (l : I64) (c : LogCmd) (h : List LogCmd) :
    levelAfter l (c :: h) = levelAfter (levelAfter l [c]) h := by
  cases h with
  | nil => rfl
  | cons d h =>
    have : ∃ x, (d :: h).getLast? = some x := ⟨_, List.getLast?_eq_some_getLast (by simp)⟩
    obtain ⟨x, hx⟩ := this
    simp only [levelAfter, List.getLast?_cons_cons, hx]
    cases x <;> rfl

theorem eval_cmd {k : Nat} (hs : Std env) (hl : LogHost H lv) (c : LogCmd) :
    ∃ w', evalD P H (bodyRun P H (stdB P L) n) (k + 3) c.expr env w = (.ok .none, env, w') ∧
      lv w' = levelAfter (lv w) [c] := by
  cases c with
  | set l =>
    refine ⟨(H.io (.setLogLevel l) w).2, ?_, hl.set l w⟩
    rw [LogCmd.expr, evalD_lib hs (tbl := Init.logM) (by mem_tac) (by mem_tac)]
    brun [Builtins.setLevelB, M.io]
  | disable =>
    refine ⟨(H.io (.setLogLevel (.lit 0)) w).2, ?_, hl.set _ w⟩
    rw [LogCmd.expr, evalD_lib hs (tbl := Init.logM) (by mem_tac) (by mem_tac)]
    brun [Builtins.disableB, M.io]

theorem eval_history {k : Nat} (hs : Std env) (hl : LogHost H lv) (last : Expr) (h : List LogCmd) :
    ∀ w, ∃ w', lv w' = levelAfter (lv w) h ∧
      evalDo (evalD P H (bodyRun P H (stdB P L) n) (k + 3)) (h.map LogCmd.expr ++ [last]) env w =
        evalD P H (bodyRun P H (stdB P L) n) (k + 3) last env w' := by
  induction h with
  | nil => exact fun w => ⟨w, rfl, rfl⟩
  | cons c h ih =>
    intro w
    obtain ⟨w1, h1, e1⟩ := eval_cmd (P := P) (L := L) (n := n) (k := k) (w := w) hs hl c
    obtain ⟨w2, e2, h2⟩ := ih w1
    refine ⟨w2, by rw [e2, e1, ← levelAfter_cons], ?_⟩
    rw [← h2]
    have : ∀ t : List Expr, evalDo (evalD P H (bodyRun P H (stdB P L) n) (k + 3))
        (c.expr :: (t ++ [last])) env w =
        evalDo (evalD P H (bodyRun P H (stdB P L) n) (k + 3)) (t ++ [last]) env w1 := by
      intro t
      cases t <;> exact M.bind_ok h1
    exact this _

/-- C57, after any history of `set-level` and `disable` calls `log@enabled? k` answers whether `k` is
at most 0 or at most the level set last. -/
theorem C57_enabled (hs : Std env) (hl : LogHost H lv) (h : List LogCmd) (k : I64) :
    ∃ w' b, evalN P H (stdB P L) (n + 1)
        (.do_ (h.map LogCmd.expr ++ [call c!"log" c!"enabled?" [.int k]])) env w =
        (.ok (.bool b), env, w') ∧
      (b = true ↔ k.val ≤ 0 ∨ k.val ≤ (levelAfter (lv w) h).val) := by
  obtain ⟨w1, e1, h1⟩ := eval_history (P := P) (L := L) (n := n) (k := 797) hs hl
    (call c!"log" c!"enabled?" [.int k]) h w
  have hd : evalN P H (stdB P L) (n + 1)
      (.do_ (h.map LogCmd.expr ++ [call c!"log" c!"enabled?" [.int k]])) env w =
      evalD P H (bodyRun P H (stdB P L) n) 800 (call c!"log" c!"enabled?" [.int k]) env w1 := by
    rw [evalN_unfold]
    exact h1
  rw [hd, evalD_lib hs (tbl := Init.logM) (by mem_tac) (by mem_tac), ← e1]
  by_cases h0 : k.val ≤ 0
  · exact ⟨w1, true, by brun [Builtins.enabledB, Builtins.logEnabled, h0], by simp [h0]⟩
  · refine ⟨w1, decide (k.val ≤ (lv w1).val), ?_, by simp [h0]⟩
    brun [Builtins.enabledB, Builtins.logEnabled, Builtins.logLevel, h0, M.io, hl.get]

/-- C57, after any history of `set-level` and `disable` calls `log@get-level` answers the level set
last. -/
theorem C57_level (hs : Std env) (hl : LogHost H lv) (h : List LogCmd) :
    ∃ w', evalN P H (stdB P L) (n + 1)
        (.do_ (h.map LogCmd.expr ++ [call c!"log" c!"get-level" []])) env w =
        (.ok (.int (levelAfter (lv w) h)), env, w') := by
  obtain ⟨w1, e1, h1⟩ := eval_history (P := P) (L := L) (n := n) (k := 797) hs hl
    (call c!"log" c!"get-level" []) h w
  have hd : evalN P H (stdB P L) (n + 1)
      (.do_ (h.map LogCmd.expr ++ [call c!"log" c!"get-level" []])) env w =
      evalD P H (bodyRun P H (stdB P L) n) 800 (call c!"log" c!"get-level" []) env w1 := by
    rw [evalN_unfold]
    exact h1
  refine ⟨w1, ?_⟩
  rw [hd, evalD_lib hs (tbl := Init.logM) (by mem_tac) (by mem_tac), ← e1]
  brun [Builtins.getLevelB, Builtins.logLevel, M.io, hl.get]

/-- C57, enabling is monotone: a level at most as high as an enabled one is enabled. -/
theorem C57_monotone (hs : Std env) (hl : LogHost H lv) {j k : I64} (hjk : j.val ≤ k.val)
    (hk : evalN P H (stdB P L) (n + 1) (call c!"log" c!"enabled?" [.int k]) env w =
      (.ok (.bool true), env, w)) :
    evalN P H (stdB P L) (n + 1) (call c!"log" c!"enabled?" [.int j]) env w =
      (.ok (.bool true), env, w) := by
  revert hk
  lib hs, Init.logM
  lib hs, Init.logM
  by_cases h0 : j.val ≤ 0
  · brun [Builtins.enabledB, Builtins.logEnabled, h0]
  · have hk0 : ¬ k.val ≤ 0 := by omega
    brun [Builtins.enabledB, Builtins.logEnabled, Builtins.logLevel, h0, hk0, M.io, hl.get]
    omega

theorem run_logEnabled (hl : LogHost H lv) {k : I64} (h0 : 0 < k.val) :
    (Builtins.logEnabled k).run H (evalN P H (stdB P L) n) env w =
      (.ok (decide (k.val ≤ (lv w).val)), env, w) := by
  have h0 : ¬ k.val ≤ 0 := by omega
  simp [Builtins.logEnabled, h0, Builtins.logLevel, BProg.run_bind, BProg.run_ask, M.bind_def,
    M.io, hl.get, BProg.run_ret]

theorem logB_suppressed (hl : LogHost H lv) {k : I64} (h0 : 0 < k.val)
    (hk : (lv w).val < k.val) (color name : Str) (args : List Expr) :
    (Builtins.logB P k color name args).run H (evalN P H (stdB P L) n) env w =
      (.ok .none, env, w) := by
  rw [Builtins.logB, BProg.run_bind, M.bind_ok (run_logEnabled hl h0),
    decide_eq_false (by omega)]
  rfl

theorem run_out (hp : ∀ s w e, (H.io (.print s) w).1 ≠ .err e) (s : Str) (env : Env) (w : W) :
    (Builtins.out s).run H (evalN P H (stdB P L) n) env w =
      (.ok (), env, (H.io (.print s) w).2) := by
  have := hp s w
  simp only [Builtins.out, BProg.run_bind, BProg.run_ask, M.bind_def, M.io]
  cases hr : (H.io (.print s) w).1 with
  | err e => exact absurd hr (this e)
  | _ => rfl

theorem logB_printed (hl : LogHost H lv) (hp : ∀ s w e, (H.io (.print s) w).1 ≠ .err e) {k : I64}
    (h0 : 0 < k.val) (hk : k.val ≤ (lv w).val) (color name : Str) {a v : Expr}
    (ha : evalN P H (stdB P L) n a env w = (.ok v, env1, w1))
    (hv : splitStr c!"\n" (display P v) = [display P v]) :
    ∃ pre, (Builtins.logB P k color name [a]).run H (evalN P H (stdB P L) n) env w =
      (.ok .none, env1,
        (H.io (.print (display P v ++ c!"\n")) (H.io (.print pre) w1).2).2) := by
  refine ⟨c!"\x1b[" ++ color ++ c!"m[" ++ name ++ c!"]\x1b[m ", ?_⟩
  rw [Builtins.logB, BProg.run_bind, M.bind_ok (run_logEnabled hl h0), decide_eq_true hk, if_pos rfl]
  simp only [Builtins.logLoop, BProg.run_bind, BProg.run_ev]
  rw [M.bind_ok ha, hv]
  simp [-bind_pure_comp, BProg.run_bind, M.bind_def, run_out hp, BProg.run_ret]

theorem split_newline {s : Str} (h : '\n' ∉ s) : splitStr c!"\n" s = [s] := by
  rw [splitStr, if_neg (by decide)]
  have : ∀ (s cur : Str), '\n' ∉ s → splitGo c!"\n" 0 s cur = [cur.reverse ++ s] := by
    intro s
    induction s with
    | nil => simp [splitGo]
    | cons c s ih =>
      intro cur h
      simp only [List.mem_cons, not_or] at h
      have hp : List.isPrefixOf c!"\n" (c :: s) = false := by
        simp [List.isPrefixOf, h.1]
      simp only [splitGo, hp]
      rw [if_neg (by simp), ih _ h.2]
      simp
  exact this s [] h

/-- C57, a message whose level is above the current one is not printed, and its arguments are not
even evaluated. -/
theorem C57_suppressed (hs : Std env) (hl : LogHost H lv) {f : Str} {k : I64}
    (hf : (f, k) ∈ logFns) (hk : (lv w).val < k.val) (args : List Expr) :
    evalN P H (stdB P L) (n + 1) (call c!"log" f args) env w = (.ok .none, env, w) := by
  simp only [logFns, List.mem_cons, Prod.mk.injEq, List.not_mem_nil, or_false] at hf
  rcases hf with ⟨rfl, rfl⟩ | ⟨rfl, rfl⟩ | ⟨rfl, rfl⟩ | ⟨rfl, rfl⟩ | ⟨rfl, rfl⟩ <;>
  · lib hs, Init.logM
    rw [evalN_builtin]
    exact logB_suppressed hl (by decide) hk _ _ _

/-- C57, a message whose level is at most the current one is printed (if standard output can be
written to): for one argument with a one-line value, a coloured prefix and then the value and a line
end. -/
theorem C57_printed (hs : Std env) (hl : LogHost H lv)
    (hp : ∀ s w e, (H.io (.print s) w).1 ≠ .err e) {f : Str} {k : I64}
    (hf : (f, k) ∈ logFns) (hk : k.val ≤ (lv w).val) {a v : Expr}
    (ha : evalN P H (stdB P L) n a env w = (.ok v, env1, w1)) (hv : '\n' ∉ display P v) :
    ∃ pre : Str, evalN P H (stdB P L) (n + 1) (call c!"log" f [a]) env w =
      (.ok .none, env1,
        (H.io (.print (display P v ++ c!"\n")) (H.io (.print pre) w1).2).2) := by
  have hsp := split_newline hv
  simp only [logFns, List.mem_cons, Prod.mk.injEq, List.not_mem_nil, or_false] at hf
  rcases hf with ⟨rfl, rfl⟩ | ⟨rfl, rfl⟩ | ⟨rfl, rfl⟩ | ⟨rfl, rfl⟩ | ⟨rfl, rfl⟩ <;>
  · lib hs, Init.logM
    rw [evalN_builtin]
    exact logB_printed hl hp (by decide) hk _ _ ha hsp

/-- `log@level@f` -/
def levelName (f : Str) : Expr :=
  .apply (.symbol c!"@") [.symbol c!"log", .symbol c!"level", .symbol f]

/-- The levels by name: the level of a log function has the name of the function. -/
def logLevels : List (Str × I64) := (c!"none", .lit 0) :: logFns

theorem evalD_member2 {k : Nat} {m f g nm hlp : Str} {mod : BMap Expr} {t : BMap Expr} {v : Expr}
    (hat : env.get c!"@" = some (.builtin nm .index hlp)) (hm : env.get m = some (.map mod))
    (hf : mod.get? f = some (.map t)) (hg : t.get? g = some v) :
    evalD P H (bodyRun P H (stdB P L) n) (k + 2)
      (.apply (.symbol c!"@") [.symbol m, .symbol f, .symbol g]) env w = (.ok v, env, w) := by
  rw [evalD]
  simp only [evalStep]
  rw [M.bind_ok (evalD_symbol hat)]
  simp only [applyValue, bodyRun, stdB, Builtins.indexB, Builtins.evArg, Builtins.arg,
    List.getElem?_cons_zero, BProg.run_bind, BProg.run_ret, pure_bind, BProg.run_ev, List.tail_cons,
    Builtins.indexLoop]
  rw [M.bind_ok (evalN_sym hm)]
  simp [Expr.index, hf, hg]

/-- C57, `log@level@f` is the level of the messages of `log@f`; `log@level@none` is 0. -/
theorem C57_names (hs : Std env) {f : Str} {k : I64} (hf : (f, k) ∈ logLevels) :
    evalN P H (stdB P L) (n + 1) (levelName f) env w = (.ok (.int k), env, w) := by
  obtain ⟨t, ht, h⟩ := hs.mod (c!"log", Init.logM) (by mem_tac)
  have hat := hs.op (Init.b c!"@" .index) (by mem_tac)
  refine evalD_member2 (k := 799) hat ht (h (c!"level", _) (List.Mem.head _)) ?_
  simp only [logLevels, logFns, List.mem_cons, Prod.mk.injEq, List.not_mem_nil, or_false] at hf
  rcases hf with ⟨rfl, rfl⟩ | ⟨rfl, rfl⟩ | ⟨rfl, rfl⟩ | ⟨rfl, rfl⟩ | ⟨rfl, rfl⟩ | ⟨rfl, rfl⟩ <;> rfl

/-- C57, `log@set-level log@level@g` makes the level of the messages of `log@g` the level. -/
theorem C57_set_by_name (hs : Std env) (hl : LogHost H lv) {g : Str} {k : I64}
    (hg : (g, k) ∈ logLevels) :
    ∃ w', evalN P H (stdB P L) (n + 2) (call c!"log" c!"set-level" [levelName g]) env w =
        (.ok .none, env, w') ∧ lv w' = k := by
  have h := C57_names (P := P) (H := H) (L := L) (n := n) (w := w) hs hg
  refine ⟨(H.io (.setLogLevel k) w).2, ?_, hl.set _ w⟩
  lib hs, Init.logM
  rw [evalN_builtin]
  brun [Builtins.setLevelB, M.io, h]

/-- A world with a log level and a record of what was printed. -/
def demoLog : Host (I64 × List Str) where
  io op w := match op with
    | .getLogLevel => (.int w.1, w)
    | .setLogLevel l => (.unit, l, w.2)
    | .print s => (.unit, w.1, w.2 ++ [s])
    | _ => (.unit, w)

example : LogHost demoLog (fun w => w.1) where
  get _ := rfl
  set _ _ := rfl
  other op w h := by
    cases op <;> first | rfl | exact absurd rfl (h _)

example : (evalN Demo.plat demoLog (stdB Demo.plat Demo.lib) 2
    (.do_ [call c!"log" c!"info" [.str c!"hidden"], call c!"log" c!"set-level" [.int (.lit 3)],
      call c!"log" c!"info" [.str c!"shown"], call c!"log" c!"debug" [.str c!"hidden"]])
    Demo.env (.lit 0, [])).2.2.2 = [c!"\x1b[92m[INFO]\x1b[m ", c!"shown\n"] := rfl

example : (c!"warn", I64.lit 2) ∈ logLevels ∧
    evalN Demo.plat demoLog (stdB Demo.plat Demo.lib) 2
      (.do_ [call c!"log" c!"set-level" [levelName c!"warn"], call c!"log" c!"get-level" []])
      Demo.env (.lit 0, []) = (.ok (.int (.lit 2)), Demo.env, (.lit 2, [])) := ⟨by mem_tac, rfl⟩

end

/-! ### Instances: the hypotheses can be met -/

theorem demoLog_host : LogHost demoLog (fun w => w.1) where
  get _ := rfl
  set _ _ := rfl
  other op w h := by
    cases op <;> first | rfl | exact absurd rfl (h _)

example := C57_enabled (P := Demo.plat) (L := Demo.lib) (n := 0) (w := (.lit 0, [])) demo_std demoLog_host
  [.set (.lit 4), .disable, .set (.lit 3)] (.lit 2)

example := C57_level (P := Demo.plat) (L := Demo.lib) (n := 0) (w := (.lit 0, [])) demo_std demoLog_host
  [.set (.lit 4), .disable]

example := C57_monotone (P := Demo.plat) (L := Demo.lib) (n := 0) (w := (.lit 3, [])) demo_std demoLog_host
  (j := .lit 1) (k := .lit 3) (by decide) rfl

example := C57_suppressed (P := Demo.plat) (L := Demo.lib) (n := 0) (w := (I64.lit 2 (by decide), [])) demo_std demoLog_host
  (f := c!"debug") (k := .lit 4) (by simp [logFns]) (by decide) [.str c!"x"]

example := C57_printed (P := Demo.plat) (L := Demo.lib) (n := 0) (w := (I64.lit 4 (by decide), [])) demo_std demoLog_host
  (by intro s w e; simp [demoLog]) (f := c!"debug") (k := .lit 4) (by simp [logFns]) (by decide)
  (a := .str c!"x") rfl (by decide)

example := C57_names (P := Demo.plat) (H := Demo.host) (L := Demo.lib) (n := 0) (w := [])
  demo_std (f := c!"warn") (k := .lit 2) (by simp [logLevels, logFns])

end Dune.Props
