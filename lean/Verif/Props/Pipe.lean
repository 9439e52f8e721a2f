import Mathlib.Data.List.Forall2
import Verif.Props.Fs
import Verif.Spec.Eval
import Verif.Props.Eval

/-! Properties C55 and C56: pipelines. -/

namespace Dune.Props

open Spec M

section

variable {W : Type} {P : Plat} {H : Host W} {L : Lib} {n : Nat} {env : Env} {w : W}

/-- The expression runs the program `prog` with the arguments `args`: its name is not a variable, or
is a variable holding a name, or is quoted; parentheses and quotes around it do not matter. -/
inductive Names (env : Env) : Expr → Str → List Expr → Prop
  | bare {x} : env.get x = none → Names env (.symbol x) x []
  | alias_ {x y} : env.get x = some (.symbol y) → Names env (.symbol x) y []
  | app {x args} : env.get x = none → Names env (.apply (.symbol x) args) x args
  | appAlias {x y args} : env.get x = some (.symbol y) → Names env (.apply (.symbol x) args) y args
  | appStr {x args} : env.get x = none → Names env (.apply (.str x) args) x args
  | appStrAlias {x y args} : env.get x = some (.symbol y) → Names env (.apply (.str x) args) y args
  | appQuote {x args} : Names env (.apply (.quote (.symbol x)) args) x args
  | appQuoteStr {x args} : Names env (.apply (.quote (.str x)) args) x args
  | group {e x args} : Names env e x args → Names env (.group e) x args
  | quote {e x args} : Names env e x args → Names env (.quote e) x args

/-- One stage of a pipeline, as its user thinks of it. -/
inductive Stg
  /-- a program with its rendered arguments -/
  | prog (e : Expr) (name : Str) (args : List Str)
  /-- a value -/
  | data (v : Expr)
  /-- the function `g`, written as the expression `e` -/
  | fn (e : Expr) (g : Expr → Expr)

def Stg.expr : Stg → Expr
  | .prog e _ _ => e
  | .data v => v
  | .fn e _ => e

/-- The bytes of a value: those of a bytes value, else those of its text. -/
def wire (P : Plat) : Expr → List UInt8
  | .bytes b => b
  | v => utf8Encode (display P v)

/-- The value a function sees when a program wrote the bytes `b`: a string if they are text. -/
inductive Received : List UInt8 → Expr → Prop
  | text (s : Str) : Received (utf8Encode s) (.str s)
  | raw {b : List UInt8} : (∀ s, utf8Encode s ≠ b) → Received b (.bytes b)

/-- What a pipeline does: `prev` is the value produced so far (`none` for the first stage). Programs
are started in directory `cwd` with the variables `vars`; each reads the bytes of `prev`, or inherits
standard input; all but the last have their output collected. The result is `none` if a
program fails to run. -/
inductive Flow (P : Plat) (H : Host W) (cwd : Str) (vars : BMap Str) :
    Option Expr → List Stg → W → Option Expr → W → Prop
  | done {v w} : Flow P H cwd vars (some v) [] w (some v) w
  | data {v ss w r w'} : Flow P H cwd vars (some v) ss w r w' →
      Flow P H cwd vars none (.data v :: ss) w r w'
  | fn {e g v ss w r w'} : Flow P H cwd vars (some (g v)) ss w r w' →
      Flow P H cwd vars (some v) (.fn e g :: ss) w r w'
  | last {prev e name args w ans w'} :
      H.io (.stage name cwd args vars (prev.map (wire P)) .inherit) w = (ans, w') →
      (∀ x, ans ≠ .stageErr x) →
      Flow P H cwd vars prev [.prog e name args] w (some .none) w'
  | lastFails {prev e name args w x w'} :
      H.io (.stage name cwd args vars (prev.map (wire P)) .inherit) w = (.stageErr x, w') →
      Flow P H cwd vars prev [.prog e name args] w none w'
  | piped {prev e name args s ss w b v w1 r w'} :
      H.io (.stage name cwd args vars (prev.map (wire P)) .piped) w = (.bytes b, w1) →
      Received b v → Flow P H cwd vars (some v) (s :: ss) w1 r w' →
      Flow P H cwd vars prev (.prog e name args :: s :: ss) w r w'
  | pipedFails {prev e name args s ss w ans w'} :
      H.io (.stage name cwd args vars (prev.map (wire P)) .piped) w = (ans, w') →
      (∀ b, ans ≠ .bytes b) → Flow P H cwd vars prev (.prog e name args :: s :: ss) w none w'

/-- The words a program is given for the arguments of its call: the texts of their values, except that
a literal `None` gives no word. -/
inductive Rendered (P : Plat) (ev : Expr → M W Expr) (env : Env) : List Expr → List Str → Prop
  | nil : Rendered P ev env [] []
  | skip {as ss} : Rendered P ev env as ss → Rendered P ev env (.none :: as) ss
  | cons {a v as ss} : a ≠ .none → (∀ w, ev a env w = (.ok v, env, w)) → Rendered P ev env as ss →
      Rendered P ev env (a :: as) (display P v :: ss)

/-- The stage is what it is said to be: `ev` evaluates, `D` are the values functions are used on. -/
def StgOk (P : Plat) (ev : Expr → M W Expr) (env : Env) (D : Expr → Prop) (first : Bool) :
    Stg → Prop
  | .prog e name strs => ∃ args, Names env e name args ∧ Rendered P ev env args strs
  | .data v => first = true ∧ D v ∧ (¬ ∃ name args, Names env v name args) ∧
      ∀ w, ev v env w = (.ok v, env, w)
  | .fn e g => first = false ∧ (¬ ∃ name args, Names env e name args) ∧
      ∀ v w, D v → D (g v) ∧ ev (.apply e [v]) env w = (.ok (g v), env, w)

/-- All stages of a pipeline are what they are said to be; only the first may be a value. -/
def AllOk (P : Plat) (ev : Expr → M W Expr) (env : Env) (D : Expr → Prop) :
    Bool → List Stg → Prop
  | _, [] => True
  | first, s :: ss => StgOk P ev env D first s ∧ AllOk P ev env D false ss

theorem run_cmdArgs {ev : Expr → M W Expr} {args : List Expr} {strs : List Str}
    (h : Rendered P ev env args strs) (w : W) :
    (Builtins.cmdArgs P args).run H ev env w = (.ok strs, env, w) := by
  induction h with
  | nil => rfl
  | skip _ ih => exact ih
  | @cons a v as ss hne he _ ih =>
    have : Builtins.cmdArgs P (a :: as) = (BProg.ev a >>= fun v => Builtins.cmdArgs P as >>=
        fun rest => .ret (display P v :: rest)) := by
      cases a <;> first | rfl | exact absurd rfl hne
    rw [this, BProg.run_bind, BProg.run_ev, M.bind_ok (he w), BProg.run_bind, M.bind_ok ih]
    rfl

theorem run_exprToCommand {ev : Expr → M W Expr} {e : Expr} {name : Str} {args : List Expr}
    (hn : Names env e name args) {strs : List Str}
    (h : Rendered P ev env args strs) (w : W) :
    (Builtins.exprToCommand P e).run H ev env w =
      (.ok (some ⟨name, env.getCwd, strs, exportBindings P env.bindings⟩), env, w) := by
  have hc : ∀ x, (Builtins.exprToCommand.command P x args).run H ev env w =
      (.ok (some ⟨x, env.getCwd, strs, exportBindings P env.bindings⟩), env, w) := by
    intro x
    rw [Builtins.exprToCommand.command, BProg.run_bind, BProg.run_env,
      M.bind_ok (show M.getEnv env w = (.ok env, env, w) from rfl), BProg.run_bind,
      M.bind_ok (run_cmdArgs h w)]
    rfl
  induction hn with
  | bare hx | alias_ hx =>
    cases h
    rw [Builtins.exprToCommand, BProg.run_bind, BProg.run_env,
      M.bind_ok (show M.getEnv env w = (.ok env, env, w) from rfl), hx]
    rfl
  | app hx | appAlias hx | appStr hx | appStrAlias hx =>
    rw [Builtins.exprToCommand, Builtins.exprToCommand.named, BProg.run_bind, BProg.run_env,
      M.bind_ok (show M.getEnv env w = (.ok env, env, w) from rfl), hx]
    exact hc _
  | appQuote | appQuoteStr => rw [Builtins.exprToCommand]; exact hc _
  | group _ ih | quote _ ih => rw [Builtins.exprToCommand]; exact ih h hc

theorem run_notCommand {ev : Expr → M W Expr} : ∀ {e : Expr},
    (¬ ∃ name args, Names env e name args) → ∀ w : W,
    (Builtins.exprToCommand P e).run H ev env w = (.ok none, env, w)
  | .group e, h, w => by
    rw [Builtins.exprToCommand]
    exact run_notCommand (fun ⟨x, as, hn⟩ => h ⟨x, as, .group hn⟩) w
  | .quote e, h, w => by
    rw [Builtins.exprToCommand]
    exact run_notCommand (fun ⟨x, as, hn⟩ => h ⟨x, as, .quote hn⟩) w
  | .symbol x, h, w => by
    rw [Builtins.exprToCommand, BProg.run_bind, BProg.run_env,
      M.bind_ok (show M.getEnv env w = (.ok env, env, w) from rfl)]
    cases hx : env.get x with
    | none => exact absurd ⟨_, _, .bare hx⟩ h
    | some v =>
      cases v <;> first | rfl | exact absurd ⟨_, _, .alias_ hx⟩ h
  | .apply f args, h, w => by
    have named : ∀ x : Str, (∀ y, env.get x ≠ some (.symbol y)) → env.get x ≠ none →
        (Builtins.exprToCommand.named P x args).run H ev env w = (.ok none, env, w) := by
      intro x h1 h2
      rw [Builtins.exprToCommand.named, BProg.run_bind, BProg.run_env,
        M.bind_ok (show M.getEnv env w = (.ok env, env, w) from rfl)]
      cases hx : env.get x with
      | none => exact absurd hx h2
      | some v =>
        cases v
        case symbol y => exact absurd hx (h1 y)
        all_goals rfl
    cases f
    case symbol x =>
      rw [Builtins.exprToCommand]
      exact named x (fun y hy => h ⟨_, _, .appAlias hy⟩) (fun hy => h ⟨_, _, .app hy⟩)
    case str x =>
      rw [Builtins.exprToCommand]
      exact named x (fun y hy => h ⟨_, _, .appStrAlias hy⟩) (fun hy => h ⟨_, _, .appStr hy⟩)
    case quote q =>
      cases q
      case symbol => exact absurd ⟨_, _, .appQuote⟩ h
      case str => exact absurd ⟨_, _, .appQuoteStr⟩ h
      all_goals rfl
    all_goals rfl
  | .none, _, _ | .int _, _, _ | .float _, _, _ | .bytes _, _, _ | .str _, _, _ | .bool _, _, _
  | .list _, _, _ | .map _, _, _ | .assign _ _, _, _ | .for_ _ _ _, _, _ | .ite _ _ _, _, _
  | .lambda _ _ _ _, _, _ | .macro_ _ _, _, _ | .do_ _, _, _ | .builtin _ _ _, _, _ => rfl

theorem wire_received {b : List UInt8} {v : Expr} (h : Received b v) :
    Builtins.textOrBytes b = v ∧ wire P v = b := by
  cases h with
  | text s => exact ⟨by rw [Builtins.textOrBytes, utf8_roundtrip], rfl⟩
  | raw h =>
    refine ⟨?_, rfl⟩
    rw [Builtins.textOrBytes]
    cases hd : utf8Decode b with
    | none => rfl
    | some s => exact absurd (utf8Decode_eq hd) (h s)

theorem received_exists (b : List UInt8) : ∃ v, Received b v := by
  by_cases h : ∃ s, utf8Encode s = b
  · obtain ⟨s, rfl⟩ := h
    exact ⟨_, .text s⟩
  · exact ⟨_, .raw fun s hs => h ⟨s, hs⟩⟩

theorem bytesOf_eq (v : Expr) : Builtins.bytesOf P v = wire P v := by
  cases v <;> rfl

/-- A result of a pipeline as the outcome of an evaluation: a failing program is an error. -/
def Ends : Option Expr → Outcome Expr → Prop
  | some v, o => o = .ok v
  | none, o => ∃ m, o = .err (.customError m)

theorem pipeLoop_cons (first : Bool) (e : Expr) (es : List Expr) (res : Expr) (buf : List UInt8) :
    Builtins.pipeLoop P first (e :: es) res buf = (do
    match ← Builtins.exprToCommand P e with
    | some c =>
      let r ← BProg.ask (.stage c.prog c.cwd c.args c.envs (if first then none else some buf)
        (if es.isEmpty then .inherit else .piped))
      match r with
      | .stageErr .spawn => BProg.fail (c!"could not spawn process `" ++ display P e ++ c!"`")
      | .stageErr .pipe => BProg.fail (c!"error when piping into process `" ++ display P e ++ c!"`")
      | .stageErr .wait => BProg.fail (c!"error when waiting for process `" ++ display P e ++ c!"`")
      | .bytes b =>
        if es.isEmpty then Builtins.pipeLoop P false es (if first then res else .none) []
        else Builtins.pipeLoop P false es (Builtins.textOrBytes b) b
      | _ =>
        if es.isEmpty then Builtins.pipeLoop P false es (if first then res else .none) []
        else BProg.fail (c!"error when waiting for process `" ++ display P e ++ c!"`")
    | none =>
      let v ← BProg.ev (if first then e else .apply e [res])
      Builtins.pipeLoop P false es v (Builtins.bytesOf P v)) := rfl

/-- The loop follows the flow: `prev` is the value before the stages, `first` holds at the first. -/
theorem run_pipeLoop {ev : Expr → M W Expr} {D : Expr → Prop} (hD : ∀ b v, Received b v → D v)
    {prev : Option Expr} {ss : List Stg} {w : W} {r : Option Expr} {w' : W}
    (hf : Flow P H env.getCwd (exportBindings P env.bindings) prev ss w r w')
    (hok : AllOk P ev env D prev.isNone ss) (hprev : ∀ v, prev = some v → D v)
    (hlen : prev = none → 2 ≤ ss.length) :
    ∃ o, (Builtins.pipeLoop P prev.isNone (ss.map Stg.expr) (prev.getD .none)
      ((prev.map (wire P)).getD [])).run H ev env w = (o, env, w') ∧ Ends r o := by
  have hin : ∀ prev : Option Expr, (if prev.isNone = true then none else
      some ((prev.map (wire P)).getD [])) = prev.map (wire P) := by
    intro prev; cases prev <;> rfl
  induction hf with
  | done => exact ⟨_, rfl, rfl⟩
  | @data v ss w r w' hf ih =>
    obtain ⟨⟨_, hDv, hn, he⟩, hss⟩ := hok
    obtain ⟨o, h, ho⟩ := ih hss (by rintro _ ⟨⟩; exact hDv) (by simp)
    refine ⟨o, ?_, ho⟩
    rw [List.map_cons, pipeLoop_cons, Stg.expr, BProg.run_bind, M.bind_ok (run_notCommand hn w)]
    show BProg.run H ev (BProg.ev v >>= fun v => _) env w = _
    rw [BProg.run_bind, BProg.run_ev, M.bind_ok (he w), bytesOf_eq]
    exact h
  | @fn e g v ss w r w' hf ih =>
    obtain ⟨⟨_, hn, he⟩, hss⟩ := hok
    obtain ⟨hDg, he⟩ := he v w (hprev v rfl)
    obtain ⟨o, h, ho⟩ := ih hss (by rintro _ ⟨⟩; exact hDg) (by simp)
    refine ⟨o, ?_, ho⟩
    rw [List.map_cons, pipeLoop_cons, Stg.expr, BProg.run_bind, M.bind_ok (run_notCommand hn w)]
    show BProg.run H ev (BProg.ev (.apply e [v]) >>= fun v => _) env w = _
    rw [BProg.run_bind, BProg.run_ev, M.bind_ok he, bytesOf_eq]
    exact h
  | @last prev e name args w ans w' hio hans =>
    obtain ⟨⟨as, hn, hargs⟩, _⟩ := hok
    have hsome : prev.isNone = false := by
      cases prev with
      | none => simp at hlen
      | some => rfl
    refine ⟨_, ?_, rfl⟩
    rw [List.map_cons, pipeLoop_cons, Stg.expr, BProg.run_bind, M.bind_ok (run_exprToCommand hn hargs w)]
    simp only [List.map_nil, List.isEmpty_nil, if_true, hin]
    rw [BProg.run_bind, BProg.run_ask, M.bind_ok (show M.io H _ env w = (.ok ans, env, w') by
      rw [M.io, hio])]
    rw [hsome]
    cases ans
    case stageErr x => exact absurd rfl (hans x)
    all_goals rfl
  | @lastFails prev e name args w x w' hio =>
    obtain ⟨⟨as, hn, hargs⟩, _⟩ := hok
    rw [List.map_cons, pipeLoop_cons, Stg.expr, BProg.run_bind, M.bind_ok (run_exprToCommand hn hargs w)]
    simp only [List.map_nil, List.isEmpty_nil, if_true, hin]
    rw [BProg.run_bind, BProg.run_ask,
      M.bind_ok (show M.io H _ env w = (.ok (.stageErr x), env, w') by rw [M.io, hio])]
    cases x <;> exact ⟨_, rfl, _, rfl⟩
  | @piped prev e name args s ss w b v w1 r w' hio hr hf ih =>
    obtain ⟨⟨as, hn, hargs⟩, hss⟩ := hok
    obtain ⟨o, h, ho⟩ := ih hss (by rintro _ ⟨⟩; exact hD _ _ hr) (by simp)
    refine ⟨o, ?_, ho⟩
    rw [List.map_cons, pipeLoop_cons, Stg.expr, BProg.run_bind, M.bind_ok (run_exprToCommand hn hargs w)]
    simp only [List.map_cons, List.isEmpty_cons, hin, Bool.false_eq_true, if_false]
    rw [BProg.run_bind, BProg.run_ask, M.bind_ok (show M.io H _ env w = (.ok (.bytes b), env, w1) by
      rw [M.io, hio])]
    obtain ⟨h1, h2⟩ := wire_received (P := P) hr
    simp only [Option.isNone_some, Option.getD_some, Option.map_some, h2] at h
    simp only [h1]
    exact h
  | @pipedFails prev e name args s ss w ans w' hio hans =>
    obtain ⟨⟨as, hn, hargs⟩, hss⟩ := hok
    rw [List.map_cons, pipeLoop_cons, Stg.expr, BProg.run_bind, M.bind_ok (run_exprToCommand hn hargs w)]
    simp only [List.map_cons, List.isEmpty_cons, hin, Bool.false_eq_true, if_false]
    rw [BProg.run_bind, BProg.run_ask, M.bind_ok (show M.io H _ env w = (.ok ans, env, w') by
      rw [M.io, hio])]
    cases ans
    case bytes b => exact absurd rfl (hans b)
    case stageErr x => cases x <;> exact ⟨_, rfl, _, rfl⟩
    all_goals exact ⟨_, rfl, _, rfl⟩

/-- Every pipeline has a flow. -/
theorem Flow.exists (cwd : Str) (vars : BMap Str) {ev : Expr → M W Expr} {D : Expr → Prop} :
    ∀ (ss : List Stg) (prev : Option Expr) (w : W), AllOk P ev env D prev.isNone ss →
      (prev = none → ss ≠ []) → ∃ r w', Flow P H cwd vars prev ss w r w'
  | [], prev, w, _, h => by
    cases prev with
    | none => exact absurd rfl (h rfl)
    | some v => exact ⟨_, _, .done⟩
  | .data v :: ss, prev, w, hok, _ => by
    obtain ⟨⟨h1, _⟩, hss⟩ := hok
    cases prev with
    | some => simp at h1
    | none =>
      obtain ⟨r, w', hf⟩ := Flow.exists cwd vars ss (some v) w hss (by simp)
      exact ⟨r, w', .data hf⟩
  | .fn e g :: ss, prev, w, hok, _ => by
    obtain ⟨⟨h1, _⟩, hss⟩ := hok
    cases prev with
    | none => simp at h1
    | some v =>
      obtain ⟨r, w', hf⟩ := Flow.exists cwd vars ss (some (g v)) w hss (by simp)
      exact ⟨r, w', .fn hf⟩
  | [.prog e name args], prev, w, _, _ => by
    rcases hio : H.io (.stage name cwd args vars (prev.map (wire P)) .inherit) w with ⟨ans, w'⟩
    by_cases hx : ∃ x, ans = .stageErr x
    · obtain ⟨x, rfl⟩ := hx
      exact ⟨_, _, .lastFails hio⟩
    · exact ⟨_, _, .last hio fun x h => hx ⟨x, h⟩⟩
  | .prog e name args :: s :: ss, prev, w, hok, _ => by
    rcases hio : H.io (.stage name cwd args vars (prev.map (wire P)) .piped) w with ⟨ans, w1⟩
    by_cases hx : ∃ b, ans = .bytes b
    · obtain ⟨b, rfl⟩ := hx
      obtain ⟨v, hv⟩ := received_exists b
      obtain ⟨r, w', hf⟩ := Flow.exists cwd vars (s :: ss) (some v) w1 hok.2 (by simp)
      exact ⟨r, w', .piped hio hv hf⟩
    · exact ⟨_, _, .pipedFails hio fun x h => hx ⟨x, h⟩⟩

/-- C55: a pipeline of at least two stages does to the world exactly what `Flow` says, and ends with
its result. `D` are the values the function stages work on; it must contain whatever programs can
send to a function. -/
theorem C55_pipe (hs : Std env) {D : Expr → Prop} (hD : ∀ b v, Received b v → D v) {ss : List Stg}
    (hlen : 2 ≤ ss.length) (hok : AllOk P (evalN P H (stdB P L) n) env D true ss) :
    ∃ r w' o, Flow P H env.getCwd (exportBindings P env.bindings) none ss w r w' ∧
      evalN P H (stdB P L) (n + 1) (.apply (.symbol c!"|") (ss.map Stg.expr)) env w =
        (o, env, w') ∧ Ends r o := by
  obtain ⟨r, w', hf⟩ := Flow.exists (P := P) (H := H) env.getCwd (exportBindings P env.bindings) ss
    none w hok (by rintro _ rfl; simp at hlen)
  obtain ⟨o, h, ho⟩ := run_pipeLoop hD hf hok (by simp) (fun _ => hlen)
  refine ⟨r, w', o, hf, ?_, ho⟩
  have hop : env.get c!"|" = some (.builtin c!"|" .pipe _) :=
    hs.op (Init.b c!"|" .pipe) (by mem_tac)
  rw [evalN_symbol hop, evalN_builtin]
  show ((Builtins.pipeB P (ss.map Stg.expr)).run H _) env w = _
  rw [Builtins.pipeB, if_neg (by rw [List.length_map]; omega)]
  exact h

/-- C55, C56: a pipeline of fewer than two stages is an error and does nothing. -/
theorem C56_at_least_two (hs : Std env) {args : List Expr} (h : args.length < 2) :
    ∃ m, evalN P H (stdB P L) (n + 1) (.apply (.symbol c!"|") args) env w =
      (.err (.customError m), env, w) := by
  have hop : env.get c!"|" = some (.builtin c!"|" .pipe _) :=
    hs.op (Init.b c!"|" .pipe) (by mem_tac)
  refine ⟨c!"pipe requires at least two arguments", ?_⟩
  rw [evalN_symbol hop, evalN_builtin]
  show ((Builtins.pipeB P args).run H _) env w = _
  rw [Builtins.pipeB, if_pos (by omega)]
  rfl

theorem run_pipeLoop_fns {ev : Expr → M W Expr} {D : Expr → Prop} :
    ∀ (fs : List (Expr × (Expr → Expr))) (v : Expr) (buf : List UInt8), D v →
    (∀ f ∈ fs, (¬ ∃ name args, Names env f.1 name args) ∧ ∀ v w, D v → D (f.2 v) ∧
      ev (.apply f.1 [v]) env w = (.ok (f.2 v), env, w)) →
    (Builtins.pipeLoop P false (fs.map Prod.fst) v buf).run H ev env w =
      (.ok (fs.foldl (fun x f => f.2 x) v), env, w)
  | [], v, buf, _, _ => rfl
  | f :: fs, v, buf, hv, h => by
    obtain ⟨hn, he⟩ := h f (List.mem_cons_self ..)
    obtain ⟨hD, he⟩ := he v w hv
    rw [List.map_cons, pipeLoop_cons, BProg.run_bind, M.bind_ok (run_notCommand hn w)]
    show BProg.run H ev (BProg.ev (.apply f.1 [v]) >>= fun v => _) env w = _
    rw [BProg.run_bind, BProg.run_ev, M.bind_ok he]
    exact run_pipeLoop_fns fs _ _ hD fun g hg => h g (List.mem_cons_of_mem _ hg)

/-- C56: `v | f₁ | f₂ | …`, with at least one function, is `… f₂ (f₁ v)`; `D` are the values the
functions work on. -/
theorem C56_compose (hs : Std env) {D : Expr → Prop} {v : Expr} (hv : D v)
    (hself : ∀ w, evalN P H (stdB P L) n v env w = (.ok v, env, w))
    (hval : ¬ ∃ name args, Names env v name args)
    {fs : List (Expr × (Expr → Expr))} (hne : fs ≠ [])
    (hfs : ∀ f ∈ fs, (¬ ∃ name args, Names env f.1 name args) ∧ ∀ v w, D v → D (f.2 v) ∧
      evalN P H (stdB P L) n (.apply f.1 [v]) env w = (.ok (f.2 v), env, w)) :
    evalN P H (stdB P L) (n + 1) (.apply (.symbol c!"|") (v :: fs.map Prod.fst)) env w =
      (.ok (fs.foldl (fun x f => f.2 x) v), env, w) := by
  have hop : env.get c!"|" = some (.builtin c!"|" .pipe _) :=
    hs.op (Init.b c!"|" .pipe) (by mem_tac)
  rw [evalN_symbol hop, evalN_builtin]
  show ((Builtins.pipeB P (v :: fs.map Prod.fst)).run H _) env w = _
  have hlen : 0 < fs.length := List.length_pos_of_ne_nil hne
  rw [Builtins.pipeB, if_neg (by rw [List.length_cons, List.length_map]; omega), pipeLoop_cons,
    BProg.run_bind, M.bind_ok (run_notCommand hval w)]
  show BProg.run H _ (BProg.ev v >>= fun v => _) env w = _
  rw [BProg.run_bind, BProg.run_ev, M.bind_ok (hself w)]
  exact run_pipeLoop_fns fs v _ hv hfs

/-- A function that adds `k`. -/
def adder (k : I64) : Expr :=
  .lambda c!"x" (.apply (.symbol c!"+") [.symbol c!"x", .int k]) Demo.env.bindings []

example : evalN Demo.plat Demo.host (stdB Demo.plat Demo.lib) 3
    (.apply (.symbol c!"|") [.int (.lit 1), adder (.lit 2), adder (.lit 3)]) Demo.env [] =
    (.ok (.int (.lit 6)), Demo.env, []) := rfl

example : ¬ ∃ name args, Names Demo.env (adder (.lit 2)) name args := by
  rintro ⟨_, _, h⟩
  cases h

/-- A world in which every program copies its input and adds a `!`, except that `bad` does not
start. -/
def demoPipe : Host (List IOp) where
  io op w := match op with
    | .stage p _ _ _ i _ =>
      (if p = c!"bad" then .stageErr .spawn else .bytes (i.getD [] ++ [33]), w ++ [op])
    | _ => (.unit, w)

/-- What running the pipeline in this world gives, with the programs, inputs and outputs of the
stages that were started. -/
def demoRun (stages : List Expr) : Outcome Expr × List (Str × Option (List UInt8) × Stdio) :=
  let r := evalN Demo.plat demoPipe (stdB Demo.plat Demo.lib) 3
    (.apply (.symbol c!"|") stages) Demo.env []
  (r.1, r.2.2.filterMap fun
    | .stage p _ _ _ i o => some (p, i, o)
    | _ => none)

example : demoRun [.symbol c!"p", .apply (.symbol c!"q") [.str c!"-a"],
      .lambda c!"x" (.apply (.symbol c!"+") [.symbol c!"x", .str c!"?"]) Demo.env.bindings [],
      .symbol c!"r"] =
    (.ok .none, [(c!"p", none, .piped), (c!"q", some [33], .piped),
      (c!"r", some [33, 33, 63], .inherit)]) := by rfl

example : AllOk Demo.plat (evalN Demo.plat demoPipe (stdB Demo.plat Demo.lib) 2) Demo.env
    (fun _ => True) true [.prog (.symbol c!"p") c!"p" [],
      .prog (.apply (.symbol c!"q") [.none, .str c!"-a"]) c!"q" [c!"-a"]] :=
  ⟨⟨[], .bare rfl, .nil⟩, ⟨_, .app rfl, .skip (.cons (v := .str c!"-a") nofun (fun _ => rfl) .nil)⟩,
    trivial⟩

example : demoRun [.symbol c!"p", .symbol c!"bad", .symbol c!"r"] =
    (.err (.customError c!"could not spawn process `bad`"),
      [(c!"p", none, .piped), (c!"bad", some [33], .piped)]) := by rfl

end

/-! ### Instances: the hypotheses can be met -/

example := C56_at_least_two (P := Demo.plat) (H := Demo.host) (L := Demo.lib) (n := 0) (w := [])
  demo_std (args := [.str c!"a"]) (by decide)

end Dune.Props
