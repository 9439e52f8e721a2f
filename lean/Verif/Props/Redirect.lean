import Verif.Model.Parser
import Verif.Proof.Start
import Verif.Props.Pipe
import Verif.Props.Startup

/-!
C83: redirections.  `p >> "f"`, `p >>> "f"` and `p << "f"` are the pipelines `| p (>> "f")`,
`| p (>>> "f")` and `| (<< "f") p` (see the examples at the end).

`evalD P H (bodyRun P H (stdB P L) n) d e` is the evaluation of `e` with `801 - d` levels of nesting
above it.
-/

namespace Dune.Props

open Spec M

section

variable {W : Type} {P : Plat} {H : Host W} {L : Lib} {n : Nat} {env env2 : Env} {w w1 w2 : W}
  {X : Init.Machine}

/-- What the stages of a pipeline hand over to a further stage: `prev` is the value produced so far
(`none` before the first stage).  The result is `none` if a program fails to run. -/
inductive Feeds (P : Plat) (H : Host W) (cwd : Str) (vars : BMap Str) :
    Option Expr → List Stg → W → Option Expr → W → Prop
  | done {v w} : Feeds P H cwd vars (some v) [] w (some v) w
  | data {v ss w r w'} : Feeds P H cwd vars (some v) ss w r w' →
      Feeds P H cwd vars none (.data v :: ss) w r w'
  | fn {e g v ss w r w'} : Feeds P H cwd vars (some (g v)) ss w r w' →
      Feeds P H cwd vars (some v) (.fn e g :: ss) w r w'
  | prog {prev e name args ss w b v w1 r w'} :
      H.io (.stage name cwd args vars (prev.map (wire P)) .piped) w = (.bytes b, w1) →
      Received b v → Feeds P H cwd vars (some v) ss w1 r w' →
      Feeds P H cwd vars prev (.prog e name args :: ss) w r w'
  | fails {prev e name args ss w ans w'} :
      H.io (.stage name cwd args vars (prev.map (wire P)) .piped) w = (ans, w') →
      (∀ b, ans ≠ .bytes b) → Feeds P H cwd vars prev (.prog e name args :: ss) w none w'

theorem run_feeds {ev : Expr → M W Expr} {D : Expr → Prop} (hD : ∀ b v, Received b v → D v)
    {prev : Option Expr} {ss : List Stg} {r : Option Expr} {w w' : W}
    (hf : Feeds P H env.getCwd (exportBindings P env.bindings) prev ss w r w')
    (hok : AllOk P ev env D prev.isNone ss) (hprev : ∀ v, prev = some v → D v)
    {rest : List Expr} (hrest : rest ≠ []) :
    (∀ v, r = some v → D v ∧
      (Builtins.pipeLoop P prev.isNone (ss.map Stg.expr ++ rest) (prev.getD .none)
        ((prev.map (wire P)).getD [])).run H ev env w =
      (Builtins.pipeLoop P false rest v (wire P v)).run H ev env w') ∧
    (r = none → ∃ m, (Builtins.pipeLoop P prev.isNone (ss.map Stg.expr ++ rest) (prev.getD .none)
        ((prev.map (wire P)).getD [])).run H ev env w = (.err (.customError m), env, w')) := by
  have hin : ∀ prev : Option Expr, (if prev.isNone = true then none else
      some ((prev.map (wire P)).getD [])) = prev.map (wire P) := by
    intro prev; cases prev <;> rfl
  induction hf with
  | done => exact ⟨by rintro _ ⟨⟩; exact ⟨hprev _ rfl, rfl⟩, nofun⟩
  | @data v ss w r w' hf ih =>
    obtain ⟨⟨_, hDv, hn, he⟩, hss⟩ := hok
    have h := ih hss (by rintro _ ⟨⟩; exact hDv)
    rw [List.map_cons, List.cons_append, pipeLoop_cons, Stg.expr, BProg.run_bind,
      M.bind_ok (run_notCommand hn w)]
    change (∀ u, r = some u → D u ∧ (BProg.run H ev (BProg.ev v >>= fun v => _)) env w = _) ∧
      (r = none → ∃ m, BProg.run H ev (BProg.ev v >>= fun v => _) env w = _)
    simp only [BProg.run_bind, BProg.run_ev]
    rw [M.bind_ok (he w), bytesOf_eq]
    exact h
  | @fn e g v ss w r w' hf ih =>
    obtain ⟨⟨_, hn, he⟩, hss⟩ := hok
    obtain ⟨hDg, he⟩ := he v w (hprev v rfl)
    have h := ih hss (by rintro _ ⟨⟩; exact hDg)
    rw [List.map_cons, List.cons_append, pipeLoop_cons, Stg.expr, BProg.run_bind,
      M.bind_ok (run_notCommand hn w)]
    change (∀ u, r = some u → D u ∧ (BProg.run H ev (BProg.ev (.apply e [v]) >>= fun v => _)) env w = _) ∧
      (r = none → ∃ m, BProg.run H ev (BProg.ev (.apply e [v]) >>= fun v => _) env w = _)
    simp only [BProg.run_bind, BProg.run_ev]
    rw [M.bind_ok he, bytesOf_eq]
    exact h
  | @prog prev e name args ss w b v w1 r w' hio hr hf ih =>
    obtain ⟨⟨as, hn, hargs⟩, hss⟩ := hok
    have h := ih hss (by rintro _ ⟨⟩; exact hD _ _ hr)
    have hne : (ss.map Stg.expr ++ rest).isEmpty = false := by
      cases ss <;> cases rest <;> simp_all
    rw [List.map_cons, List.cons_append, pipeLoop_cons, Stg.expr, BProg.run_bind,
      M.bind_ok (run_exprToCommand hn hargs w)]
    simp only [hne, hin, Bool.false_eq_true, if_false]
    rw [BProg.run_bind, BProg.run_ask, M.bind_ok (show M.io H _ env w = (.ok (.bytes b), env, w1) by
      rw [M.io, hio])]
    obtain ⟨h1, h2⟩ := wire_received (P := P) hr
    simp only [Option.isNone_some, Option.getD_some, Option.map_some, h2] at h
    simp only [h1]
    exact h
  | @fails prev e name args ss w ans w' hio hans =>
    obtain ⟨⟨as, hn, hargs⟩, hss⟩ := hok
    have hne : (ss.map Stg.expr ++ rest).isEmpty = false := by
      cases ss <;> cases rest <;> simp_all
    refine ⟨nofun, fun _ => ?_⟩
    rw [List.map_cons, List.cons_append, pipeLoop_cons, Stg.expr, BProg.run_bind,
      M.bind_ok (run_exprToCommand hn hargs w)]
    simp only [hne, hin, Bool.false_eq_true, if_false]
    rw [BProg.run_bind, BProg.run_ask, M.bind_ok (show M.io H _ env w = (.ok ans, env, w') by
      rw [M.io, hio])]
    cases ans
    case bytes b => exact absurd rfl (hans b)
    case stageErr x => cases x <;> exact ⟨_, rfl⟩
    all_goals exact ⟨_, rfl⟩

/-! ### The functions `>>` and `>>>` -/

/-- `contents -> fs@m file contents` without its parameter -/
abbrev fileCall (m : Str) : Expr :=
  .apply (.apply (.symbol c!"@") [.symbol c!"fs", .symbol m]) [.symbol c!"file", .symbol c!"contents"]

theorem redirect_get {e0 : Env} {m x cwd : Str} {fv y : Expr} (hx : x = c!"@" ∨ x = c!"fs")
    (hy : e0.get x = some y) :
    (callEnv c!"file" ⟨(closeLambda e0 c!"file" (Init.redirectBody m) Env.empty).bindings,
      (closeLambda e0 c!"file" (Init.redirectBody m) Env.empty).parents⟩ cwd fv).get x = some y := by
  have h := callEnv_get (env := e0) (p := c!"file") (x := x) (cwd := cwd) (v := fv)
    (body := Init.redirectBody m)
    (by rw [show (Init.redirectBody m).usedSymbols =
          [c!"@", c!"fs", m, c!"file", c!"contents"] from rfl]
        rcases hx with rfl | rfl <;> simp)
    (by rcases hx with rfl | rfl <;> decide) (by rcases hx with rfl | rfl <;> decide)
    (by rw [hy]; rfl)
  exact h.trans hy

theorem fileCall_get {e0 : Env} {m x cwd : Str} {v y : Expr}
    (hx : x = c!"@" ∨ x = c!"fs" ∨ x = c!"file") (hy : e0.get x = some y) :
    (callEnv c!"contents" ⟨(closeLambda e0 c!"contents" (fileCall m) Env.empty).bindings,
      (closeLambda e0 c!"contents" (fileCall m) Env.empty).parents⟩ cwd v).get x = some y := by
  have h := callEnv_get (env := e0) (p := c!"contents") (x := x) (cwd := cwd) (v := v)
    (body := fileCall m)
    (by rw [show (fileCall m).usedSymbols = [c!"@", c!"fs", m, c!"file", c!"contents"] from rfl]
        rcases hx with rfl | rfl | rfl <;> simp)
    (by rcases hx with rfl | rfl | rfl <;> decide) (by rcases hx with rfl | rfl | rfl <;> decide)
    (by rw [hy]; rfl)
  exact h.trans hy

theorem callEnv_param {p cwd : Str} {e : Env} {v : Expr} : (callEnv p e cwd v).get p = some v := by
  rw [callEnv, Env.get_define, if_pos rfl]

theorem callEnv_cwd {p cwd : Str} {e : Env} {v : Expr} (h : p ≠ Dune.cwdVar) :
    (callEnv p e cwd v).getCwd = cwd := by
  rw [callEnv, Env.getCwd, Env.get_define, if_neg h, Env.setCwd, Env.get_define,
    if_pos rfl]

/-- the function `op` called with a file and a value is `fs@m` of them, in the directory of the
caller -/
theorem eval_fileFn {e0 : Env} {tbl : BMap Expr} {op m nm hlp : Str} {id : BId} {f fv v : Expr}
    (hat : e0.get c!"@" = some (.builtin c!"@" .index [])) (hfs : e0.get c!"fs" = some (.map tbl))
    (hm : tbl.get? m = some (.builtin nm id hlp))
    (hop : env.get op = some (Init.closureIn e0 c!"file" (Init.redirectBody m)))
    (hf : evalD P H (bodyRun P H (stdB P L) n) 799 f env w = (.ok fv, env2, w2))
    (hv : Data 800 v) :
    ∃ env3 : Env, env3.get c!"file" = some fv ∧ env3.get c!"contents" = some v ∧
      env3.getCwd = env2.getCwd ∧
      evalN P H (stdB P L) (n + 1) (.apply (.apply (.symbol op) [f]) [v]) env w =
        (((stdB P L id [.symbol c!"file", .symbol c!"contents"]).run H
          (evalN P H (stdB P L) n) env3 w2).1, env2,
         ((stdB P L id [.symbol c!"file", .symbol c!"contents"]).run H
          (evalN P H (stdB P L) n) env3 w2).2.2) := by
  have hin := evalD_call1 (P := P) (H := H) (B := bodyRun P H (stdB P L) n) (k := 799)
    (evalD_symbol (k := 798) (w := w) (hop.trans (by rw [Init.closureIn]))) hf
  generalize he1 : callEnv c!"file" ⟨(closeLambda e0 c!"file" (Init.redirectBody m) Env.empty).bindings,
    (closeLambda e0 c!"file" (Init.redirectBody m) Env.empty).parents⟩ env.getCwd fv = e1 at hin
  have hat1 : e1.get c!"@" = _ := he1 ▸ redirect_get (.inl rfl) hat
  have hfs1 : e1.get c!"fs" = _ := he1 ▸ redirect_get (.inr rfl) hfs
  have hf1 : e1.get c!"file" = _ := he1 ▸ callEnv_param
  have hl : evalD P H (bodyRun P H (stdB P L) n) 799 (Init.redirectBody m) e1 w2 =
      (.ok (.lambda c!"contents" (fileCall m)
        (closeLambda e1 c!"contents" (fileCall m) Env.empty).bindings
        (closeLambda e1 c!"contents" (fileCall m) Env.empty).parents), e1, w2) := by
    rw [Init.redirectBody, evalD]; rfl
  rw [hl] at hin
  have hout := evalD_call1 (P := P) (H := H) (B := bodyRun P H (stdB P L) n) (k := 800) hin
    (C17_data_inert hv env2 w2)
  generalize he2 : callEnv c!"contents" ⟨(closeLambda e1 c!"contents" (fileCall m) Env.empty).bindings,
    (closeLambda e1 c!"contents" (fileCall m) Env.empty).parents⟩ env2.getCwd v = e2 at hout
  have hbody : evalD P H (bodyRun P H (stdB P L) n) 800 (fileCall m) e2 w2 =
      (stdB P L id [.symbol c!"file", .symbol c!"contents"]).run H (evalN P H (stdB P L) n) e2 w2 := by
    rw [evalD]
    simp only [evalStep]
    rw [M.bind_ok (evalD_member (he2 ▸ fileCall_get (.inl rfl) hat1)
      (he2 ▸ fileCall_get (.inr (.inl rfl)) hfs1) hm)]
    rfl
  rw [hbody] at hout
  exact ⟨e2, he2 ▸ fileCall_get (.inr (.inr rfl)) hf1, he2 ▸ callEnv_param,
    he2 ▸ callEnv_cwd (by decide), hout⟩

theorem eval_redirect (hs : Fresh X env) {op m nm hlp : Str} {id : BId} {f fv v : Expr}
    (hop : (op, Init.closureIn (Init.defineAll (Init.startFs X) Init.ops) c!"file"
      (Init.redirectBody m)) ∈ Init.startOps X)
    (hm : (m, .builtin nm id hlp) ∈ Init.fsM)
    (hf : evalD P H (bodyRun P H (stdB P L) n) 799 f env w = (.ok fv, env2, w2))
    (hv : Data 800 v) :
    ∃ env3 : Env, env3.get c!"file" = some fv ∧ env3.get c!"contents" = some v ∧
      env3.getCwd = env2.getCwd ∧
      evalN P H (stdB P L) (n + 1) (.apply (.apply (.symbol op) [f]) [v]) env w =
        (((stdB P L id [.symbol c!"file", .symbol c!"contents"]).run H
          (evalN P H (stdB P L) n) env3 w2).1, env2,
         ((stdB P L id [.symbol c!"file", .symbol c!"contents"]).run H
          (evalN P H (stdB P L) n) env3 w2).2.2) := by
  obtain ⟨tbl, htbl, hmem⟩ := start_fs (X := X)
  have hat0 : (Init.defineAll (Init.startFs X) Init.ops).get c!"@" =
      some (.builtin c!"@" .index []) := by rw [defineAll_get]; rfl
  have hfs0 : (Init.defineAll (Init.startFs X) Init.ops).get c!"fs" = some (.map tbl) := by
    rw [defineAll_get, htbl]; rfl
  exact eval_fileFn hat0 hfs0 (hmem _ hm) (hs.op hop) hf hv

theorem pipe_std (hs : Std env) {args : List Expr} (h : 2 ≤ args.length) :
    evalN P H (stdB P L) (n + 1) (.apply (.symbol c!"|") args) env w =
      (Builtins.pipeLoop P true args .none []).run H (evalN P H (stdB P L) n) env w := by
  have hop : env.get c!"|" = some (.builtin c!"|" .pipe _) :=
    hs.op (Init.b c!"|" .pipe) (by mem_tac)
  rw [evalN_symbol hop, evalN_builtin]
  show ((Builtins.pipeB P args).run H _) env w = _
  rw [Builtins.pipeB, if_neg (by omega)]

theorem redirect_notCommand (hs : Fresh X env) {op : Str} {p : Str} {b : Expr} {e0 : Env}
    (hop : (op, Init.closureIn e0 p b) ∈ Init.startOps X) {args : List Expr} :
    ¬ ∃ name as, Names env (.apply (.symbol op) args) name as := by
  have h := hs.op hop
  rintro ⟨_, _, hn⟩
  cases hn with
  | app hx => rw [h] at hx; cases hx
  | appAlias hx => rw [h] at hx; cases hx

/-- the last stage of a redirected pipeline -/
theorem run_last {e v : Expr} {ev : Expr → M W Expr} {buf : List UInt8}
    (hn : ¬ ∃ name args, Names env e name args) (w : W) :
    (Builtins.pipeLoop P false [e] v buf).run H ev env w = ev (.apply e [v]) env w := by
  rw [pipeLoop_cons, BProg.run_bind, M.bind_ok (run_notCommand hn w)]
  show BProg.run H ev (BProg.ev (.apply e [v]) >>= fun v => _) env w = _
  rw [BProg.run_bind, BProg.run_ev]
  show M.bind (ev _) _ env w = _
  rw [M.bind]
  rcases ev (.apply e [v]) env w with ⟨o, e', w'⟩
  cases o <;> rfl

theorem wire_stored (v : Expr) : wire P v = stored P v := by cases v <;> rfl

/-! ### Writing -/

/-- the value handed to `>> f` is written -/
theorem run_write (hs : Fresh X env) {f fv v : Expr} (hv : Data 800 v)
    (hf : evalD P H (bodyRun P H (stdB P L) n) 799 f env w1 = (.ok fv, env2, w2)) {path : Str}
    (hp : path = pathJoin env2.getCwd (display P fv)) :
    (∀ e, (H.io (.writeFile path (stored P v)) w2).1 = .err e →
      ∃ m, evalN P H (stdB P L) (n + 1) (.apply (.apply (.symbol c!">>") [f]) [v]) env w1 =
        (.err (.customError m), env2, (H.io (.writeFile path (stored P v)) w2).2)) ∧
    ((∀ e, (H.io (.writeFile path (stored P v)) w2).1 ≠ .err e) →
      evalN P H (stdB P L) (n + 1) (.apply (.apply (.symbol c!">>") [f]) [v]) env w1 =
        (.ok .none, env2, (H.io (.writeFile path (stored P v)) w2).2)) := by
  have hop : (c!">>", Init.closureIn (Init.defineAll (Init.startFs X) Init.ops) c!"file"
      (Init.redirectBody c!"write")) ∈ Init.startOps X :=
    List.mem_append_right _ (by rw [Init.redirects]; mem_tac)
  obtain ⟨env3, h3f, h3c, h3d, h3⟩ := eval_redirect (P := P) (H := H) (L := L) (n := n) hs hop
    (nm := c!"write") (id := .fsWrite) (hlp := []) (by mem_tac) hf hv
  have hst : Builtins.bytesOf P v = stored P v := (bytesOf_eq v).trans (wire_stored v)
  have e1 := evalN_sym (P := P) (H := H) (bodies := stdB P L) (n := n) (w := w2) h3f
  have e2 := evalN_sym (P := P) (H := H) (bodies := stdB P L) (n := n) (w := w2) h3c
  have hrun : (stdB P L .fsWrite [.symbol c!"file", .symbol c!"contents"]).run H
      (evalN P H (stdB P L) n) env3 w2 =
      (match (H.io (.writeFile path (stored P v)) w2).1 with
       | .err e => .err (.customError (c!"could not write to file " ++ display P fv ++ c!": " ++
          P.fmtIOErr e))
       | _ => .ok .none, env3, (H.io (.writeFile path (stored P v)) w2).2) := by
    show ((Builtins.writeB P _).run H _) env3 w2 = _
    subst hp
    brun [Builtins.writeB, e1, e2, h3d, hst]
    rcases H.io (.writeFile (pathJoin env2.getCwd (display P fv)) (stored P v)) w2 with ⟨r, w'⟩
    cases r <;> rfl
  rw [hrun] at h3
  constructor
  · intro e he
    rw [he] at h3
    exact ⟨_, h3⟩
  · intro he
    rw [h3]
    split
    · rename_i e h; exact absurd h (he e)
    · rfl

/-- C83.  A pipeline redirected with `>> f`, whose stages hand over the value `v`, sends exactly the
bytes of `v` to the file `f` in the working directory, in one request and as the last thing it does;
the file has this content afterwards, unless the file system refuses, which is reported. -/
theorem C83_write (hs : Fresh X env) {content : W → Str → Option (List UInt8)}
    (hF : Files H content) {D : Expr → Prop} (hD : ∀ b v, Received b v → D v)
    (hDD : ∀ v, D v → Data 800 v) {ss : List Stg} (hne : ss ≠ [])
    (hok : AllOk P (evalN P H (stdB P L) (n + 1)) env D true ss) {v : Expr}
    (hfd : Feeds P H env.getCwd (exportBindings P env.bindings) none ss w (some v) w1)
    {f fv : Expr} (hf : evalD P H (bodyRun P H (stdB P L) n) 799 f env w1 = (.ok fv, env2, w2))
    {path : Str} (hp : path = pathJoin env2.getCwd (display P fv)) :
    ∃ o, evalN P H (stdB P L) (n + 2) (.apply (.symbol c!"|")
        (ss.map Stg.expr ++ [.apply (.symbol c!">>") [f]])) env w =
      (o, env2, (H.io (.writeFile path (stored P v)) w2).2) ∧
      ((o = .ok .none ∧
        content (H.io (.writeFile path (stored P v)) w2).2 path = some (stored P v)) ∨
       ∃ e m, (H.io (.writeFile path (stored P v)) w2).1 = .err e ∧ o = .err (.customError m)) := by
  have hop : (c!">>", Init.closureIn (Init.defineAll (Init.startFs X) Init.ops) c!"file"
      (Init.redirectBody c!"write")) ∈ Init.startOps X :=
    List.mem_append_right _ (by rw [Init.redirects]; mem_tac)
  rw [pipe_std hs.std (by cases ss <;> simp_all)]
  obtain ⟨hv, hrun⟩ := (run_feeds hD hfd hok (by simp)
    (rest := [.apply (.symbol c!">>") [f]]) (by simp)).1 v rfl
  have hrun := hrun.trans (run_last (redirect_notCommand hs hop) w1)
  obtain ⟨h1, h2⟩ := run_write hs (hDD v hv) hf hp
  by_cases he : ∃ e, (H.io (.writeFile path (stored P v)) w2).1 = .err e
  · obtain ⟨e, he⟩ := he
    obtain ⟨m, h1⟩ := h1 e he
    exact ⟨_, hrun.trans h1, .inr ⟨e, m, he, rfl⟩⟩
  · have he : ∀ e, (H.io (.writeFile path (stored P v)) w2).1 ≠ .err e := fun e h => he ⟨e, h⟩
    exact ⟨_, hrun.trans (h2 he), .inl ⟨rfl, hF.write _ _ _ he⟩⟩

/-- C83.  If a program of a redirected pipeline fails to run, an error is reported and the file is
not touched: nothing happens after the failing program. -/
theorem C83_fails (hs : Fresh X env) {D : Expr → Prop} (hD : ∀ b v, Received b v → D v)
    {ss : List Stg} (hne : ss ≠ [])
    (hok : AllOk P (evalN P H (stdB P L) (n + 1)) env D true ss)
    (hfd : Feeds P H env.getCwd (exportBindings P env.bindings) none ss w none w1) (op f : Expr) :
    ∃ m, evalN P H (stdB P L) (n + 2) (.apply (.symbol c!"|")
        (ss.map Stg.expr ++ [.apply op [f]])) env w = (.err (.customError m), env, w1) := by
  rw [pipe_std hs.std (by cases ss <;> simp_all)]
  exact (run_feeds hD hfd hok (by simp) (rest := [.apply op [f]]) (by simp)).2 rfl

/-- C83.  `prog args >> f` writes to `f` exactly the bytes the program wrote, whatever they are. -/
theorem C83_program (hs : Fresh X env) {content : W → Str → Option (List UInt8)}
    (hF : Files H content) {e : Expr} {name : Str} {args : List Expr} {strs : List Str}
    (hn : Names env e name args)
    (hargs : Rendered P (evalN P H (stdB P L) (n + 1)) env args strs) {b : List UInt8}
    (hio : H.io (.stage name env.getCwd strs (exportBindings P env.bindings) none .piped) w =
      (.bytes b, w1)) (file : Str) :
    ∃ o, evalN P H (stdB P L) (n + 2) (.apply (.symbol c!"|")
        [e, .apply (.symbol c!">>") [.str file]]) env w =
      (o, env, (H.io (.writeFile (pathJoin env.getCwd file) b) w1).2) ∧
      ((o = .ok .none ∧ content (H.io (.writeFile (pathJoin env.getCwd file) b) w1).2
        (pathJoin env.getCwd file) = some b) ∨
       ∃ e m, (H.io (.writeFile (pathJoin env.getCwd file) b) w1).1 = .err e ∧
        o = .err (.customError m)) := by
  obtain ⟨v, hv⟩ := received_exists b
  have hb : stored P v = b := (wire_stored v).symm.trans (wire_received hv).2
  have h := C83_write (P := P) (L := L) (n := n) (w := w) (w1 := w1) (w2 := w1) (env2 := env)
    (D := fun v => ∃ b, Received b v) (ss := [.prog e name strs]) (v := v)
    (f := .str file) (fv := .str file) (path := pathJoin env.getCwd file) hs hF
    (fun b v h => ⟨b, h⟩)
    (by rintro _ ⟨b, h⟩; cases h <;> first | exact Data.str _ | exact Data.bytes _)
    (by simp) ⟨⟨args, hn, hargs⟩, trivial⟩ (.prog hio hv .done) (by rfl) rfl
  rw [hb] at h
  exact h

/-- C83.  `echo … >> f` does not store the text: it is shown on the terminal, and the file gets the
text of the value `None`. -/
theorem C83_echo_refuted (hs : Fresh X env) {content : W → Str → Option (List UInt8)}
    (hF : Files H content) {shown : W → Str} (hc : Console H shown) {args vs : List Expr}
    (ha : List.Forall₂ (Quiet (evalN P H (stdB P L) n) shown env) args vs) (hne : args ≠ [])
    (file : Str) :
    ∃ o w1 w2, evalN P H (stdB P L) (n + 2) (.apply (.symbol c!"|")
        [.apply (.symbol c!"echo") args, .apply (.symbol c!">>") [.str file]]) env w =
      (o, env, w2) ∧
      shown w1 = shown w ++ spaced (vs.map (display P)) ++ c!"\n" ∧
      w2 = (H.io (.writeFile (pathJoin env.getCwd file) (utf8Encode c!"None")) w1).2 ∧
      ((o = .ok .none ∧ content w2 (pathJoin env.getCwd file) = some (utf8Encode c!"None")) ∨
        ∃ e m, (H.io (.writeFile (pathJoin env.getCwd file) (utf8Encode c!"None")) w1).1 = .err e ∧
          o = .err (.customError m)) := by
  obtain ⟨w1, h1, hsh⟩ := C71_println (w := w) hs.std hc ha hne (f := c!"echo") (by simp)
  have hop : (c!">>", Init.closureIn (Init.defineAll (Init.startFs X) Init.ops) c!"file"
      (Init.redirectBody c!"write")) ∈ Init.startOps X :=
    List.mem_append_right _ (by rw [Init.redirects]; mem_tac)
  have hn : ¬ ∃ name as, Names env (.apply (.symbol c!"echo") args) name as := by
    have h := hs.std.top (c!"echo", .builtin c!"println" .println []) (by mem_tac)
    rintro ⟨_, _, hn⟩
    cases hn with
    | app hx => rw [h] at hx; cases hx
    | appAlias hx => rw [h] at hx; cases hx
  have hrun : evalN P H (stdB P L) (n + 2) (.apply (.symbol c!"|")
      [.apply (.symbol c!"echo") args, .apply (.symbol c!">>") [.str file]]) env w =
      evalN P H (stdB P L) (n + 1) (.apply (.apply (.symbol c!">>") [.str file]) [.none]) env w1 := by
    rw [pipe_std hs.std (by simp), pipeLoop_cons, BProg.run_bind, M.bind_ok (run_notCommand hn w)]
    show BProg.run H _ (BProg.ev _ >>= fun v => _) env w = _
    rw [BProg.run_bind, BProg.run_ev]
    simp only [if_true]
    rw [M.bind_ok h1]
    exact run_last (redirect_notCommand hs hop) w1
  have hst : stored P .none = utf8Encode c!"None" := rfl
  obtain ⟨h3, h4⟩ := run_write (P := P) (H := H) (L := L) (n := n) (w1 := w1) (w2 := w1)
    (env2 := env) (f := .str file) (fv := .str file) (path := pathJoin env.getCwd file) hs
    (v := .none) .none rfl rfl
  rw [hst] at h3 h4
  rw [hrun]
  by_cases he : ∃ e, (H.io (.writeFile (pathJoin env.getCwd file) (utf8Encode c!"None")) w1).1 = .err e
  · obtain ⟨e, he⟩ := he
    obtain ⟨m, h3⟩ := h3 e he
    exact ⟨_, w1, _, h3, hsh, rfl, .inr ⟨e, m, he, rfl⟩⟩
  · have he : ∀ e, (H.io (.writeFile (pathJoin env.getCwd file) (utf8Encode c!"None")) w1).1 ≠ .err e :=
      fun e h => he ⟨e, h⟩
    exact ⟨_, w1, _, h4 he, hsh, rfl, .inl ⟨rfl, hF.write _ _ _ he⟩⟩

/-! ### Appending -/

/-- C83.  `>>> f` adds the bytes of the value at the end of the file, or reports that the file system
refuses. -/
theorem C83_append (hs : Fresh X env) {content : W → Str → Option (List UInt8)}
    (hF : Files H content) {D : Expr → Prop} (hD : ∀ b v, Received b v → D v)
    (hDD : ∀ v, D v → Data 800 v) {ss : List Stg} (hne : ss ≠ [])
    (hok : AllOk P (evalN P H (stdB P L) (n + 1)) env D true ss) {v : Expr}
    (hfd : Feeds P H env.getCwd (exportBindings P env.bindings) none ss w (some v) w1)
    {f fv : Expr} (hf : evalD P H (bodyRun P H (stdB P L) n) 799 f env w1 = (.ok fv, env2, w2))
    {path : Str} (hp : path = pathJoin env2.getCwd (display P fv)) :
    ∃ o w', evalN P H (stdB P L) (n + 2) (.apply (.symbol c!"|")
        (ss.map Stg.expr ++ [.apply (.symbol c!">>>") [f]])) env w = (o, env2, w') ∧
      (content w2 path = none → w' = w2 ∧ ∃ m, o = .err (.customError m)) ∧
      ∀ b, content w2 path = some b →
        ((o = .ok .none ∧ content w' path = some (b ++ stored P v)) ∨
          ∃ e m, H.io (.appendFile path (stored P v)) (H.io (.openAppend path) w2).2 =
            (.err e, w') ∧ o = .err (.customError m)) := by
  have hop : (c!">>>", Init.closureIn (Init.defineAll (Init.startFs X) Init.ops) c!"file"
      (Init.redirectBody c!"append")) ∈ Init.startOps X :=
    List.mem_append_right _ (by rw [Init.redirects]; mem_tac)
  rw [pipe_std hs.std (by cases ss <;> simp_all)]
  obtain ⟨hv, hrun⟩ := (run_feeds hD hfd hok (by simp)
    (rest := [.apply (.symbol c!">>>") [f]]) (by simp)).1 v rfl
  have hrun := hrun.trans (run_last (redirect_notCommand hs hop) w1)
  obtain ⟨env3, h3f, h3c, h3d, h3⟩ := eval_redirect (P := P) (H := H) (L := L) (n := n) hs hop
    (nm := c!"append") (id := .fsAppend) (hlp := []) (by mem_tac) hf (hDD v hv)
  have hst : Builtins.bytesOf P v = stored P v := (bytesOf_eq v).trans (wire_stored v)
  have e1 := fun w => evalN_sym (P := P) (H := H) (bodies := stdB P L) (n := n) (w := w) h3f
  have e2 := fun w => evalN_sym (P := P) (H := H) (bodies := stdB P L) (n := n) (w := w) h3c
  have hb : (stdB P L .fsAppend [.symbol c!"file", .symbol c!"contents"]).run H
      (evalN P H (stdB P L) n) env3 w2 =
      (match (H.io (.openAppend path) w2).1 with
       | .err e => (.err (.customError (c!"could not open file " ++ display P fv ++ c!": " ++
          P.fmtIOErr e)), env3, (H.io (.openAppend path) w2).2)
       | _ => (match (H.io (.appendFile path (stored P v)) (H.io (.openAppend path) w2).2).1 with
         | .err e => .err (.customError (c!"could not append to file " ++ display P fv ++ c!": " ++
            P.fmtIOErr e))
         | _ => .ok .none, env3,
           (H.io (.appendFile path (stored P v)) (H.io (.openAppend path) w2).2).2)) := by
    show ((Builtins.fsAppendB P _).run H _) env3 w2 = _
    subst hp
    brun [Builtins.fsAppendB, e1, h3d]
    rcases H.io (.openAppend (pathJoin env2.getCwd (display P fv))) w2 with ⟨r, w'⟩
    cases r
    case err => rfl
    all_goals
      brun [e2, hst]
      rcases H.io (.appendFile (pathJoin env2.getCwd (display P fv)) (stored P v)) w' with ⟨r, w''⟩
      cases r <;> rfl
  rw [hb] at h3
  refine ⟨_, _, hrun.trans h3, ?_, ?_⟩
  · intro hc
    obtain ⟨e, he⟩ := hF.open_none _ _ hc
    rw [he]
    exact ⟨rfl, _, rfl⟩
  · intro b hc
    obtain ⟨ho, hc'⟩ := hF.open_some _ _ _ hc
    split
    · rename_i e h; exact absurd h (ho e)
    · by_cases he : ∃ e, (H.io (.appendFile path (stored P v)) (H.io (.openAppend path) w2).2).1 = .err e
      · obtain ⟨e, he⟩ := he
        refine .inr ⟨e, c!"could not append to file " ++ display P fv ++ c!": " ++ P.fmtIOErr e,
          Prod.ext he rfl, ?_⟩
        rw [he]
      · have he : ∀ e, (H.io (.appendFile path (stored P v)) (H.io (.openAppend path) w2).2).1 ≠ .err e :=
          fun e h => he ⟨e, h⟩
        refine .inl ⟨?_, hF.append _ _ _ _ (by rw [hc', hc]) he⟩
        show (match (H.io (.appendFile path (stored P v)) (H.io (.openAppend path) w2).2).1 with
         | .err e => .err (.customError (c!"could not append to file " ++ display P fv ++ c!": " ++
            P.fmtIOErr e))
         | _ => .ok .none : Outcome Expr) = _
        split
        · rename_i e h; exact absurd h (he e)
        · rfl

/-! ### Reading -/

theorem read_notCommand (hs : Fresh X env) {args : List Expr} :
    ¬ ∃ name as, Names env (.apply (.symbol c!"<<") args) name as := by
  have h := hs.op (p := (c!"<<", .builtin c!"read" .fsRead []))
    (List.mem_append_right _ (by rw [Init.redirects]; mem_tac))
  rintro ⟨_, _, hn⟩
  cases hn with
  | app hx => rw [h] at hx; cases hx
  | appAlias hx => rw [h] at hx; cases hx

theorem eval_read (hs : Fresh X env) {content : W → Str → Option (List UInt8)} (hF : Files H content)
    {file : Str} {b : List UInt8} (hb : content w (pathJoin env.getCwd file) = some b) {v : Expr}
    (hv : Received b v) :
    evalN P H (stdB P L) (n + 1) (.apply (.symbol c!"<<") [.str file]) env w = (.ok v, env, w) := by
  have h := hs.op (p := (c!"<<", .builtin c!"read" .fsRead []))
    (List.mem_append_right _ (by rw [Init.redirects]; mem_tac))
  have hr := hF.read _ _ _ hb
  have hd : display P (.str file) = file := rfl
  rw [evalN_symbol h]
  cases hv with
  | text s => brun [Builtins.readB, Builtins.readText, hd, hr, utf8_roundtrip]
  | raw hnot =>
    cases hu : utf8Decode b with
    | some s => exact absurd (utf8Decode_eq hu) (hnot s)
    | none => brun [Builtins.readB, Builtins.readText, hd, hr, hu]

/-- C83.  A pipeline whose first stage is `<< f` is the pipeline that starts with the content of the
file: its further stages do what `Flow` says when they are handed the text of the file, or its bytes
if they are not text. -/
theorem C83_read (hs : Fresh X env) {content : W → Str → Option (List UInt8)}
    (hF : Files H content) {D : Expr → Prop} (hD : ∀ b v, Received b v → D v) {ss : List Stg}
    (hne : ss ≠ []) (hok : AllOk P (evalN P H (stdB P L) (n + 1)) env D false ss) {file : Str}
    {b : List UInt8} (hb : content w (pathJoin env.getCwd file) = some b) {v : Expr}
    (hv : Received b v) {r : Option Expr}
    (hflow : Flow P H env.getCwd (exportBindings P env.bindings) (some v) ss w r w1) :
    ∃ o, evalN P H (stdB P L) (n + 2) (.apply (.symbol c!"|")
        (.apply (.symbol c!"<<") [.str file] :: ss.map Stg.expr)) env w = (o, env, w1) ∧
      Ends r o := by
  rw [pipe_std hs.std (by cases ss <;> simp_all), pipeLoop_cons, BProg.run_bind,
    M.bind_ok (run_notCommand (read_notCommand hs) w)]
  obtain ⟨o, h, ho⟩ := run_pipeLoop hD hflow hok (by rintro _ ⟨⟩; exact hD _ _ hv) (by simp)
  refine ⟨o, ?_, ho⟩
  show BProg.run H _ (BProg.ev _ >>= fun v => _) env w = _
  rw [BProg.run_bind, BProg.run_ev]
  simp only [if_true]
  rw [M.bind_ok (eval_read hs hF hb hv), bytesOf_eq]
  exact h

/-- C83.  `prog args << f` runs the program once, with exactly the bytes of the file as its input. -/
theorem C83_feed (hs : Fresh X env) {content : W → Str → Option (List UInt8)}
    (hF : Files H content) {e : Expr} {name : Str} {args : List Expr} {strs : List Str}
    (hn : Names env e name args)
    (hargs : Rendered P (evalN P H (stdB P L) (n + 1)) env args strs) {file : Str}
    {b : List UInt8} (hb : content w (pathJoin env.getCwd file) = some b) :
    ∃ o, evalN P H (stdB P L) (n + 2) (.apply (.symbol c!"|")
        [.apply (.symbol c!"<<") [.str file], e]) env w =
      (o, env, (H.io (.stage name env.getCwd strs (exportBindings P env.bindings) (some b)
        .inherit) w).2) ∧
      (o = .ok .none ∨ ∃ x m, (H.io (.stage name env.getCwd strs (exportBindings P env.bindings)
        (some b) .inherit) w).1 = .stageErr x ∧ o = .err (.customError m)) := by
  obtain ⟨v, hv⟩ := received_exists b
  have hw : wire P v = b := (wire_received hv).2
  rcases hio : H.io (.stage name env.getCwd strs (exportBindings P env.bindings) (some b)
    .inherit) w with ⟨ans, w'⟩
  have hk : AllOk P (evalN P H (stdB P L) (n + 1)) env (fun _ => True) false
      [.prog e name strs] := ⟨⟨args, hn, hargs⟩, trivial⟩
  by_cases hx : ∃ x, ans = .stageErr x
  · obtain ⟨x, rfl⟩ := hx
    obtain ⟨o, h, m, ho⟩ := C83_read (D := fun _ => True) (ss := [.prog e name strs]) hs hF
      (fun _ _ _ => trivial) (by simp) hk hb hv (.lastFails (by rw [Option.map_some, hw, hio]))
    exact ⟨o, h, .inr ⟨x, m, rfl, ho⟩⟩
  · obtain ⟨o, h, ho⟩ := C83_read (D := fun _ => True) (ss := [.prog e name strs]) hs hF
      (fun _ _ _ => trivial) (by simp) hk hb hv
      (.last (by rw [Option.map_some, hw, hio]) fun x h => hx ⟨x, h⟩)
    exact ⟨o, h, .inl ho⟩

/-- C83.  In `a | b << f` (read as `a | << f | b`) the file is not the input of `b`: its text is the
name of a program, started with the output of `a` as its argument. -/
theorem C83_chain_refuted (hs : Fresh X env) {content : W → Str → Option (List UInt8)}
    (hF : Files H content) {x file s : Str} {rest : List Expr}
    (hb : content w (pathJoin env.getCwd file) = some (utf8Encode s))
    (hfound : (H.io (.status s env.getCwd [x] (exported P env)) w).1 =
      .err .notFound) :
    evalN P H (stdB P L) (n + 2) (.apply (.symbol c!"|")
        (.str x :: .apply (.symbol c!"<<") [.str file] :: rest)) env w =
      (.err (.programNotFound s), env,
        (H.io (.status s env.getCwd [x] (exported P env)) w).2) := by
  have hstr : ¬ ∃ name as, Names env (.str x) name as := by rintro ⟨_, _, hn⟩; cases hn
  have happ : evalN P H (stdB P L) (n + 1) (.apply (.apply (.symbol c!"<<") [.str file]) [.str x])
      env w = (.err (.programNotFound s), env,
        (H.io (.status s env.getCwd [x] (exported P env)) w).2) := by
    have h := hs.op (p := (c!"<<", .builtin c!"read" .fsRead []))
      (List.mem_append_right _ (by rw [Init.redirects]; mem_tac))
    have hfile : evalD P H (bodyRun P H (stdB P L) n) 800 (.apply (.symbol c!"<<") [.str file]) env w
        = (.ok (.str s), env, w) := by
      have h1 := eval_read (P := P) (L := L) (n := n) hs hF hb (.text s)
      rw [evalN_symbol h, evalN_builtin] at h1
      rw [evalD]
      simp only [evalStep]
      rw [M.bind_ok (evalD_symbol h)]
      exact h1
    rw [evalN_unfold]
    simp only [evalStep, M.bind_ok hfile, applyValue, applyName_apply]
    have ha : evalList (evalD P H (bodyRun P H (stdB P L) n) 800) [.str x] env w =
        (.ok [.str x], env, w) := rfl
    rw [M.bind_ok ha]
    simp only [runProgram, M.getEnv_bind, M.io_bind]
    have hs1 : argStrings P [.str x] = [x] := rfl
    rw [hs1]
    rw [hfound]
    rfl
  rw [pipe_std hs.std (by simp), pipeLoop_cons, BProg.run_bind, M.bind_ok (run_notCommand hstr w)]
  show BProg.run H _ (BProg.ev _ >>= fun v => _) env w = _
  rw [BProg.run_bind, BProg.run_ev]
  simp only [if_true]
  rw [M.bind_ok (evalN_str ..), pipeLoop_cons, BProg.run_bind,
    M.bind_ok (run_notCommand (read_notCommand hs) w)]
  show BProg.run H _ (BProg.ev _ >>= fun v => _) env w = _
  rw [BProg.run_bind, BProg.run_ev]
  exact M.bind_err happ

/-! ### Examples -/

/-- A machine without directories of its own. -/
def demoMachine : Init.Machine := ⟨none, none, none, none, none, fun _ => [], .none, .none⟩

/-- A world with one file in which every program copies its input and adds a `!`. -/
def demoCopy : Host (List UInt8) where
  io op w := match op with
    | .stage _ _ _ _ i _ => (.bytes (i.getD [] ++ [33]), w)
    | .status .. => (.err .notFound, w)
    | op => demoFile.io op w

theorem demoCopy_files : Files demoCopy (fun w _ => some w) where
  read _ w b h := by cases h; rfl
  write _ _ _ _ := rfl
  append _ d w b h _ := by cases h; rfl
  open_none _ _ h := by cases h
  open_some _ _ _ _ := ⟨by rintro e ⟨⟩, rfl⟩

example : Fresh demoMachine (Init.start demoMachine) := start_fresh

/-- `"x" | up >> "f"` -/
example : evalN Demo.plat demoCopy (stdB Demo.plat Demo.lib) 2 (.apply (.symbol c!"|")
      [.str c!"x", .symbol c!"up", .apply (.symbol c!">>") [.str c!"f"]])
      (Init.start demoMachine) [] = (.ok .none, Init.start demoMachine, [120, 33]) := by
  obtain ⟨o, h, ho⟩ := C83_write (P := Demo.plat) (L := Demo.lib) (n := 0) (w := []) (w1 := [])
    (w2 := []) (env := Init.start demoMachine) (env2 := Init.start demoMachine)
    (D := fun v => (∃ s, v = .str s) ∨ ∃ b, v = .bytes b)
    (ss := [.data (.str c!"x"), .prog (.symbol c!"up") c!"up" []]) (v := .str c!"x!")
    (f := .str c!"f") (fv := .str c!"f") start_fresh demoCopy_files
    (by rintro _ _ (s | h); exacts [.inl ⟨s, rfl⟩, .inr ⟨_, rfl⟩])
    (by rintro _ (⟨s, rfl⟩ | ⟨b, rfl⟩); exacts [.str _, .bytes _])
    (by simp)
    ⟨⟨rfl, .inl ⟨_, rfl⟩, (by rintro ⟨_, _, h⟩; cases h), fun _ => rfl⟩,
      ⟨[], .bare rfl, .nil⟩, trivial⟩
    (.data (.prog (b := [120, 33]) rfl (.text c!"x!") .done)) rfl rfl
  rcases ho with ⟨rfl, -⟩ | ⟨e, m, he, -⟩
  · exact h
  · cases he

/-- What a pipeline does in this world, with the file holding the bytes. -/
def demoRedirect (stages : List Expr) (file : List UInt8) : Outcome Expr × List UInt8 :=
  let r := evalN Demo.plat demoCopy (stdB Demo.plat Demo.lib) 3 (.apply (.symbol c!"|") stages)
    (Init.start demoMachine) file
  (r.1, r.2.2)

example : demoRedirect [.symbol c!"up", .apply (.symbol c!">>") [.str c!"f"]] [1, 2] =
    (.ok .none, [33]) := rfl

example : demoRedirect [.symbol c!"up", .apply (.symbol c!">>>") [.str c!"f"]] [1, 2] =
    (.ok .none, [1, 2, 33]) := rfl

example : demoRedirect [.apply (.symbol c!"<<") [.str c!"f"], .symbol c!"up",
    .apply (.symbol c!">>") [.str c!"f"]] [1, 2] = (.ok .none, [1, 2, 33]) := rfl

example : demoRedirect [.apply (.symbol c!"echo") [.str c!"x"],
    .apply (.symbol c!">>") [.str c!"f"]] [] = (.ok .none, utf8Encode c!"None") := rfl

example : demoRedirect [.str c!"x", .apply (.symbol c!"<<") [.str c!"f"], .symbol c!"up"]
    (utf8Encode c!"hi") = (.err (.programNotFound c!"hi"), utf8Encode c!"hi") := rfl

/-- a program that does not start: the file is not opened -/
example : (evalN Demo.plat demoPipe (stdB Demo.plat Demo.lib) 3 (.apply (.symbol c!"|")
    [.symbol c!"bad", .apply (.symbol c!">>") [.str c!"f"]]) (Init.start demoMachine) []).2.2 =
    [.stage c!"bad" c!"/" [] (exportBindings Demo.plat (Init.start demoMachine).bindings) none
      .piped] := rfl

set_option maxRecDepth 100000 in
example : parseScript Demo.plat c!"up >> \"f\"" = .ok (.do_ [.group (.apply (.symbol c!"|")
    [.symbol c!"up", .apply (.symbol c!">>") [.str c!"f"]])]) := rfl

set_option maxRecDepth 100000 in
example : parseScript Demo.plat c!"a | b << \"f\"" = .ok (.do_ [.group (.apply (.symbol c!"|")
    [.symbol c!"a", .apply (.symbol c!"<<") [.str c!"f"], .symbol c!"b"])]) := rfl

/-! The bodies of the functions are what the sources in the code are read as. -/

set_option maxRecDepth 100000 in
set_option maxHeartbeats 4000000 in
set_option cbv.maxSteps 10000000 in
example (P : Plat) : parseScript P c!"file -> contents -> fs@write file contents" =
    .ok (.do_ [.lambda c!"file" (Init.redirectBody c!"write") [] []]) := by cbv

set_option maxRecDepth 100000 in
set_option maxHeartbeats 4000000 in
set_option cbv.maxSteps 10000000 in
example (P : Plat) : parseScript P c!"file -> contents -> fs@append file contents" =
    .ok (.do_ [.lambda c!"file" (Init.redirectBody c!"append") [] []]) := by cbv

end

/-! ### Instances: the hypotheses can be met -/

example := C83_program (P := Demo.plat) (L := Demo.lib) (n := 0) (w := [])
  (env := Init.start demoMachine) (e := .symbol c!"up") start_fresh demoCopy_files (.bare rfl) .nil rfl c!"f"

example := C83_feed (P := Demo.plat) (L := Demo.lib) (n := 0) (w := [120])
  (env := Init.start demoMachine) (e := .symbol c!"up") start_fresh demoCopy_files (.bare rfl) .nil (file := c!"f") rfl

end Dune.Props
