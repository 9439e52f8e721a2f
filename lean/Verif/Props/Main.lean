import Verif.Model.Main
import Verif.Props.Fs
import Verif.Props.Sys
import Verif.Props.Repl
import Verif.Props.Case

/-! C78: what the program does with its command line. -/

namespace Dune.Props

open Spec

section

variable {W : Type} {P : Plat} {H : Host W} {ev : Expr → M W Expr} {S : Main.Setup}
  {rs : List Repl.Reading} {env env0 env1 env2 env3 : Env} {w w0 w1 w2 w3 w4 : W}

/-- The definitions made before anything else succeed. -/
def Starts (P : Plat) (ev : Expr → M W Expr) (env env0 : Env) (w w0 : W) : Prop :=
  Main.startup P ev Main.startupTexts env w = (.ok (), env0, w0)

/-- Standard error takes this line. -/
def Reports (H : Host W) (line : Str) (w w1 : W) : Prop :=
  ∃ r, H.io (.eprint (line ++ c!"\n")) w = (r, w1) ∧ ∀ e, r ≠ .err e

/-- The file has this text. -/
def Reads (H : Host W) (path text : Str) (w w1 : W) : Prop :=
  H.io (.readFile path) w = (.bytes (utf8Encode text), w1)

/-! ### Helper lemmas -/

theorem run_eprintLine {s : Str} (h : Reports H s w w1) :
    eprintLine H s env w = (.ok (), env, w1) := by
  obtain ⟨r, hr, hne⟩ := h
  simp only [eprintLine]
  rw [M.bind_ok (a := r) (env' := env) (w' := w1) (by simp only [M.io, hr])]
  cases r <;> first | rfl | exact absurd rfl (hne _)

theorem run_eprintErrorAs {pre s : Str} {e : Error} (hs : displayError P e = some s)
    (h : Reports H (pre ++ s) w w1) :
    Main.eprintErrorAs P H pre e env w = (.ok (), env, w1) := by
  simp only [Main.eprintErrorAs, hs]
  exact run_eprintLine h

theorem runText_ok {text : Str} {e : Expr} (hp : parseText P text = .ok e) :
    runText P ev text = ev e := by
  funext env w
  simp only [runText, hp]
  rfl

theorem runText_err {text : Str} {e : Error} (hp : parseText P text = .err e) :
    runText P ev text env w = (.err e, env, w) := by
  simp only [runText, hp]
  rfl

theorem runFile_text {path text : Str} (h : Reads H path text w w1) :
    Main.runFile P H ev path env w = runText P ev text env w1 := by
  simp only [Main.runFile]
  rw [M.bind_ok (a := .bytes (utf8Encode text)) (env' := env) (w' := w1) (by
    have h' : H.io (.readFile path) w = (.bytes (utf8Encode text), w1) := h
    simp only [M.io, h'])]
  simp only [utf8_roundtrip]

theorem orPrint_ok {m : M W Expr} {pre : Str} {v : Expr} (h : m env w = (.ok v, env1, w1)) :
    Main.orPrint P H pre m env w = (.ok (), env1, w1) := by
  simp only [Main.orPrint]
  rw [M.bind_ok (a := .ok v) (env' := env1) (w' := w1) (by simp only [M.catch_, h])]
  rfl

theorem orPrint_err {m : M W Expr} {pre s : Str} {e : Error} (h : m env w = (.err e, env1, w1))
    (hs : displayError P e = some s) (hr : Reports H (pre ++ s) w1 w2) :
    Main.orPrint P H pre m env w = (.ok (), env1, w2) := by
  simp only [Main.orPrint]
  rw [M.bind_ok (a := .error e) (env' := env1) (w' := w1) (by simp only [M.catch_, h])]
  exact run_eprintErrorAs hs hr

theorem joinStr_space : ∀ ls : List Str, joinStr c!" " ls = List.intercalate c!" " ls
  | [] => rfl
  | [l] => by simp [joinStr, List.intercalate]
  | l :: l' :: ls => by
    rw [joinStr, joinStr_space (l' :: ls)]
    simp [List.intercalate, List.intersperse]

theorem main_file {f : Str} : Main.main P H ev S { file := some f } rs =
    (do Main.startup P ev Main.startupTexts
        Main.orPrint P H [] (Main.runFile P H ev f)
        pure .done) := by
  simp [Main.main]

theorem main_exec {words : List Str} : Main.main P H ev S { exec := some words } rs =
    (do Main.startup P ev Main.startupTexts
        Main.runExec P H ev words
        pure .done) := by
  simp [Main.main]

theorem main_both {f : Str} {words : List Str} :
    Main.main P H ev S { file := some f, exec := some words } rs =
    (do Main.startup P ev Main.startupTexts
        Main.orPrint P H [] (Main.runFile P H ev f)
        Main.runExec P H ev words
        pure .done) := by
  simp [Main.main]

theorem main_prompt {i : Bool} : Main.main P H ev S { interactive := i } rs =
    (do Main.startup P ev Main.startupTexts
        Main.interactive P H ev S rs) := by
  simp [Main.main]

/-! ### Running a file -/

/-- C78.  `dune FILE` runs the program in the file after the definitions made at the start; its value
is not shown, and neither the prelude nor anything else is read or run. -/
theorem C78_file (hst : Starts P ev env env0 w w0) {f text : Str} {e v : Expr}
    (hf : Reads H f text w0 w1) (hp : parseText P text = .ok e)
    (he : ev e env0 w1 = (.ok v, env1, w2)) :
    Main.main P H ev S { file := some f } rs env w = (.ok .done, env1, w2) := by
  have h := orPrint_ok (P := P) (H := H) (pre := []) (m := Main.runFile P H ev f)
    ((runFile_text hf).trans ((congrFun (congrFun (runText_ok hp) env0) w1).trans he))
  rw [main_file, M.bind_ok hst, M.bind_ok h]
  rfl

/-- C78.  If the program fails, the message is shown on standard error, and the shell ends as if it
had succeeded. -/
theorem C78_file_error (hst : Starts P ev env env0 w w0) {f text s : Str} {e : Expr} {er : Error}
    (hf : Reads H f text w0 w1) (hp : parseText P text = .ok e)
    (he : ev e env0 w1 = (.err er, env1, w2)) (hd : displayError P er = some s)
    (hr : Reports H s w2 w3) :
    Main.main P H ev S { file := some f } rs env w = (.ok .done, env1, w3) := by
  have h := orPrint_err (P := P) (H := H) (pre := []) (m := Main.runFile P H ev f)
    ((runFile_text hf).trans ((congrFun (congrFun (runText_ok hp) env0) w1).trans he)) hd hr
  rw [main_file, M.bind_ok hst, M.bind_ok h]
  rfl

/-- C78.  The same if the file is not a program: nothing of it is run. -/
theorem C78_file_syntax (hst : Starts P ev env env0 w w0) {f text s : Str} {er : Error}
    (hf : Reads H f text w0 w1) (hp : parseText P text = .err er)
    (hd : displayError P er = some s) (hr : Reports H s w1 w2) :
    Main.main P H ev S { file := some f } rs env w = (.ok .done, env0, w2) := by
  have h := orPrint_err (P := P) (H := H) (pre := []) (m := Main.runFile P H ev f)
    (env := env0) ((runFile_text hf).trans (runText_err hp)) hd hr
  rw [main_file, M.bind_ok hst, M.bind_ok h]
  rfl

/-- C78.  The same if the file cannot be read. -/
theorem C78_file_missing (hst : Starts P ev env env0 w w0) {f : Str} {er : IOErr}
    (hf : H.io (.readFile f) w0 = (.err er, w1))
    (hr : ∀ s, displayError P (.customError (c!"Failed to read file: " ++ P.fmtIOErr er)) = some s →
      Reports H s w1 w2) :
    Main.main P H ev S { file := some f } rs env w = (.ok .done, env0, w2) := by
  have hd : ∃ s, displayError P (.customError (c!"Failed to read file: " ++ P.fmtIOErr er)) = some s :=
    ⟨_, rfl⟩
  obtain ⟨s, hd⟩ := hd
  have hm : Main.runFile P H ev f env0 w0 =
      (.err (.customError (c!"Failed to read file: " ++ P.fmtIOErr er)), env0, w1) := by
    simp only [Main.runFile]
    rw [M.bind_ok (a := .err er) (env' := env0) (w' := w1) (by simp only [M.io, hf])]
    rfl
  have h := orPrint_err (P := P) (H := H) (pre := []) hm hd (hr s hd)
  rw [main_file, M.bind_ok hst, M.bind_ok h]
  rfl

/-! ### Running words of the command line -/

theorem runExec_ok {words : List Str} {e v v' : Expr}
    (hp : parseText P (List.intercalate c!" " words) = .ok e)
    (he : ev e env w = (.ok v, env1, w1))
    (hr : ev (.apply (.symbol c!"report") [v]) env1 w1 = (.ok v', env2, w2)) :
    Main.runExec P H ev words env w = (.ok (), env2, w2) := by
  simp only [Main.runExec, joinStr_space]
  rw [runText_ok hp, M.bind_ok (a := .ok v) (env' := env1) (w' := w1) (by simp only [M.catch_, he])]
  simp only
  rw [M.bind_ok hr]
  rfl

/-- C78.  `dune -x WORD ...` runs the program made of the words, and then evaluates its value once
more, to hand it to `report`; this happens in the same variables.  (At the prompt the value is
handed over as it is.) -/
theorem C78_exec (hst : Starts P ev env env0 w w0) {words : List Str} {e v v' : Expr}
    (hp : parseText P (List.intercalate c!" " words) = .ok e)
    (he : ev e env0 w0 = (.ok v, env1, w1))
    (hr : ev (.apply (.symbol c!"report") [v]) env1 w1 = (.ok v', env2, w2)) :
    Main.main P H ev S { exec := some words } rs env w = (.ok .done, env2, w2) := by
  have h := runExec_ok (H := H) hp he hr
  rw [main_exec, M.bind_ok hst, M.bind_ok h]
  rfl

/-- C78.  If it fails, the message is shown on standard error, and the shell ends as if it had
succeeded. -/
theorem C78_exec_error (hst : Starts P ev env env0 w w0) {words : List Str} {s : Str} {er : Error}
    (he : runText P ev (List.intercalate c!" " words) env0 w0 = (.err er, env1, w1))
    (hd : displayError P er = some s) (hr : Reports H s w1 w2) :
    Main.main P H ev S { exec := some words } rs env w = (.ok .done, env1, w2) := by
  have h : Main.runExec P H ev words env0 w0 = (.ok (), env1, w2) := by
    simp only [Main.runExec, joinStr_space]
    rw [M.bind_ok (a := .error er) (env' := env1) (w' := w1) (by simp only [M.catch_, he])]
    exact run_eprintErrorAs hd hr
  rw [main_exec, M.bind_ok hst, M.bind_ok h]
  rfl

/-- C78.  If `report` fails, the shell itself fails with that error. -/
theorem C78_exec_report (hst : Starts P ev env env0 w w0) {words : List Str} {e v : Expr}
    {er : Error}
    (hp : parseText P (List.intercalate c!" " words) = .ok e)
    (he : ev e env0 w0 = (.ok v, env1, w1))
    (hr : ev (.apply (.symbol c!"report") [v]) env1 w1 = (.err er, env2, w2)) :
    Main.main P H ev S { exec := some words } rs env w = (.err er, env2, w2) := by
  have h : Main.runExec P H ev words env0 w0 = (.err er, env2, w2) := by
    simp only [Main.runExec, joinStr_space]
    rw [runText_ok hp, M.bind_ok (a := .ok v) (env' := env1) (w' := w1) (by simp only [M.catch_, he])]
    simp only
    rw [M.bind_err hr]
  rw [main_exec, M.bind_ok hst, M.bind_err h]

/-- C78.  With both, the file is run first, and the words see what it assigned. -/
theorem C78_file_exec (hst : Starts P ev env env0 w w0) {f text : Str} {words : List Str}
    {e1 v1 e2 v2 v' : Expr}
    (hf : Reads H f text w0 w1) (hp1 : parseText P text = .ok e1)
    (he1 : ev e1 env0 w1 = (.ok v1, env1, w2))
    (hp2 : parseText P (List.intercalate c!" " words) = .ok e2)
    (he2 : ev e2 env1 w2 = (.ok v2, env2, w3))
    (hr : ev (.apply (.symbol c!"report") [v2]) env2 w3 = (.ok v', env3, w4)) :
    Main.main P H ev S { file := some f, exec := some words } rs env w = (.ok .done, env3, w4) := by
  have h1 := orPrint_ok (P := P) (H := H) (pre := []) (m := Main.runFile P H ev f)
    ((runFile_text hf).trans ((congrFun (congrFun (runText_ok hp1) env0) w1).trans he1))
  have h2 := runExec_ok (H := H) hp2 he2 hr
  rw [main_both, M.bind_ok hst, M.bind_ok h1, M.bind_ok h2]
  rfl

/-! ### With and without the prompt -/

/-- C78.  With a file or words, and without `-i`, there is no prompt and no prelude: nothing depends
on the home directory and on what the user types. -/
theorem C78_batch {o : Main.Options} (ho : o.interactive = false)
    (hb : o.file.isSome = true ∨ o.exec.isSome = true) (S S' : Main.Setup)
    (rs rs' : List Repl.Reading) :
    Main.main P H ev S o rs = Main.main P H ev S' o rs' := by
  obtain ⟨file, i, exec⟩ := o
  simp only at ho hb
  subst ho
  cases file <;> cases exec <;> simp at hb <;> simp [Main.main]

/-- C78.  `dune` and `dune -i` start the prompt after the prelude, with what the prelude assigned. -/
theorem C78_prompt {i : Bool} (hst : Starts P ev env env0 w w0) {home text : Str}
    {e v : Expr} (hh : S.home = some home)
    (hx : H.io (.exists_ (pathJoin home c!".dune-prelude")) w0 = (.bool true, w1))
    (hf : Reads H (pathJoin home c!".dune-prelude") text w1 w2)
    (hp : parseText P text = .ok e) (he : ev e env0 w2 = (.ok v, env1, w3)) :
    Main.main P H ev S { interactive := i } rs env w =
      (do let lines ← Repl.loop P H ev [] rs; pure (Main.End.waiting lines)) env1 w3 := by
  have h1 : Main.prelude_ P H ev S rs env0 w0 = (.ok (some rs), env1, w3) := by
    simp only [Main.prelude_, hh]
    rw [M.bind_ok (a := .bool true) (env' := env0) (w' := w1) (by simp only [M.io, hx])]
    simp only
    rw [M.bind_ok (a := .ok v) (env' := env1) (w' := w3) (by
      simp only [M.catch_]
      rw [runFile_text hf, runText_ok hp, he])]
    rfl
  rw [main_prompt, M.bind_ok hst, Main.interactive, M.bind_ok h1]

/-- C78.  An existing prelude is never written to by the program itself: if it fails and the user
answers "y" to the question whether to write the default prelude there, the introduction is run
instead, and the file stays as it is. -/
theorem C78_prelude_kept (hst : Starts P ev env env0 w w0) {i : Bool} {home text s answer : Str}
    {er : Error} {e v : Expr} (hh : S.home = some home)
    (hx : H.io (.exists_ (pathJoin home c!".dune-prelude")) w0 = (.bool true, w1))
    (hf : Reads H (pathJoin home c!".dune-prelude") text w1 w2)
    (he : runText P ev text env0 w2 = (.err er, env1, w3)) (hd : displayError P er = some s)
    (hA : Ascii answer) (hy : SaysYes answer)
    (hp : parseText P S.intro = .ok e) (hi : ev e env1 w3 = (.ok v, env2, w4)) :
    Main.main P H ev S { interactive := i } (⟨[], .line answer⟩ :: rs) env w =
      (do let lines ← Repl.loop P H ev [] rs; pure (Main.End.waiting lines)) env2 w4 := by
  have h2 : Main.runIntro P H ev S env1 w3 = (.ok (), env2, w4) :=
    orPrint_ok (by rw [runText_ok hp]; exact hi)
  have h1 : Main.prelude_ P H ev S (⟨[], .line answer⟩ :: rs) env0 w0 = (.ok (some rs), env2, w4) := by
    simp only [Main.prelude_, hh]
    rw [M.bind_ok (a := .bool true) (env' := env0) (w' := w1) (by simp only [M.io, hx])]
    simp only
    rw [M.bind_ok (a := .error er) (env' := env1) (w' := w3) (by
      simp only [M.catch_]
      rw [runFile_text hf, he])]
    have hy' : Main.isYes P answer = true := decide_eq_true ((isYes_iff hA).2 hy)
    simp only [hd, Repl.readline, Repl.reportFailed, pure_bind, hy', if_true]
    rw [M.bind_ok h2]
    rfl
  rw [main_prompt, M.bind_ok hst, Main.interactive, M.bind_ok h1]

/-- C78.  Without a prelude the user is asked; the default prelude is written if the answer is "y"
(or "Y", or with spaces), and only then.  In both cases the introduction is run, not the prelude. -/
theorem C78_no_prelude (hst : Starts P ev env env0 w w0) {i : Bool} {home answer : Str}
    {r : IORes} {e v : Expr} (hh : S.home = some home)
    (hx : H.io (.exists_ (pathJoin home c!".dune-prelude")) w0 = (.bool false, w1))
    (hA : Ascii answer)
    (hw : SaysYes answer ∧
        H.io (.writeFile (pathJoin home c!".dune-prelude") (utf8Encode S.default)) w1 = (r, w2) ∧
          (∀ er, r ≠ .err er) ∨
      ¬ SaysYes answer ∧ w2 = w1)
    (hp : parseText P S.intro = .ok e) (hi : ev e env0 w2 = (.ok v, env1, w3)) :
    Main.main P H ev S { interactive := i } (⟨[], .line answer⟩ :: rs) env w =
      (do let lines ← Repl.loop P H ev [] rs; pure (Main.End.waiting lines)) env1 w3 := by
  have h2 : Main.runIntro P H ev S env0 w2 = (.ok (), env1, w3) :=
    orPrint_ok (by rw [runText_ok hp]; exact hi)
  have h1 : Main.prelude_ P H ev S (⟨[], .line answer⟩ :: rs) env0 w0 = (.ok (some rs), env1, w3) := by
    simp only [Main.prelude_, hh]
    rw [M.bind_ok (a := .bool false) (env' := env0) (w' := w1) (by simp only [M.io, hx])]
    simp only [Repl.readline, Repl.reportFailed, pure_bind]
    rcases hw with ⟨hy, hw⟩ | ⟨hy, hw⟩
    · have h3 : Main.writePrelude P H S (pathJoin home c!".dune-prelude") env0 w1 =
          (.ok (), env0, w2) := by
        simp only [Main.writePrelude]
        rw [M.bind_ok (a := r) (env' := env0) (w' := w2) (by simp only [M.io, hw.1])]
        cases r <;> first | rfl | exact absurd rfl (hw.2 _)
      have hy' : Main.isYes P answer = true := decide_eq_true ((isYes_iff hA).2 hy)
      simp only [hy', if_true]
      rw [M.bind_ok h3, M.bind_ok h2]
      rfl
    · subst hw
      have hy' : Main.isYes P answer = false :=
        decide_eq_false fun h => hy ((isYes_iff hA).1 h)
      simp only [hy', Bool.false_eq_true, if_false]
      rw [M.bind_ok h2]
      rfl
  rw [main_prompt, M.bind_ok hst, Main.interactive, M.bind_ok h1]

end

/-! ### Instances: the hypotheses can be met -/

example := C78_batch (P := Demo.plat) (H := Demo.host) (ev := evalN Demo.plat Demo.host (stdB Demo.plat Demo.lib) 9)
  (o := { file := some c!"a.dune", exec := none, interactive := false }) rfl (.inl rfl)

end Dune.Props
