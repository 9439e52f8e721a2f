import Verif.Model.Parser
import Verif.Props.Fs
import Verif.Props.Basics

/-! C74: the module `sys`: running files, code as data, and variables as data. -/

namespace Dune.Props

open Spec

section

variable {W : Type} {P : Plat} {H : Host W} {L : Lib} {n : Nat} {env env1 env2 : Env}
  {w w1 w2 w3 : W} {content : W → Str → Option (List UInt8)}

theorem std_cwd (hs : Std env) (v : Expr) : Std (env.define c!"CWD" v) where
  op := by
    have h : ∀ p ∈ Init.ops, ¬ c!"CWD" = p.1 := by decide
    intro p hp
    rw [Env.get_define, if_neg (h p hp)]
    exact hs.op p hp
  top := by
    have h : ∀ p ∈ Init.top, ¬ c!"CWD" = p.1 := by decide
    intro p hp
    rw [Env.get_define, if_neg (h p hp)]
    exact hs.top p hp
  mod := by
    have h : ∀ p ∈ Init.modules, ¬ c!"CWD" = p.1 := by decide
    intro p hp
    rw [Env.get_define, if_neg (h p hp)]
    exact hs.mod p hp

/-! ### Running a file -/

/-- C74.  `sys@include file` is the program in the file: it runs with the caller's variables, and
what it assigns stays assigned.  (The name is completed with the directory the caller is in when the
call begins.) -/
theorem C74_include (hs : Std env) (hF : Files H content) {f e : Expr} {name path full text : Str}
    (hp : Resolved env.getCwd name path)
    (hf : evalN P H (stdB P L) n f env w = (.ok (.str name), env1, w1))
    (hc : H.io (.canonicalize path) w1 = (.str full, w2))
    (ht : content w2 full = some (utf8Encode text)) (he : L.parse text = .ok e) :
    evalN P H (stdB P L) (n + 1) (call c!"sys" c!"include" [f]) env w =
      evalN P H (stdB P L) n e env1 w2 := by
  have hr := hF.read _ _ _ ht
  have hd : display P (.str name) = name := rfl
  lib hs, Init.sysM
  brun [Builtins.sysFileB, Builtins.pathArg, hf, hd, hp.join, M.io, hc, Builtins.readText, hr,
    utf8_roundtrip, Builtins.tryParse, he]

/-- C74.  `sys@import file` has the value and the effects of the program in the file, which sees the
caller's variables; but no assignment in it changes a variable of the caller. -/
theorem C74_import (hs : Std env) (hF : Files H content) {f e : Expr} {name path full text : Str}
    {o : Outcome Expr}
    (hp : Resolved env.getCwd name path)
    (hf : evalN P H (stdB P L) n f env w = (.ok (.str name), env1, w1))
    (hc : H.io (.canonicalize path) w1 = (.str full, w2))
    (ht : content w2 full = some (utf8Encode text)) (he : L.parse text = .ok e)
    (hv : evalN P H (stdB P L) n e env1 w2 = (o, env2, w3)) :
    evalN P H (stdB P L) (n + 1) (call c!"sys" c!"import" [f]) env w = (o, env1, w3) := by
  have hr := hF.read _ _ _ ht
  have hd : display P (.str name) = name := rfl
  lib hs, Init.sysM
  cases o <;> brun [Builtins.sysFileB, Builtins.pathArg, hf, hd, hp.join, M.io, hc,
    Builtins.readText, hr, utf8_roundtrip, Builtins.tryParse, he, Builtins.evalCopy, hv]

/-- C74.  If there is no such file, it cannot be read, is not text or is not a program, then both
fail, and nothing was run: the variables are as the evaluation of the argument left them, and the
outside world has seen at most the two requests. -/
theorem C74_no_program (hs : Std env) {f : Expr} {name path full op : Str} {r : IORes} {e : IOErr}
    (hop : op = c!"include" ∨ op = c!"import")
    (hp : Resolved env.getCwd name path)
    (hf : evalN P H (stdB P L) n f env w = (.ok (.str name), env1, w1))
    (h : H.io (.canonicalize path) w1 = (.err e, w3) ∨
      (H.io (.canonicalize path) w1 = (.str full, w2) ∧ H.io (.readFile full) w2 = (r, w3) ∧
        (r = .err e ∨ ∃ b, r = .bytes b ∧ ∀ text, utf8Encode text = b →
          ∃ er, L.parse text = .err er))) :
    ∃ m, evalN P H (stdB P L) (n + 1) (call c!"sys" op [f]) env w =
      (.err (.customError m), env1, w3) := by
  have hd : display P (.str name) = name := rfl
  have key : ∀ (nm : Str) (run : Expr → BProg Expr),
      ∃ m, (Builtins.sysFileB P L nm run [f]).run H (evalN P H (stdB P L) n) env w =
        (.err (.customError m), env1, w3) := by
    intro nm run
    rcases h with hc | ⟨hc, hr, rfl | ⟨b, rfl, hb⟩⟩
    · refine ⟨c!"could not canonicalize path " ++ path, ?_⟩
      brun [Builtins.sysFileB, Builtins.pathArg, hf, hd, hp.join, M.io, hc]
    · refine ⟨c!"could not read file " ++ full, ?_⟩
      brun [Builtins.sysFileB, Builtins.pathArg, hf, hd, hp.join, M.io, hc, Builtins.readText, hr]
    · cases hu : utf8Decode b with
      | none =>
        refine ⟨c!"could not read file " ++ full, ?_⟩
        brun [Builtins.sysFileB, Builtins.pathArg, hf, hd, hp.join, M.io, hc, Builtins.readText, hr,
          hu]
      | some t =>
        obtain ⟨er, he⟩ := hb t (utf8Decode_eq hu)
        refine ⟨c!"could not parse file " ++ full, ?_⟩
        brun [Builtins.sysFileB, Builtins.pathArg, hf, hd, hp.join, M.io, hc, Builtins.readText, hr,
          hu, Builtins.tryParse, he]
  rcases hop with rfl | rfl
  · lib hs, Init.sysM
    rw [evalN_builtin]
    exact key _ _
  · lib hs, Init.sysM
    rw [evalN_builtin]
    exact key _ _

/-! ### Code as data -/

/-- C74.  `sys@parse text` is the code of the text, `None` if the text is not a program.  Nothing is
run. -/
theorem C74_parse (hs : Std env) {a v : Expr}
    (ha : evalN P H (stdB P L) n a env w = (.ok v, env1, w1)) :
    (∀ e, L.parse (display P v) = .ok e →
      evalN P H (stdB P L) (n + 1) (call c!"sys" c!"parse" [a]) env w = (.ok e, env1, w1)) ∧
    (∀ er, L.parse (display P v) = .err er →
      evalN P H (stdB P L) (n + 1) (call c!"sys" c!"parse" [a]) env w = (.ok .none, env1, w1)) := by
  constructor
  · intro e he
    lib hs, Init.sysM
    brun [Builtins.sysParseB, ha, Builtins.tryParse, he]
  · intro er he
    lib hs, Init.sysM
    brun [Builtins.sysParseB, ha, Builtins.tryParse, he]

/-- C74.  `sys@eval` and `sys@exec` are the functions `eval` and `exec` of property C54. -/
theorem C74_eval_exec (hs : Std env) (args : List Expr) :
    evalN P H (stdB P L) (n + 1) (call c!"sys" c!"eval" args) env w =
      evalN P H (stdB P L) (n + 1) (.apply (.symbol c!"eval") args) env w ∧
    evalN P H (stdB P L) (n + 1) (call c!"sys" c!"exec" args) env w =
      evalN P H (stdB P L) (n + 1) (.apply (.symbol c!"exec") args) env w := by
  constructor
  · lib hs, Init.sysM
    rw [eval_top hs (id := .eval) (nm := c!"eval") (hlp := []) (by mem_tac), evalN_builtin,
      evalN_builtin]
    rfl
  · lib hs, Init.sysM
    rw [eval_top hs (id := .exec) (nm := c!"exec") (hlp := []) (by mem_tac), evalN_builtin,
      evalN_builtin]
    rfl

/-- C74.  A program kept as text: `sys@exec (sys@parse text)` is the program. -/
theorem C74_run_text (hs : Std env) {a e : Expr} {text : Str}
    (ha : evalN P H (stdB P L) n a env w = (.ok (.str text), env1, w1))
    (he : L.parse text = .ok e) :
    evalN P H (stdB P L) (n + 2) (call c!"sys" c!"exec" [call c!"sys" c!"parse" [a]]) env w =
      evalN P H (stdB P L) (n + 1) e env1 w1 := by
  have h := (C74_parse (L := L) hs ha).1 e he
  lib hs, Init.sysM
  brun [Builtins.execB, h]

/-- C74.  `sys@quote a` does not run `a`; its value is the quotation `'a`, so it takes two
evaluations to run `a`: `sys@exec (sys@quote a)` is the code `a`, not its value. -/
theorem C74_quote (hs : Std env) (a : Expr) :
    evalN P H (stdB P L) (n + 1) (call c!"sys" c!"quote" [a]) env w = (.ok (.quote a), env, w) ∧
    evalN P H (stdB P L) (n + 2) (call c!"sys" c!"exec" [call c!"sys" c!"quote" [a]]) env w =
      (.ok a, env, w) ∧
    evalN P H (stdB P L) (n + 3)
        (call c!"sys" c!"exec" [call c!"sys" c!"exec" [call c!"sys" c!"quote" [a]]]) env w =
      evalN P H (stdB P L) (n + 2) a env w := by
  have h1 : ∀ n, evalN P H (stdB P L) (n + 1) (call c!"sys" c!"quote" [a]) env w =
      (.ok (.quote a), env, w) := by
    intro n
    lib hs, Init.sysM
    brun [Builtins.sysQuoteB]
  have h2 : ∀ n, evalN P H (stdB P L) (n + 2)
      (call c!"sys" c!"exec" [call c!"sys" c!"quote" [a]]) env w = (.ok a, env, w) := by
    intro n
    lib hs, Init.sysM
    brun [Builtins.execB, h1]
  refine ⟨h1 n, h2 n, ?_⟩
  lib hs, Init.sysM
  brun [Builtins.execB, h2]

/-! ### Variables as data -/

/-- C74.  `sys@set x e` makes the unevaluated code `e` the value of `x`: nothing is run, and using
`x` afterwards gives the code, not its value. -/
theorem C74_set (hs : Std env) {a : Expr} {x : Str} (ha : a = .symbol x ∨ a = .str x) (e : Expr) :
    ∃ env', evalN P H (stdB P L) (n + 1) (call c!"sys" c!"set" [a, e]) env w = (.ok .none, env', w) ∧
      env'.parents = env.parents ∧ env'.get x = some e ∧ ∀ y, y ≠ x → env'.get y = env.get y := by
  refine ⟨env.define x e, ?_, rfl, ?_, ?_⟩
  · have h1 : display P (.symbol x) = x := rfl
    have h2 : display P (.str x) = x := rfl
    lib hs, Init.sysM
    rcases ha with rfl | rfl <;> brun [Builtins.sysSetB, h1, h2, M.define]
  · rw [Env.get_define, if_pos rfl]
  · intro y hy
    rw [Env.get_define, if_neg (Ne.symm hy)]

/-- C74.  `sys@unset x` removes the innermost meaning of `x`, and changes no other name. -/
theorem C74_unset (hs : Std env) {a : Expr} {x : Str} (ha : a = .symbol x ∨ a = .str x) :
    ∃ env', evalN P H (stdB P L) (n + 1) (call c!"sys" c!"unset" [a]) env w = (.ok .none, env', w) ∧
      env'.parents = env.parents ∧ env'.get x = (Env.mk [] env.parents).get x ∧
      ∀ y, y ≠ x → env'.get y = env.get y := by
  refine ⟨env.undefine x, ?_, rfl, ?_, ?_⟩
  · have h1 : display P (.symbol x) = x := rfl
    have h2 : display P (.str x) = x := rfl
    lib hs, Init.sysM
    rcases ha with rfl | rfl <;> brun [Builtins.sysUnsetB, h1, h2, M.undefine]
  · rw [Env.get_undefine, if_pos rfl]
    rfl
  · intro y hy
    rw [Env.get_undefine, if_neg (Ne.symm hy)]

/-- C74.  `sys@defined? x` says whether `x` means something, here or in an enclosing scope. -/
theorem C74_defined (hs : Std env) {a : Expr} {x : Str} (ha : a = .symbol x ∨ a = .str x) :
    ∃ b, evalN P H (stdB P L) (n + 1) (call c!"sys" c!"defined?" [a]) env w =
        (.ok (.bool b), env, w) ∧ (b = true ↔ Visible env x) := by
  refine ⟨(env.get x).isSome, ?_, Option.isSome_iff_exists⟩
  have h1 : display P (.symbol x) = x := rfl
  have h2 : display P (.str x) = x := rfl
  lib hs, Init.sysM
  rcases ha with rfl | rfl <;> brun [Builtins.sysDefinedB, h1, h2, M.getEnv]

/-- C74.  `sys@env` is a map with exactly the variables of the innermost scope. -/
theorem C74_env (hs : Std env) (args : List Expr) :
    ∃ m, evalN P H (stdB P L) (n + 1) (call c!"sys" c!"env" args) env w = (.ok (.map m), env, w) ∧
      ∀ x, BMap.get? m x = (Env.mk env.bindings []).get x := by
  refine ⟨env.bindings, ?_, ?_⟩
  · lib hs, Init.sysM
    brun [Builtins.varsB, M.getEnv]
  · intro x
    simp only [Env.get]
    cases BMap.get? env.bindings x <;> rfl

/-- C74.  `vars` is the same map. -/
theorem C74_vars (hs : Std env) (args : List Expr) :
    evalN P H (stdB P L) (n + 1) (.apply (.symbol c!"vars") args) env w =
      evalN P H (stdB P L) (n + 1) (call c!"sys" c!"env" args) env w := by
  rw [eval_top hs (nm := c!"vars") (id := .vars) (hlp := []) (by mem_tac)]
  lib hs, Init.sysM
  brun [Builtins.varsB, M.getEnv]

/-- C74.  `parse@expr v` reads the text of `v` as code and answers this code, without running it: no
request is made and no variable changes after the argument; the empty text is `None`; a syntax error
is the failure. -/
theorem C74_parse_expr (hs : Std env) {a v : Expr}
    (ha : evalN P H (stdB P L) n a env w = (.ok v, env1, w1)) :
    (display P v = [] →
      evalN P H (stdB P L) (n + 1) (call c!"parse" c!"expr" [a]) env w = (.ok .none, env1, w1)) ∧
    (display P v ≠ [] →
      (∀ e, L.parse (display P v) = .ok e →
        evalN P H (stdB P L) (n + 1) (call c!"parse" c!"expr" [a]) env w = (.ok e, env1, w1)) ∧
      ∀ er, L.parse (display P v) = .err er →
        evalN P H (stdB P L) (n + 1) (call c!"parse" c!"expr" [a]) env w = (.err er, env1, w1)) := by
  refine ⟨fun h => ?_, fun h => ?_⟩
  · lib hs, Init.parseM
    brun [Builtins.parseB, ha, h]
  · refine ⟨fun e hp => ?_, fun er hp => ?_⟩ <;>
    · lib hs, Init.parseM
      brun [Builtins.parseB, ha, h, hp]

/-- C74.  `sys@cd p` changes the value of `sys@cwd` (and `CWD`) to the full path, nothing else; in
contrast to `cd` it does not tell the operating system: the only request is the one for the full
path. -/
theorem C74_cd (hs : Std env) (hs1 : Std env1) {a : Expr} {p p' q : Str}
    (hp : Resolved env.getCwd p p')
    (ha : evalN P H (stdB P L) n a env w = (.ok (.str p), env1, w1))
    (h1 : H.io (.canonicalize p') w1 = (.str q, w2)) :
    ∃ env', evalN P H (stdB P L) (n + 1) (call c!"sys" c!"cd" [a]) env w =
        (.ok .none, env', w2) ∧
      (∀ y, y ≠ c!"CWD" → env'.get y = env1.get y) ∧
      ∀ args, evalN P H (stdB P L) (n + 1) (call c!"sys" c!"cwd" args) env' w2 =
        (.ok (.str q), env', w2) := by
  have hd : display P (.str p) = p := rfl
  have hg : (env1.define c!"CWD" (.str q)).getCwd = q := by
    rw [Env.getCwd, show cwdVar = c!"CWD" from rfl, Env.get_define, if_pos rfl]
  refine ⟨env1.define c!"CWD" (.str q), ?_, ?_, ?_⟩
  · lib hs, Init.sysM
    brun [Builtins.sysCdB, Builtins.pathArg, ha, hd, hp.join, M.io, h1, M.define]
    rfl
  · intro y hy
    rw [Env.get_define, if_neg (Ne.symm hy)]
  · intro args
    lib std_cwd hs1 (.str q), Init.sysM
    brun [Builtins.sysCwdB, M.getEnv, hg]

end

/-! ### Examples -/

/-- A world with one file, whose content is the state. -/
def scriptHost : Host (List UInt8) where
  io op w :=
    match op with
    | .canonicalize p => (.str p, w)
    | .readFile _ => (.bytes w, w)
    | .writeFile _ d => (.unit, d)
    | .appendFile _ d => (.unit, w ++ d)
    | _ => (.unit, w)

theorem scriptHost_files : Files scriptHost (fun w _ => some w) where
  read _ w b h := by cases h; rfl
  write _ _ _ _ := rfl
  append _ _ _ _ h _ := by cases h; rfl
  open_none _ _ h := by cases h
  open_some _ w b _ := ⟨fun _ h => (by cases h), rfl⟩

/-- The shell's parser. -/
def realLib : Lib := { Demo.lib with parse := parseText Demo.plat }

def xIs2 : Expr := .do_ [.assign c!"x" (.int (.lit 2))]

set_option maxRecDepth 100000 in
theorem realLib_parse : realLib.parse c!"let x = 2" = .ok xIs2 := rfl

theorem demo_home : Std (Demo.env.define c!"CWD" (.str c!"/home")) := std_cwd demo_std _

/-- The file `a.dune` with the text `let x = 2`, included: `x` is 2. -/
example : (evalN Demo.plat scriptHost (stdB Demo.plat realLib) 2
    (call c!"sys" c!"include" [.str c!"a.dune"]) (Demo.env.define c!"CWD" (.str c!"/home"))
    (utf8Encode c!"let x = 2")).2.1.get c!"x" = some (.int (.lit 2)) := by
  rw [C74_include (name := c!"a.dune") (path := c!"/home/a.dune") (full := c!"/home/a.dune")
    (text := c!"let x = 2") (e := xIs2) (env1 := Demo.env.define c!"CWD" (.str c!"/home"))
    (w1 := utf8Encode c!"let x = 2") demo_home scriptHost_files
    (.relative c!"/home" c!"a.dune" (by decide) (by decide) (by decide)) rfl rfl rfl realLib_parse]
  rfl

/-- Imported: `x` is as before. -/
example : evalN Demo.plat scriptHost (stdB Demo.plat realLib) 2
    (call c!"sys" c!"import" [.str c!"a.dune"]) (Demo.env.define c!"CWD" (.str c!"/home"))
    (utf8Encode c!"let x = 2") =
    (.ok .none, Demo.env.define c!"CWD" (.str c!"/home"), utf8Encode c!"let x = 2") :=
  C74_import (name := c!"a.dune") (path := c!"/home/a.dune") (full := c!"/home/a.dune")
    (text := c!"let x = 2") (e := xIs2)
    (env2 := (Demo.env.define c!"CWD" (.str c!"/home")).define c!"x" (.int (.lit 2)))
    demo_home scriptHost_files
    (.relative c!"/home" c!"a.dune" (by decide) (by decide) (by decide)) rfl rfl rfl
    realLib_parse rfl

/-- No such file. -/
example : ∃ m, evalN Demo.plat Demo.hostNotFound (stdB Demo.plat realLib) 2
    (call c!"sys" c!"include" [.str c!"a.dune"]) (Demo.env.define c!"CWD" (.str c!"/home")) [] =
    (.err (.customError m), Demo.env.define c!"CWD" (.str c!"/home"),
      [.canonicalize c!"/home/a.dune"]) :=
  C74_no_program (full := []) (r := .unit) (w2 := []) demo_home (.inl rfl)
    (.relative c!"/home" c!"a.dune" (by decide) (by decide) (by decide)) rfl (.inl rfl)

set_option maxRecDepth 100000 in
/-- `sys@exec (sys@parse "let x = 2")`, and a text that is not a program. -/
example : (evalN Demo.plat Demo.host (stdB Demo.plat realLib) 3
    (call c!"sys" c!"exec" [call c!"sys" c!"parse" [.str c!"let x = 2"]]) Demo.env []).2.1.get c!"x" =
      some (.int (.lit 2)) ∧
    (evalN Demo.plat Demo.host (stdB Demo.plat realLib) 3
      (call c!"sys" c!"parse" [.str c!"= ="]) Demo.env []).1 = .ok .none := ⟨rfl, rfl⟩

/-- `sys@set x (1 + 2)`: `x` is the code `1 + 2`. -/
example : (evalN Demo.plat Demo.host (stdB Demo.plat realLib) 3
    (.do_ [call c!"sys" c!"set" [.symbol c!"x",
      .apply (.symbol c!"+") [.int (.lit 1), .int (.lit 2)]], .symbol c!"x"]) Demo.env []).1 =
    .ok (.apply (.symbol c!"+") [.int (.lit 1), .int (.lit 2)]) := rfl

/-- Defined, undefined, and visible from an enclosing scope again. -/
example : (evalN Demo.plat Demo.host (stdB Demo.plat realLib) 3
    (.do_ [call c!"sys" c!"unset" [.symbol c!"x"], .list [.symbol c!"x",
      call c!"sys" c!"defined?" [.symbol c!"x"], call c!"sys" c!"defined?" [.symbol c!"y"]]])
    ⟨(Demo.env.define c!"x" (.int (.lit 1))).bindings, [[(c!"x", .int (.lit 2))]]⟩ []).1 =
    .ok (.list [.int (.lit 2), .bool true, .bool false]) := rfl

/-- `sys@cd` asks for the full path and for nothing else. -/
example : (evalN Demo.plat cdHost (stdB Demo.plat Demo.lib) 2
    (.do_ [call c!"sys" c!"cd" [.str c!"me"], call c!"sys" c!"cwd" []])
    (Demo.env.define c!"CWD" (.str c!"/home")) []).1 = .ok (.str c!"/home/me") ∧
    (evalN Demo.plat cdHost (stdB Demo.plat Demo.lib) 2 (call c!"sys" c!"cd" [.str c!"me"])
    (Demo.env.define c!"CWD" (.str c!"/home")) []).2.2 = [.canonicalize c!"/home/me"] := ⟨rfl, rfl⟩

/-! ### Instances: the hypotheses can be met -/

section

example := (C74_parse (P := Demo.plat) (H := Demo.host) (L := realLib) (n := 0) (w := []) demo_std
  (a := .str c!"let x = 2") rfl).1 _ realLib_parse

example := C74_run_text (P := Demo.plat) (H := Demo.host) (L := realLib) (n := 0) (w := []) demo_std
  (a := .str c!"let x = 2") rfl realLib_parse

example := C74_set (P := Demo.plat) (H := Demo.host) (L := Demo.lib) (n := 0) (w := [])
  demo_std (a := .symbol c!"x") (x := c!"x") (.inl rfl) (.apply (.symbol c!"y") [])

example := C74_unset (P := Demo.plat) (H := Demo.host) (L := Demo.lib) (n := 0) (w := [])
  demo_std (a := .symbol c!"x") (x := c!"x") (.inl rfl)

example := C74_defined (P := Demo.plat) (H := Demo.host) (L := Demo.lib) (n := 0) (w := [])
  demo_std (a := .str c!"x") (x := c!"x") (.inr rfl)

example := ((C74_parse_expr (P := Demo.plat) (H := Demo.host) (L := realLib) (n := 0) (w := []) demo_std
  (a := .str c!"let x = 2") rfl).2 (by decide)).1 _ realLib_parse

end

end Dune.Props
