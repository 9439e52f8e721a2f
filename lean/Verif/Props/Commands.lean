import Verif.Proof.PreludeShort
import Verif.Props.Prelude
import Verif.Props.Sys
import Verif.Props.Pwd

/-! Short commands of the default prelude. -/

namespace Dune.Props

open Spec Calc Prelude Repl

/-! ### Specification -/

/-- These names mean what they mean when the shell starts. -/
def Kept (names : List Str) (env : Env) : Prop := ∃ env0, Std env0 ∧ ∀ s ∈ names, env.get s = env0.get s

/-- An expression without effects that gives `v`: a literal, a name, a quotation. -/
def Gives {W : Type} (H : Host W) (P : Plat) (L : Lib) (env : Env) (e v : Expr) : Prop :=
  ∀ m k w, evalD P H (bodyRun P H (stdB P L) m) (k + 1) e env w = (.ok v, env, w)

/-- What is found in a dictionary under a key, or in a list at a position. -/
inductive Found : Expr → Expr → Expr → Prop
  | key (m : BMap Expr) (k : Expr) (x : Str) (v : Expr) : BMap.Sorted m → k = .str x ∨ k = .symbol x → (x, v) ∈ m →
      Found k (.map m) v
  | noKey (m : BMap Expr) (k : Expr) (x : Str) : k = .str x ∨ k = .symbol x → (∀ v, (x, v) ∉ m) → Found k (.map m) .none
  | element (l l' : List Expr) (i : I64) (v : Expr) : i.val = l.length → Found (.int i) (.list (l ++ v :: l')) v
  | noElement (l : List Expr) (i : I64) : l.length < 2 ^ 63 → i.val < 0 ∨ l.length ≤ i.val → Found (.int i) (.list l) .none

/-! ### Proofs -/

section

variable {W : Type} {H : Host W} {P : Plat} {L : Lib}

theorem kept_of_std {env : Env} (hs : Std env) (names : List Str) : Kept names env := ⟨env, hs, fun _ _ => rfl⟩

theorem Kept.top {names : List Str} {env : Env} (h : Kept names env) {f : Str} {v : Expr} (hf : f ∈ names)
    (hv : (f, v) ∈ Init.top) : env.get f = some v := by
  obtain ⟨env0, hs, h⟩ := h
  rw [h f hf]
  exact hs.top _ hv

theorem Kept.op {names : List Str} {env : Env} (h : Kept names env) {f : Str} {v : Expr} (hf : f ∈ names)
    (hv : (f, v) ∈ Init.ops) : env.get f = some v := by
  obtain ⟨env0, hs, h⟩ := h
  rw [h f hf]
  exact hs.op _ hv

/-- a call of a library function in parentheses, as an argument -/
theorem Kept.lib {names : List Str} {env : Env} (h : Kept names env) {m f nm hlp : Str} {id : BId}
    {tbl : List (Str × Expr)} {n : Nat} {w : W} {args : List Expr} (h1 : c!"@" ∈ names) (h2 : m ∈ names)
    (hm : (m, tbl) ∈ Init.modules) (hf : (f, .builtin nm id hlp) ∈ tbl) :
    evalN P H (stdB P L) (n + 1) (.group (call m f args)) env w =
      (stdB P L id args).run H (evalN P H (stdB P L) n) env w := by
  obtain ⟨env0, hs, h⟩ := h
  obtain ⟨t, ht, h'⟩ := hs.mod _ hm
  have hat := hs.op (Init.b c!"@" .index) (by mem_tac)
  have key : ∀ k, evalD P H (bodyRun P H (stdB P L) n) (k + 4) (.group (call m f args)) env w =
      (stdB P L id args).run H (evalN P H (stdB P L) n) env w := by
    intro k
    rw [evalD]
    simp only [evalStep]
    rw [evalD]
    simp only [evalStep]
    rw [M.bind_ok (evalD_member (k := k) ((h _ h1).trans hat) ((h _ h2).trans ht) (h' _ hf))]
    rfl
  exact key 797

theorem Kept.define {names : List Str} {env : Env} (h : Kept names env) {x : Str} {v : Expr} (hx : x ∉ names) :
    Kept names (env.define x v) := by
  obtain ⟨env0, hs, h⟩ := h
  refine ⟨env0, hs, fun s hm => ?_⟩
  rw [Env.get_define, if_neg, h s hm]
  rintro rfl
  exact hx hm

theorem yields_macro {env : Env} (p : Str) (b : Expr) : Yields H P L 1 env (.macro_ p b) (.macro_ p b) := by
  intro n k w _ hk
  obtain ⟨k, rfl, -⟩ := pos_succ hk
  rfl

theorem exit_entered {n : Nat} {w : W} {env : Env} (h : Kept [c!"exit"] env) (hn : 4 ≤ n) :
    ∃ env', Entered H P L n w [exitText] env env' ∧ env'.get c!"OLD-EXIT" = some (.builtin c!"exit" .exit_ []) ∧
      (∀ s ∈ [c!"exit", c!"quit", c!"q"], env'.get s = some quitMacro) ∧
      ∀ s, s ∉ [c!"exit", c!"quit", c!"q", c!"OLD-EXIT"] → env'.get s = env.get s := by
  have hx := h.top (f := c!"exit") (v := .builtin c!"exit" .exit_ []) (by simp) (by mem_tac)
  have r1 := (yields_symbol (H := H) (P := P) (L := L) hx).assign (x := c!"OLD-EXIT")
  have r2 := (yields_macro (H := H) (P := P) (L := L) (env := env.define c!"OLD-EXIT" (.builtin c!"exit" .exit_ []))
    c!"_" (.apply (.symbol c!"OLD-EXIT") [.int (.lit 0)])).assign (x := c!"quit")
  have r3 := (yields_symbol (H := H) (P := P) (L := L) (env := (env.define c!"OLD-EXIT" (.builtin c!"exit" .exit_ [])).define
    c!"quit" quitMacro) (x := c!"quit") (v := quitMacro) (by rw [Env.get_define, if_pos rfl])).assign (x := c!"q")
  have r4 := (yields_symbol (H := H) (P := P) (L := L) (env := ((env.define c!"OLD-EXIT" (.builtin c!"exit" .exit_ [])).define
    c!"quit" quitMacro).define c!"q" quitMacro) (x := c!"quit") (v := quitMacro) (by
      rw [Env.get_define, if_neg (by decide), Env.get_define, if_pos rfl])).assign (x := c!"exit")
  refine ⟨_, enter_text (exit_parse P) (r1.then_ (r2.then_ (r3.then_ r4.last))).block hn (.nil _), ?_, ?_, ?_⟩
  · simp [Env.get_define]
  · simp [Env.get_define]
  · intro s hs
    simp only [List.mem_cons, List.not_mem_nil, or_false, not_or] at hs
    simp [Env.get_define, Ne.symm hs.1, Ne.symm hs.2.1, Ne.symm hs.2.2.1, Ne.symm hs.2.2.2]

/-! ### Leaving the shell -/

/-- C107.  Entering the definitions changes the meaning of four names and nothing else. -/
theorem C107_defines {n : Nat} {w : W} {env : Env} (h : Kept [c!"exit"] env) (hn : 4 ≤ n) :
    ∃ env', Entered H P L n w [exitText] env env' ∧
      ∀ s, s ∉ [c!"exit", c!"quit", c!"q", c!"OLD-EXIT"] → env'.get s = env.get s :=
  let ⟨env', h1, _, _, h2⟩ := exit_entered h hn
  ⟨env', h1, h2⟩

section

variable {n m k : Nat} {w w' w1 : W} {env env' env1 env2 : Env}

/-- leaving by the saved builtin -/
theorem old_exit (ho : env1.get c!"OLD-EXIT" = some (.builtin c!"exit" .exit_ [])) (v : Expr) :
    evalD P H (bodyRun P H (stdB P L) (m + 1)) (k + 2) (.apply (.symbol c!"OLD-EXIT") [.int (.lit 0)])
      (env1.define c!"_" v) w1 = (.exit 0, env1.define c!"_" v, w1) := by
  rw [evalD]
  simp only [evalStep]
  rw [M.bind_ok (evalD_symbol (v := .builtin c!"exit" .exit_ []) (by rw [Env.get_define, if_neg (by decide), ho]))]
  rfl

/-- C107.  Afterwards `exit a`, `quit a` and `q a`, with any further arguments, leave the shell with status
0, whatever the value of `a`: `a` is evaluated, but `exit 3` reports success. -/
theorem C107_status_refuted (h : Kept [c!"exit"] env) (hn : 4 ≤ n) (he : Entered H P L n w [exitText] env env')
    {f : Str} (hf : f ∈ [c!"exit", c!"quit", c!"q"]) (hf2 : env2.get f = env'.get f) {a v : Expr} {more : List Expr}
    (ha : evalD P H (bodyRun P H (stdB P L) (m + 1)) (k + 2) a env2 w' = (.ok v, env1, w1))
    (ho : env1.get c!"OLD-EXIT" = env'.get c!"OLD-EXIT") :
    evalD P H (bodyRun P H (stdB P L) (m + 1)) (k + 3) (.apply (.symbol f) (a :: more)) env2 w' =
      (.exit 0, env1.define c!"_" v, w1) := by
  obtain ⟨env'', h1, h2, h3, -⟩ := exit_entered (H := H) (P := P) (L := L) (w := w) h hn
  cases he.unique h1
  rw [h3 f hf] at hf2
  rw [h2] at ho
  have hx := old_exit (H := H) (P := P) (L := L) (m := m) (k := k) (w1 := w1) ho v
  rw [evalD]
  simp only [evalStep]
  rw [M.bind_ok (evalD_symbol hf2)]
  cases more with
  | nil =>
    simp only [quitMacro, applyValue]
    rw [M.bind_ok ha, M.define_bind, hx]
  | cons b rest =>
    simp only [quitMacro, applyValue]
    rw [M.bind_ok ha, M.define_bind, M.bind_exit hx]

/-- C107.  If the argument fails, the shell is not left. -/
theorem C107_failing (h : Kept [c!"exit"] env) (hn : 4 ≤ n) (he : Entered H P L n w [exitText] env env')
    {f : Str} (hf : f ∈ [c!"exit", c!"quit", c!"q"]) (hf2 : env2.get f = env'.get f) {a : Expr} {e : Error} {more : List Expr}
    (ha : evalD P H (bodyRun P H (stdB P L) m) (k + 2) a env2 w' = (.err e, env1, w1)) :
    evalD P H (bodyRun P H (stdB P L) m) (k + 3) (.apply (.symbol f) (a :: more)) env2 w' = (.err e, env1, w1) := by
  obtain ⟨env'', h1, -, h3, -⟩ := exit_entered (H := H) (P := P) (L := L) (w := w) h hn
  cases he.unique h1
  rw [h3 f hf] at hf2
  rw [evalD]
  simp only [evalStep]
  rw [M.bind_ok (evalD_symbol hf2)]
  cases more <;> simp only [quitMacro, applyValue] <;> rw [M.bind_err ha]

/-- C107.  Entering `exit`, `quit` or `q` alone at the prompt leaves the shell with status 0. -/
theorem C107_prompt (h : Kept [c!"exit"] env) (hn : 4 ≤ n) (he : Entered H P L n w [exitText] env env')
    {f : Str} (hf : f ∈ [c!"exit", c!"quit", c!"q"]) (hf2 : env2.get f = env'.get f)
    (ho : env2.get c!"OLD-EXIT" = env'.get c!"OLD-EXIT") (hr : Kept [c!"report"] env2) :
    ∃ env3, takeLine P H (evalN P H (stdB P L) (m + 3)) [] f env2 w' = (.exit 0, env3, w') := by
  obtain ⟨env'', h1, h2, h3, -⟩ := exit_entered (H := H) (P := P) (L := L) (w := w) h hn
  cases he.unique h1
  rw [h3 f hf] at hf2
  rw [h2] at ho
  have hp : parseText P (joinStr c!"\n" ([] ++ [f])) = .ok (.do_ [.symbol f]) := by
    simp only [List.mem_cons, List.not_mem_nil, or_false] at hf
    rcases hf with rfl | rfl | rfl <;> kernel_rfl
  have hb : evalN P H (stdB P L) (m + 2) (.apply quitMacro [.str env2.getCwd]) env2 w' =
      (.exit 0, env2.define c!"_" (.str env2.getCwd), w') := by
    rw [evalN_unfold]
    simp only [evalStep]
    rw [M.bind_ok (a := quitMacro) (env' := env2) (w' := w') (by rw [quitMacro, evalD]; rfl)]
    simp only [quitMacro, applyValue]
    rw [M.bind_ok (a := .str env2.getCwd) (env' := env2) (w' := w') (by rw [evalD]; rfl), M.define_bind]
    exact old_exit (k := 798) ho _
  have hr' : evalN P H (stdB P L) (m + 3) (.apply (.symbol c!"report") [.apply quitMacro [.str env2.getCwd]]) env2 w' =
      (.exit 0, env2.define c!"_" (.str env2.getCwd), w') := by
    rw [evalN_symbol (hr.top (v := .builtin c!"report" .report []) (by simp) (by mem_tac)), evalN_builtin]
    simp only [stdB, Builtins.reportB, Builtins.evArg, Builtins.arg, List.getElem?_cons_zero, BProg.run_bind,
      BProg.run_ret, pure_bind, BProg.run_ev]
    rw [M.bind_exit hb]
  refine ⟨env2.define c!"_" (.str env2.getCwd), ?_⟩
  unfold takeLine
  rw [hp]
  simp only [runAccepted]
  refine M.bind_exit ?_
  rw [M.bind_ok (a := .ok quitMacro) (env' := env2) (w' := w') (by rw [M.catch_, evalN_name hf2])]
  simp only [showValue, quitMacro]
  rw [M.getEnv_bind]
  refine M.bind_exit ?_
  rw [M.catch_]
  unfold quitMacro at hr'
  rw [hr']

/-- C107.  In a script the statements `exit`, `quit` and `q` alone do nothing. -/
theorem C107_script_refuted (h : Kept [c!"exit"] env) (hn : 4 ≤ n) (he : Entered H P L n w [exitText] env env')
    {f : Str} (hf : f ∈ [c!"exit", c!"quit", c!"q"]) (hf2 : env2.get f = env'.get f) (e : Expr) (rest : List Expr) :
    evalN P H (stdB P L) (m + 1) (.do_ (.symbol f :: e :: rest)) env2 w' =
      evalN P H (stdB P L) (m + 1) (.do_ (e :: rest)) env2 w' := by
  obtain ⟨env'', h1, -, h3, -⟩ := exit_entered (H := H) (P := P) (L := L) (w := w) h hn
  cases he.unique h1
  rw [h3 f hf] at hf2
  rw [evalN_unfold, evalN_unfold]
  simp only [evalStep, evalDo]
  rw [M.bind_ok (evalD_symbol hf2)]

/-! ### Programs in files -/

theorem file_entered {f b : Str} {t : Str} (ht : t = includeText ∧ f = c!"include" ∧ b = c!"exec" ∨
    t = useText ∧ f = c!"use" ∧ b = c!"eval") (hn : 4 ≤ n) :
    Entered H P L n w [t] env (env.define f (.macro_ c!"file" (fileBody b))) := by
  have r := ((yields_macro (H := H) (P := P) (L := L) (env := env) c!"file" (fileBody b)).assign (x := f)).last.block
  rcases ht with ⟨rfl, rfl, rfl⟩ | ⟨rfl, rfl, rfl⟩
  · exact enter_text (include_parse P) r hn (.nil _)
  · exact enter_text (use_parse P) r hn (.nil _)

/-- C108.  Entering the definition of `include` or of `use` changes the meaning of this name and nothing else. -/
theorem C108_defines {f : Str} {t : Str} (ht : t = includeText ∧ f = c!"include" ∨ t = useText ∧ f = c!"use")
    (hn : 4 ≤ n) : ∃ env', Entered H P L n w [t] env env' ∧ ∀ s, s ≠ f → env'.get s = env.get s := by
  rcases ht with ⟨rfl, rfl⟩ | ⟨rfl, rfl⟩
  · exact ⟨_, file_entered (.inl ⟨rfl, rfl, rfl⟩) hn, fun s hs => by rw [Env.get_define, if_neg (Ne.symm hs)]⟩
  · exact ⟨_, file_entered (.inr ⟨rfl, rfl, rfl⟩) hn, fun s hs => by rw [Env.get_define, if_neg (Ne.symm hs)]⟩

/-- reading -/
theorem file_read {content : W → Str → Option (List UInt8)} (hF : Files H content) {name text : Str}
    (hk : Kept [c!"@", c!"fs", c!"parse"] env1) (hv : env1.get c!"file" = some (.str name))
    (ht : content w1 (pathJoin env1.getCwd name) = some (utf8Encode text)) :
    evalN P H (stdB P L) (m + 2) (.group (call c!"fs" c!"read" [.symbol c!"file"])) env1 w1 =
      (.ok (.str text), env1, w1) := by
  have hr := hF.read _ _ _ ht
  have hd : display P (.str name) = name := rfl
  rw [hk.lib (tbl := Init.fsM) (by simp) (by simp) (by mem_tac) (by mem_tac)]
  have hf : evalN P H (stdB P L) (m + 1) (.symbol c!"file") env1 w1 = (.ok (.str name), env1, w1) :=
    evalD_symbol (k := 800) hv
  brun [Builtins.readB, hf, Builtins.readText, hd, hr, utf8_roundtrip]

/-- reading and parsing -/
theorem file_parse {content : W → Str → Option (List UInt8)} (hF : Files H content) {name text : Str} {e : Expr}
    (hk : Kept [c!"@", c!"fs", c!"parse"] env1) (hv : env1.get c!"file" = some (.str name))
    (ht : content w1 (pathJoin env1.getCwd name) = some (utf8Encode text)) (hne : text ≠ []) (he : L.parse text = .ok e) :
    evalN P H (stdB P L) (m + 3) (.group (call c!"parse" c!"expr" [.group (call c!"fs" c!"read" [.symbol c!"file"])])) env1 w1 =
      (.ok e, env1, w1) := by
  have hd : display P (.str text) = text := rfl
  have hr := file_read (P := P) (L := L) (m := m) hF hk hv ht
  rw [hk.lib (tbl := Init.parseM) (by simp) (by simp) (by mem_tac) (by mem_tac)]
  brun [Builtins.parseB, hr, hd, hne, he]

theorem kept_sub {l l' : List Str} (h : Kept l env1) (hl : ∀ s ∈ l', s ∈ l) : Kept l' env1 :=
  let ⟨env0, hs, h⟩ := h
  ⟨env0, hs, fun s hm => h s (hl s hm)⟩

theorem cwd_file (v : Expr) : (env1.define c!"file" v).getCwd = env1.getCwd := by
  rw [Env.getCwd, Env.getCwd, Env.get_define, if_neg (by decide)]

theorem file_macro {f b : Str} (hf2 : env2.get f = some (.macro_ c!"file" (fileBody b))) {id : BId} {a v : Expr}
    (ha : evalD P H (bodyRun P H (stdB P L) m) (k + 2) a env2 w' = (.ok v, env1, w1))
    (hb : b ≠ c!"file") (hbi : env1.get b = some (.builtin b id [])) :
    evalD P H (bodyRun P H (stdB P L) m) (k + 3) (.apply (.symbol f) [a]) env2 w' =
      (stdB P L id [.group (call c!"parse" c!"expr" [.group (call c!"fs" c!"read" [.symbol c!"file"])])]).run H
        (evalN P H (stdB P L) m) (env1.define c!"file" v) w1 := by
  rw [evalD]
  simp only [evalStep]
  rw [M.bind_ok (evalD_symbol hf2)]
  simp only [applyValue]
  rw [M.bind_ok ha, M.define_bind, fileBody, evalD]
  simp only [evalStep]
  rw [M.bind_ok (evalD_symbol (v := .builtin b id []) (by rw [Env.get_define, if_neg (Ne.symm hb), hbi]))]
  rfl

/-- C108.  `include f` does what the program in the file does, with the caller's variables: it has the same
result, the same effects and makes the same assignments.  But before, the name of the file is assigned to
the variable `file`. -/
theorem C108_include {content : W → Str → Option (List UInt8)} (hF : Files H content) (hn : 4 ≤ n)
    (hd : Entered H P L n w [includeText] env env') (hi : env2.get c!"include" = env'.get c!"include")
    {a e : Expr} {name text : Str}
    (ha : evalD P H (bodyRun P H (stdB P L) (m + 3)) (k + 2) a env2 w' = (.ok (.str name), env1, w1))
    (hk : Kept [c!"@", c!"fs", c!"parse", c!"exec"] env1)
    (ht : content w1 (pathJoin env1.getCwd name) = some (utf8Encode text)) (hne : text ≠ []) (he : L.parse text = .ok e) :
    evalD P H (bodyRun P H (stdB P L) (m + 3)) (k + 3) (.apply (.symbol c!"include") [a]) env2 w' =
      evalN P H (stdB P L) (m + 3) e (env1.define c!"file" (.str name)) w1 := by
  cases hd.unique (file_entered (.inl ⟨rfl, rfl, rfl⟩) hn)
  rw [Env.get_define, if_pos rfl] at hi
  rw [file_macro hi ha (by decide) (hk.top (by simp) (by mem_tac) : env1.get c!"exec" = some (.builtin c!"exec" .exec []))]
  have hp := file_parse (P := P) (L := L) (m := m) (env1 := env1.define c!"file" (.str name)) hF
    (kept_sub (hk.define (x := c!"file") (by decide)) (by simp)) (name := name) (by rw [Env.get_define, if_pos rfl]) (by rw [cwd_file]; exact ht) hne he
  brun [Builtins.execB, hp]

/-- C108.  `use f` has the result and the effects of the program in the file, but its assignments are
undone.  Of the caller's variables only `file` changes. -/
theorem C108_use {content : W → Str → Option (List UInt8)} (hF : Files H content) (hn : 4 ≤ n)
    (hd : Entered H P L n w [useText] env env') (hi : env2.get c!"use" = env'.get c!"use")
    {a e : Expr} {name text : Str} {o : Outcome Expr} {env3 : Env} {w3 : W}
    (ha : evalD P H (bodyRun P H (stdB P L) (m + 3)) (k + 2) a env2 w' = (.ok (.str name), env1, w1))
    (hk : Kept [c!"@", c!"fs", c!"parse", c!"eval"] env1)
    (ht : content w1 (pathJoin env1.getCwd name) = some (utf8Encode text)) (hne : text ≠ []) (he : L.parse text = .ok e)
    (ho : evalN P H (stdB P L) (m + 3) e (env1.define c!"file" (.str name)) w1 = (o, env3, w3)) :
    evalD P H (bodyRun P H (stdB P L) (m + 3)) (k + 3) (.apply (.symbol c!"use") [a]) env2 w' =
      (o, env1.define c!"file" (.str name), w3) := by
  cases hd.unique (file_entered (.inr ⟨rfl, rfl, rfl⟩) hn)
  rw [Env.get_define, if_pos rfl] at hi
  rw [file_macro hi ha (by decide) (hk.top (by simp) (by mem_tac) : env1.get c!"eval" = some (.builtin c!"eval" .eval []))]
  have hp := file_parse (P := P) (L := L) (m := m) (env1 := env1.define c!"file" (.str name)) hF
    (kept_sub (hk.define (x := c!"file") (by decide)) (by simp)) (name := name) (by rw [Env.get_define, if_pos rfl]) (by rw [cwd_file]; exact ht) hne he
  cases o <;> brun [Builtins.evalB, hp, M.getEnv, ho]

theorem file_unread {name : Str} {e1 e2 : IOErr} {w2 w3 : W}
    (hk : Kept [c!"@", c!"fs", c!"parse"] env1) (hv : env1.get c!"file" = some (.str name))
    (h1 : H.io (.readFile (pathJoin env1.getCwd name)) w1 = (.err e1, w2))
    (h2 : H.io (.readFile (pathJoin env1.getCwd name)) w2 = (.err e2, w3)) :
    evalN P H (stdB P L) (m + 2) (.group (call c!"fs" c!"read" [.symbol c!"file"])) env1 w1 =
      (.err (.customError (c!"could not read file " ++ name)), env1, w3) := by
  have hd : display P (.str name) = name := rfl
  rw [hk.lib (tbl := Init.fsM) (by simp) (by simp) (by mem_tac) (by mem_tac)]
  have hf : evalN P H (stdB P L) (m + 1) (.symbol c!"file") env1 w1 = (.ok (.str name), env1, w1) :=
    evalD_symbol (k := 800) hv
  brun [Builtins.readB, hf, Builtins.readText, hd, h1, h2]

theorem file_outcome {f b t : Str} (ht : t = includeText ∧ f = c!"include" ∧ b = c!"exec" ∨
      t = useText ∧ f = c!"use" ∧ b = c!"eval") (hn : 4 ≤ n)
    (hd : Entered H P L n w [t] env env') (hi : env2.get f = env'.get f)
    {a v : Expr} {er : Error} {w3 : W}
    (ha : evalD P H (bodyRun P H (stdB P L) m) (k + 2) a env2 w' = (.ok v, env1, w1))
    (hk : Kept [c!"@", c!"fs", c!"parse", c!"exec", c!"eval"] env1)
    (hp : evalN P H (stdB P L) m (.group (call c!"parse" c!"expr" [.group (call c!"fs" c!"read" [.symbol c!"file"])]))
      (env1.define c!"file" v) w1 = (.err er, env1.define c!"file" v, w3)) :
    evalD P H (bodyRun P H (stdB P L) m) (k + 3) (.apply (.symbol f) [a]) env2 w' =
      (.err er, env1.define c!"file" v, w3) := by
  cases hd.unique (file_entered ht hn)
  rw [Env.get_define, if_pos rfl] at hi
  rcases ht with ⟨rfl, rfl, rfl⟩ | ⟨rfl, rfl, rfl⟩
  · rw [file_macro hi ha (by decide) (hk.top (by simp) (by mem_tac) : env1.get c!"exec" = some (.builtin c!"exec" .exec []))]
    brun [Builtins.execB, hp]
  · rw [file_macro hi ha (by decide) (hk.top (by simp) (by mem_tac) : env1.get c!"eval" = some (.builtin c!"eval" .eval []))]
    brun [Builtins.evalB, hp, M.getEnv]

/-- C108.  If the file cannot be read, both fail; if its text is not a program, both fail with the syntax
error.  Nothing is run; only `file` has changed. -/
theorem C108_fails {content : W → Str → Option (List UInt8)} (hF : Files H content) (hn : 4 ≤ n) {f t : Str}
    (hft : t = includeText ∧ f = c!"include" ∨ t = useText ∧ f = c!"use")
    (hd : Entered H P L n w [t] env env') (hi : env2.get f = env'.get f) {a : Expr} {name : Str}
    (ha : evalD P H (bodyRun P H (stdB P L) (m + 3)) (k + 2) a env2 w' = (.ok (.str name), env1, w1))
    (hk : Kept [c!"@", c!"fs", c!"parse", c!"exec", c!"eval"] env1) :
    (∀ e1 e2 w2 w3, H.io (.readFile (pathJoin env1.getCwd name)) w1 = (.err e1, w2) →
      H.io (.readFile (pathJoin env1.getCwd name)) w2 = (.err e2, w3) →
      evalD P H (bodyRun P H (stdB P L) (m + 3)) (k + 3) (.apply (.symbol f) [a]) env2 w' =
        (.err (.customError (c!"could not read file " ++ name)), env1.define c!"file" (.str name), w3)) ∧
    ∀ text er, content w1 (pathJoin env1.getCwd name) = some (utf8Encode text) → text ≠ [] → L.parse text = .err er →
      evalD P H (bodyRun P H (stdB P L) (m + 3)) (k + 3) (.apply (.symbol f) [a]) env2 w' =
        (.err er, env1.define c!"file" (.str name), w1) := by
  obtain ⟨b, hb⟩ : ∃ b, t = includeText ∧ f = c!"include" ∧ b = c!"exec" ∨ t = useText ∧ f = c!"use" ∧ b = c!"eval" := by
    rcases hft with ⟨h1, h2⟩ | ⟨h1, h2⟩
    · exact ⟨_, .inl ⟨h1, h2, rfl⟩⟩
    · exact ⟨_, .inr ⟨h1, h2, rfl⟩⟩
  have hk' : Kept [c!"@", c!"fs", c!"parse"] (env1.define c!"file" (.str name)) :=
    kept_sub (hk.define (x := c!"file") (by decide)) (by simp)
  have hg : (env1.define c!"file" (.str name)).get c!"file" = some (.str name) := by rw [Env.get_define, if_pos rfl]
  constructor
  · intro e1 e2 w2 w3 h1 h2
    refine file_outcome hb hn hd hi ha hk ?_
    have hr := file_unread (P := P) (L := L) (m := m) hk' hg (by rw [cwd_file]; exact h1) (by rw [cwd_file]; exact h2)
    rw [hk'.lib (tbl := Init.parseM) (by simp) (by simp) (by mem_tac) (by mem_tac)]
    brun [Builtins.parseB, hr]
  · intro text er ht hne he
    refine file_outcome hb hn hd hi ha hk ?_
    have hd : display P (.str text) = text := rfl
    have hr := file_read (P := P) (L := L) (m := m) hF hk' hg (by rw [cwd_file]; exact ht)
    rw [hk'.lib (tbl := Init.parseM) (by simp) (by simp) (by mem_tac) (by mem_tac)]
    brun [Builtins.parseB, hr, hd, hne, he]

/-! ### `concat` and `get` -/

theorem gives_yields {e v : Expr} (h : Gives H P L env e v) : Yields H P L 1 env e v := by
  intro n k w _ hk
  obtain ⟨k, rfl, -⟩ := pos_succ hk
  exact h n k w

/-- C109.  `concat a b` is the text of `b` followed by the text of `a`, also after `str` or `+` has got
another meaning. -/
theorem C109_concat (h : Kept [c!"str", c!"+"] env) (hn : 4 ≤ n) (he : Entered H P L n w [concatText] env env')
    (h2 : env2.get c!"concat" = env'.get c!"concat") (hm : 30 ≤ m) {x y a b : Expr} (hx : Gives H P L env2 x a)
    (hy : Gives H P L env2 y b) :
    evalN P H (stdB P L) m (.apply (.symbol c!"concat") [x, y]) env2 w' =
      (.ok (.str (display P b ++ display P a)), env2, w') := by
  obtain ⟨v, hrun, hv⟩ := run_define (H := H) (P := P) (L := L) (d := 20) (env := env) (f := c!"concat") (p := c!"x") (ps := [c!"y"])
    (body := concatBody) (K := [(c!"str", .builtin c!"str" .str []), (c!"+", .builtin c!"+" .add [])])
    (F := fun as r => ∃ a b, as = [a, b] ∧ r = .str (display P b ++ display P a)) (by decide) (by decide)
    (by
      intro q hq
      simp only [List.mem_cons, List.not_mem_nil, or_false] at hq
      rcases hq with rfl | rfl
      · exact ⟨(by decide : Mentions concatBody c!"str"), (by decide : c!"str" ∉ _), (by decide : c!"str" ≠ _)⟩
      · exact ⟨(by decide : Mentions concatBody c!"+"), (by decide : c!"+" ∉ _), (by decide : c!"+" ≠ _)⟩)
    (by
      intro q hq
      simp only [List.mem_cons, List.not_mem_nil, or_false] at hq
      rcases hq with rfl | rfl
      · exact h.top (by simp) (by mem_tac)
      · exact h.op (by simp) (by mem_tac))
    (by
      rintro env as r - ⟨a, b, rfl, rfl⟩ hs
      have h1 := hs (c!"str", .builtin c!"str" .str []) (by simp)
      have h2 := hs (c!"+", .builtin c!"+" .add []) (by simp)
      have h3 := hs (c!"x", a) (by simp)
      have h4 := hs (c!"y", b) (by simp)
      refine ⟨env, Run.mono (yields_concat h2 (yields_show h1 (yields_symbol h4) (by decide)).group
        (yields_show h1 (yields_symbol h3) (by decide)).group (by decide)) (by decide)⟩)
  cases he.unique (enter_text (concat_parse P) hrun hn (.nil _))
  rw [Env.get_define, if_pos rfl] at h2
  exact Run.evalN (yields_call [x, y] [a, b] (.cons (gives_yields hx) (.cons (gives_yields hy) .nil)) _ _ _ _ (yields_symbol h2) hv
    ⟨a, b, rfl, rfl⟩) (by simp; omega) (by simp) w'

theorem found_index {k t v : Expr} (h : Found k t v) : Expr.index t k = v := by
  cases h with
  | key m k x v hs hk hm =>
    have := BMap.get?_of_mem hs hm
    rcases hk with rfl | rfl <;> simp [Expr.index, this]
  | noKey m k x hk hm =>
    have : BMap.get? m x = none := by
      cases h : BMap.get? m x with
      | none => rfl
      | some v => exact absurd (BMap.mem_of_get? h) (hm v)
    rcases hk with rfl | rfl <;> simp [Expr.index, this]
  | element l l' i v hi =>
    have hu : i.asUsize = l.length := by rw [usize_nonneg (by omega)]; omega
    simp [Expr.index, hu]
  | noElement l i hl hi =>
    have := i.lo
    have := i.hi
    have hu : l.length ≤ i.asUsize := by unfold I64.asUsize; omega
    simp [Expr.index, List.getD, List.getElem?_eq_none hu]

/-- C109.  `get k t` is what is found in `t` under `k`, also after `@` has got another meaning; there is no
error if nothing is found. -/
theorem C109_get (h : Kept [c!"@"] env) (hn : 4 ≤ n) (he : Entered H P L n w [getText] env env')
    (h2 : env2.get c!"get" = env'.get c!"get") (hm : 30 ≤ m) {x y a b r : Expr} (hx : Gives H P L env2 x a)
    (hy : Gives H P L env2 y b) (hr : Found a b r) :
    evalN P H (stdB P L) m (.apply (.symbol c!"get") [x, y]) env2 w' = (.ok r, env2, w') := by
  obtain ⟨v, hrun, hv⟩ := run_define (H := H) (P := P) (L := L) (d := 20) (env := env) (f := c!"get") (p := c!"key") (ps := [c!"table"])
    (body := getBody) (K := [(c!"@", .builtin c!"@" .index [])])
    (F := fun as r => ∃ a b, as = [a, b] ∧ Found a b r) (by decide) (by decide)
    (by
      intro q hq
      cases List.mem_singleton.1 hq
      exact ⟨(by decide : Mentions getBody c!"@"), (by decide : c!"@" ∉ _), (by decide : c!"@" ≠ _)⟩)
    (by
      intro q hq
      cases List.mem_singleton.1 hq
      exact h.op (by simp) (by mem_tac))
    (by
      rintro env as r - ⟨a, b, rfl, hr⟩ hs
      have h1 := hs (c!"@", .builtin c!"@" .index []) (by simp)
      have h3 := hs (c!"key", a) (by simp)
      have h4 := hs (c!"table", b) (by simp)
      refine ⟨env, fun n k w hn hk => ?_⟩
      obtain ⟨k, rfl⟩ : ∃ j, k = j + 3 := ⟨k - 3, by omega⟩
      rw [getBody, evalD]
      simp only [evalStep]
      rw [M.bind_ok (evalD_symbol h1)]
      simp only [applyValue, bodyRun, stdB, Builtins.indexB, Builtins.evArg, Builtins.arg,
        List.getElem?_cons_zero, BProg.run_bind, BProg.run_ret, pure_bind, BProg.run_ev, List.tail_cons,
        Builtins.indexLoop]
      rw [M.bind_ok ((yields_symbol h4).evalN (by omega) (by omega) w),
        M.bind_ok ((yields_symbol h3).group.evalN (by omega) (by omega) w), found_index hr]
      rfl)
  cases he.unique (enter_text (get_parse P) hrun hn (.nil _))
  rw [Env.get_define, if_pos rfl] at h2
  exact Run.evalN (yields_call [x, y] [a, b] (.cons (gives_yields hx) (.cons (gives_yields hy) .nil)) _ _ _ _ (yields_symbol h2) hv
    ⟨a, b, rfl, hr⟩) (by simp; omega) (by simp) w'

/-- C109.  Entering the definition of `concat` or of `get` changes the meaning of this name and nothing else. -/
theorem C109_defines {f t : Str} (ht : t = concatText ∧ f = c!"concat" ∨ t = getText ∧ f = c!"get") (hn : 4 ≤ n) :
    ∃ env', Entered H P L n w [t] env env' ∧ ∀ s, s ≠ f → env'.get s = env.get s := by
  rcases ht with ⟨rfl, rfl⟩ | ⟨rfl, rfl⟩
  · obtain ⟨v, hrun, -⟩ := run_define (H := H) (P := P) (L := L) (d := 20) (env := env) (f := c!"concat") (p := c!"x")
      (ps := [c!"y"]) (body := concatBody) (K := []) (F := fun _ _ => False) (by decide) (by decide) (by simp)
      (fun _ h => nomatch h) (by simp)
    exact ⟨_, enter_text (concat_parse P) hrun hn (.nil _), fun s hs => by rw [Env.get_define, if_neg (Ne.symm hs)]⟩
  · obtain ⟨v, hrun, -⟩ := run_define (H := H) (P := P) (L := L) (d := 20) (env := env) (f := c!"get") (p := c!"key")
      (ps := [c!"table"]) (body := getBody) (K := []) (F := fun _ _ => False) (by decide) (by decide) (by simp)
      (fun _ h => nomatch h) (by simp)
    exact ⟨_, enter_text (get_parse P) hrun hn (.nil _), fun s hs => by rw [Env.get_define, if_neg (Ne.symm hs)]⟩

end

end

/-! ### Cases -/

section

/-- the environment after the prelude's `exit` -/
example : ∃ env', Entered Demo.host Demo.plat Demo.lib 9 [] [exitText] Demo.env env' ∧
    evalD Demo.plat Demo.host (bodyRun Demo.plat Demo.host (stdB Demo.plat Demo.lib) 2) 801
      (.apply (.symbol c!"exit") [.int (.lit 3)]) env' [] = (.exit 0, env'.define c!"_" (.int (.lit 3)), []) ∧
    (∃ env3, takeLine Demo.plat Demo.host (evalN Demo.plat Demo.host (stdB Demo.plat Demo.lib) 3) [] c!"q" env' [] =
      (.exit 0, env3, [])) := by
  obtain ⟨env', h, h'⟩ := C107_defines (H := Demo.host) (P := Demo.plat) (L := Demo.lib) (n := 9) (w := [])
    (kept_of_std demo_std [c!"exit"]) (by decide)
  refine ⟨env', h, ?_, ?_⟩
  · exact C107_status_refuted (k := 798) (m := 1) (kept_of_std demo_std _) (by decide) h (by simp) rfl (by rw [evalD]; rfl) rfl
  · refine C107_prompt (m := 0) (kept_of_std demo_std _) (by decide) h (by simp) rfl rfl ?_
    exact ⟨Demo.env, demo_std, fun s hs => h' s (by simp at hs; subst hs; decide)⟩

/-- Without the prelude the status is 3. -/
example : (evalN Demo.plat Demo.host (stdB Demo.plat Demo.lib) 3 (.apply (.symbol c!"exit") [.int (.lit 3)]) Demo.env []).1 =
    .exit 3 := rfl

/-- `include "a.dune"`, where the file has the text `let x = 2`: `x` is 2, and `file` is the name of the file. -/
example : ∃ env', Entered scriptHost Demo.plat realLib 9 (utf8Encode c!"let x = 2") [includeText] Demo.env env' ∧
    ∃ env3, evalD Demo.plat scriptHost (bodyRun Demo.plat scriptHost (stdB Demo.plat realLib) 3) 801
        (.apply (.symbol c!"include") [.str c!"a.dune"]) env' (utf8Encode c!"let x = 2") =
        (.ok .none, env3, utf8Encode c!"let x = 2") ∧
      env3.get c!"x" = some (.int (.lit 2)) ∧ env3.get c!"file" = some (.str c!"a.dune") := by
  obtain ⟨env', h, h'⟩ := C108_defines (H := scriptHost) (P := Demo.plat) (L := realLib) (n := 9)
    (w := utf8Encode c!"let x = 2") (env := Demo.env) (.inl ⟨rfl, rfl⟩) (by decide)
  refine ⟨env', h, (env'.define c!"file" (.str c!"a.dune")).define c!"x" (.int (.lit 2)), ?_, ?_, ?_⟩
  · rw [C108_include (k := 798) (m := 0) (text := c!"let x = 2") (e := xIs2) scriptHost_files (by decide) h rfl
      (by rw [evalD]; rfl) ⟨Demo.env, demo_std, fun s hs => h' s (by rintro rfl; revert hs; decide)⟩ rfl (by decide)
      realLib_parse]
    rfl
  · rw [Env.get_define, if_pos rfl]
  · rw [Env.get_define, if_neg (by decide), Env.get_define, if_pos rfl]

/-- `use "a.dune"`: only `file` changes. -/
example : ∃ env', Entered scriptHost Demo.plat realLib 9 (utf8Encode c!"let x = 2") [useText] Demo.env env' ∧
    evalD Demo.plat scriptHost (bodyRun Demo.plat scriptHost (stdB Demo.plat realLib) 3) 801
        (.apply (.symbol c!"use") [.str c!"a.dune"]) env' (utf8Encode c!"let x = 2") =
        (.ok .none, env'.define c!"file" (.str c!"a.dune"), utf8Encode c!"let x = 2") := by
  obtain ⟨env', h, h'⟩ := C108_defines (H := scriptHost) (P := Demo.plat) (L := realLib) (n := 9)
    (w := utf8Encode c!"let x = 2") (env := Demo.env) (.inr ⟨rfl, rfl⟩) (by decide)
  refine ⟨env', h, ?_⟩
  exact C108_use (k := 798) (m := 0) (text := c!"let x = 2") (e := xIs2) scriptHost_files (by decide) h rfl
      (by rw [evalD]; rfl) ⟨Demo.env, demo_std, fun s hs => h' s (by rintro rfl; revert hs; decide)⟩ rfl (by decide)
      realLib_parse (env3 := (env'.define c!"file" (.str c!"a.dune")).define c!"x" (.int (.lit 2))) rfl

/-- `include "a.dune"`, where the file has the text `let x`. -/
example : ∃ env' er, Entered scriptHost Demo.plat realLib 9 (utf8Encode c!"let x") [includeText] Demo.env env' ∧
    evalD Demo.plat scriptHost (bodyRun Demo.plat scriptHost (stdB Demo.plat realLib) 3) 801
        (.apply (.symbol c!"include") [.str c!"a.dune"]) env' (utf8Encode c!"let x") =
        (.err er, env'.define c!"file" (.str c!"a.dune"), utf8Encode c!"let x") := by
  obtain ⟨env', h, h'⟩ := C108_defines (H := scriptHost) (P := Demo.plat) (L := realLib) (n := 9)
    (w := utf8Encode c!"let x") (env := Demo.env) (.inl ⟨rfl, rfl⟩) (by decide)
  obtain ⟨er, her⟩ : ∃ er, realLib.parse c!"let x" = .err er := by
    cases hp : realLib.parse c!"let x" with
    | err er => exact ⟨er, rfl⟩
    | _ => exact absurd hp (by have : (match realLib.parse c!"let x" with | .err _ => true | _ => false) = true := by decide +kernel
                               intro h; rw [h] at this; cases this)
  refine ⟨env', er, h, ?_⟩
  exact (C108_fails (k := 798) (m := 0) scriptHost_files (by decide) (.inl ⟨rfl, rfl⟩) h rfl
      (by rw [evalD]; rfl) ⟨Demo.env, demo_std, fun s hs => h' s (by rintro rfl; revert hs; decide)⟩).2 c!"let x" er rfl
      (by decide) her

/-- `concat "a" 5` is `5a`; `get` finds. -/
example : (∃ env', Entered Demo.host Demo.plat Demo.lib 9 [] [concatText] Demo.env env' ∧
    evalN Demo.plat Demo.host (stdB Demo.plat Demo.lib) 30 (.apply (.symbol c!"concat") [.str c!"a", .int (.lit 5)]) env' [] =
      (.ok (.str c!"5a"), env', [])) ∧
    ∃ env', Entered Demo.host Demo.plat Demo.lib 9 [] [getText] Demo.env env' ∧
      evalN Demo.plat Demo.host (stdB Demo.plat Demo.lib) 30
        (.apply (.symbol c!"get") [.int (.lit 1), .quote (.list [.int (.lit 7), .int (.lit 8)])]) env' [] =
        (.ok (.int (.lit 8)), env', []) := by
  refine ⟨?_, ?_⟩
  · obtain ⟨env', h, h'⟩ := C109_defines (H := Demo.host) (P := Demo.plat) (L := Demo.lib) (n := 9) (w := []) (env := Demo.env)
      (.inl ⟨rfl, rfl⟩) (by decide)
    exact ⟨env', h, C109_concat (a := .str c!"a") (b := .int (.lit 5)) (kept_of_std demo_std _) (by decide) h rfl (by decide)
      (fun m k w => by rw [evalD]; rfl) (fun m k w => by rw [evalD]; rfl)⟩
  · obtain ⟨env', h, h'⟩ := C109_defines (H := Demo.host) (P := Demo.plat) (L := Demo.lib) (n := 9) (w := []) (env := Demo.env)
      (.inr ⟨rfl, rfl⟩) (by decide)
    exact ⟨env', h, C109_get (a := .int (I64.lit 1)) (b := .list [.int (I64.lit 7), .int (I64.lit 8)]) (kept_of_std demo_std _) (by decide) h rfl (by decide)
      (fun m k w => by rw [evalD]; rfl) (fun m k w => by rw [evalD]; rfl) (.element [.int (I64.lit 7)] [] (I64.lit 1) (.int (I64.lit 8)) rfl)⟩

end

/-! ### Instances: the hypotheses can be met -/

example : ∃ env', Entered Demo.host Demo.plat Demo.lib 9 [] [exitText] Demo.env env' ∧
    evalD Demo.plat Demo.host (bodyRun Demo.plat Demo.host (stdB Demo.plat Demo.lib) 2) 801
      (.apply (.symbol c!"q") [.apply (.int (.lit 1)) []]) env' [] =
        (.err (.cannotApply (.int (.lit 1)) []), env', []) ∧
    evalN Demo.plat Demo.host (stdB Demo.plat Demo.lib) 3 (.do_ [.symbol c!"quit", .int (.lit 1)]) env' [] =
      (.ok (.int (.lit 1)), env', []) := by
  obtain ⟨env', h, h'⟩ := C107_defines (H := Demo.host) (P := Demo.plat) (L := Demo.lib) (n := 9) (w := [])
    (kept_of_std demo_std [c!"exit"]) (by decide)
  refine ⟨env', h, ?_, ?_⟩
  · exact C107_failing (k := 798) (m := 2) (kept_of_std demo_std _) (by decide) h (by simp) rfl rfl
  · rw [C107_script_refuted (m := 2) (kept_of_std demo_std _) (by decide) h (f := c!"quit") (by simp) rfl]
    rfl

end Dune.Props
