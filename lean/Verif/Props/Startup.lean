import Verif.Proof.Startup
import Verif.Props.Combinators
import Verif.Props.Styles
import Verif.Props.Main
import Verif.Props.Arith
import Verif.Proof.Numeral

/-!
The five definitions made before anything else (C78), and what the shell shows as prompts with them
(C79).
-/

namespace Dune.Props

open Spec Startup

/-- The value of a function literal without captured variables. -/
def closure (env : Env) (p : Str) (body : Expr) : Expr :=
  .lambda p body (closeLambda env p body ⟨[], []⟩).bindings (closeLambda env p body ⟨[], []⟩).parents

def started2 (env : Env) : Env :=
  (env.define c!"clear" (.macro_ c!"_" (call c!"console" c!"clear" [.none]))).define c!"pwd"
    (.macro_ c!"_" (.apply (.symbol c!"echo") [.symbol c!"CWD"]))

def started3 (env : Env) : Env :=
  (started2 env).define c!"join" (closure (started2 env) c!"sep" (.lambda c!"l" joinBody [] []))

def started4 (env : Env) : Env :=
  (started3 env).define c!"prompt" (closure (started3 env) c!"cwd" promptBody)

/-- The variables after the definitions made at the start. -/
def started (env : Env) : Env :=
  (started4 env).define c!"incomplete_prompt" (closure (started4 env) c!"cwd" incompleteBody)

section

variable {W : Type} {P : Plat} {H : Host W} {L : Lib} {n : Nat} {env : Env} {w : W}

/-! ### The definitions -/

theorem eval_define {x : Str} {e v : Expr} {bodies : BId → List Expr → BProg Expr}
    (h : ∀ B, evalD P H B 799 e env w = (.ok v, env, w)) :
    evalN P H bodies n (.do_ [.assign x e]) env w = (.ok .none, env.define x v, w) := by
  have key : ∀ B, evalD P H B 801 (.do_ [.assign x e]) env w = (.ok .none, env.define x v, w) := by
    intro B
    rw [evalD]
    simp only [evalStep, evalDo]
    rw [evalD]
    simp only [evalStep]
    rw [M.bind_ok (h B)]
    rfl
  cases n <;> (rw [evalN]; exact key _)

theorem startup_eq (env : Env) (w : W) :
    Main.startup P (evalN P H (stdB P L) n) Main.startupTexts env w = (.ok (), started env, w) := by
  unfold Main.startupTexts
  simp only [Main.startup]
  rw [runText_ok (parse0 P), M.bind_ok (eval_define fun _ => rfl),
    runText_ok (parse1 P), M.bind_ok (eval_define fun _ => rfl),
    runText_ok (parse2 P), M.bind_ok (eval_define fun _ => rfl),
    runText_ok (parse3 P), M.bind_ok (eval_define fun _ => rfl),
    runText_ok (parse4 P), M.bind_ok (eval_define fun _ => rfl)]
  rfl

/-- C78.  The definitions made at the start always succeed, have no effects, and define nothing but
`clear`, `pwd`, `join`, `prompt` and `incomplete_prompt`. -/
theorem C78_startup (P : Plat) (H : Host W) (L : Lib) (n : Nat) (env : Env) (w : W) :
    ∃ env0, Starts P (evalN P H (stdB P L) n) env env0 w w ∧
      (∀ x ∈ [c!"clear", c!"pwd", c!"join", c!"prompt", c!"incomplete_prompt"],
        ∃ v, env0.get x = some v ∧ v ≠ .none) ∧
      ∀ x ∉ [c!"clear", c!"pwd", c!"join", c!"prompt", c!"incomplete_prompt"],
        env0.get x = env.get x := by
  refine ⟨started env, startup_eq env w, ?_, ?_⟩
  · simp only [List.forall_mem_cons, List.not_mem_nil, false_imp_iff, implies_true, and_true, started,
      started4, started3, started2, Env.get_define]
    simp [closure]
  · intro x hx
    simp only [List.mem_cons, List.not_mem_nil, or_false, not_or] at hx
    obtain ⟨h1, h2, h3, h4, h5⟩ := hx
    simp only [started, started4, started3, started2, Env.get_define, Ne.symm h1, Ne.symm h2, Ne.symm h3, Ne.symm h4, Ne.symm h5,
      if_false]

/-! ### Evaluation without effects -/

/-- `e` has the value `v` here, without effects, if at least `n0` native and `k0` other levels of
nesting are left. -/
def Val (P : Plat) (H : Host W) (L : Lib) (env : Env) (w : W) (n0 k0 : Nat) (e v : Expr) : Prop :=
  ∀ n k, n0 ≤ n → k0 ≤ k → evalD P H (bodyRun P H (stdB P L) n) k e env w = (.ok v, env, w)

theorem Val.mono {n0 k0 n1 k1 : Nat} {e v : Expr} (h : Val P H L env w n0 k0 e v) (hn : n0 ≤ n1)
    (hk : k0 ≤ k1) : Val P H L env w n1 k1 e v :=
  fun n k h1 h2 => h n k (by omega) (by omega)

theorem Val.full {n0 k0 : Nat} {e v : Expr} (h : Val P H L env w n0 k0 e v) (hk : k0 ≤ 801)
    (hn : n0 < n) : evalN P H (stdB P L) n e env w = (.ok v, env, w) := by
  obtain ⟨m, rfl⟩ : ∃ m, n = m + 1 := ⟨n - 1, by omega⟩
  rw [evalN]
  exact h m 801 (by omega) hk

theorem Val.str (s : Str) : Val P H L env w 0 1 (.str s) (.str s) := by
  intro n k _ hk
  obtain ⟨m, rfl⟩ : ∃ m, k = m + 1 := ⟨k - 1, by omega⟩
  rfl

theorem Val.symbol {x : Str} {v : Expr} (h : env.get x = some v) :
    Val P H L env w 0 1 (.symbol x) v := by
  intro n k _ hk
  obtain ⟨m, rfl⟩ : ∃ m, k = m + 1 := ⟨k - 1, by omega⟩
  exact evalD_symbol h

theorem Val.group {n0 k0 : Nat} {e v : Expr} (h : Val P H L env w n0 k0 e v) :
    Val P H L env w n0 (k0 + 1) (.group e) v := by
  intro n k hn hk
  obtain ⟨m, rfl⟩ : ∃ m, k = m + 1 := ⟨k - 1, by omega⟩
  rw [evalD]
  exact h n m hn (by omega)

/-- calling a builtin -/
theorem Val.call {n0 k0 : Nat} {f v : Expr} {args : List Expr} {nm hlp : Str} {id : BId}
    (hf : Val P H L env w n0 k0 f (.builtin nm id hlp))
    (hb : ∀ n, n0 ≤ n → (stdB P L id args).run H (evalN P H (stdB P L) n) env w = (.ok v, env, w)) :
    Val P H L env w n0 (k0 + 1) (.apply f args) v := by
  intro n k hn hk
  obtain ⟨m, rfl⟩ : ∃ m, k = m + 1 := ⟨k - 1, by omega⟩
  rw [evalD]
  simp only [evalStep]
  rw [M.bind_ok (hf n m hn (by omega))]
  exact hb n hn

theorem Val.add {n0 k0 : Nat} {a b : Expr} {s t : Str}
    (hop : env.get c!"+" = some (.builtin c!"+" .add []))
    (ha : Val P H L env w n0 k0 a (.str s)) (hb : Val P H L env w n0 k0 b (.str t))
    (hk : k0 ≤ 801) :
    Val P H L env w (n0 + 1) 3 (plus a b) (.str (s ++ t)) := by
  refine (Val.call ((Val.symbol hop).mono (n1 := n0 + 1) (k1 := 1) (by omega) (by omega)) ?_).group
  intro n hn
  simp only [stdB, Builtins.addB, Builtins.evArg, Builtins.arg, List.getElem?_cons_zero,
    BProg.run_bind, BProg.run_ret, pure_bind, BProg.run_ev, List.tail_cons]
  rw [M.bind_ok (ha.full hk hn), opLoop_two (evalN_str ..) (hb.full hk hn)]
  rfl

theorem Val.style {n0 k0 : Nat} {f a : Expr} {s nm hlp code : Str} {id : BId} {k : Nat}
    (hid : ∀ args, stdB P L id args = Builtins.styleB P code Highlight.reset args)
    (hf : Val P H L env w 0 k f (.builtin nm id hlp))
    (ha : Val P H L env w n0 k0 a (.str s)) (hk : k0 ≤ 801) :
    Val P H L env w (n0 + 1) (k + 1) (.apply f [a]) (.str (inStyle code s)) := by
  refine Val.call (hf.mono (by omega) (Nat.le_refl _)) ?_
  intro n hn
  rw [hid]
  exact run_style [] (ha.full hk hn)

/-- The names used by the prompts have their initial meaning. -/
structure PromptNames (env : Env) : Prop where
  at_ : env.get c!"@" = some (.builtin c!"@" .index [])
  add : env.get c!"+" = some (.builtin c!"+" .add [])
  fmt : ∃ t : BMap Expr, env.get c!"fmt" = some (.map t) ∧ ∀ p ∈ Init.fmtM, t.get? p.1 = some p.2

theorem Val.bold {n0 k0 : Nat} {a : Expr} {s : Str} (hp : PromptNames env)
    (ha : Val P H L env w n0 k0 a (.str s)) (hk : k0 ≤ 801) :
    Val P H L env w (n0 + 1) 3 (bold a) (.str (inStyle c!"1" s)) := by
  obtain ⟨t, ht, h⟩ := hp.fmt
  refine Val.style (k := 2) (code := c!"1") (id := .tStyle c!"1") (nm := c!"bold") (hlp := [])
    (fun _ => rfl) ?_ ha hk
  intro n k _ hk
  obtain ⟨m, rfl⟩ : ∃ m, k = m + 2 := ⟨k - 2, by omega⟩
  exact evalD_member hp.at_ ht (h (Init.style c!"bold" c!"1") (by mem_tac))

theorem Val.dark {n0 k0 : Nat} {a : Expr} {s : Str} {p : Str × Str} (hp : PromptNames env)
    (hm : p ∈ darkStyles)
    (ha : Val P H L env w n0 k0 a (.str s)) (hk : k0 ≤ 801) :
    Val P H L env w (n0 + 1) 3 (dark p.1 a) (.str (inStyle p.2 s)) := by
  obtain ⟨t, ht, h⟩ := hp.fmt
  refine Val.style (k := 2) (code := p.2) (id := .tStyle p.2) (nm := p.1) (hlp := [])
    (fun _ => rfl) ?_ ha hk
  intro n k _ hk
  obtain ⟨m, rfl⟩ : ∃ m, k = m + 2 := ⟨k - 2, by omega⟩
  have hd : t.get? c!"dark" = some (.map (BMap.ofList Init.darkM)) :=
    h (c!"dark", .map (BMap.ofList Init.darkM)) (by mem_tac)
  have hg : BMap.get? (BMap.ofList Init.darkM) p.1 = some (Init.style p.1 p.2).2 :=
    dark_get (darkStyle_mem hm)
  rw [evalD]
  simp only [evalStep]
  rw [M.bind_ok (evalD_symbol hp.at_)]
  simp only [applyValue, bodyRun, stdB, Builtins.indexB, Builtins.evArg, Builtins.arg,
    List.getElem?_cons_zero, BProg.run_bind, BProg.run_ret, pure_bind, BProg.run_ev, List.tail_cons,
    Builtins.indexLoop]
  rw [M.bind_ok (evalN_sym ht)]
  simp only [Expr.index, hd, Option.getD_some, hg]
  rfl

/-- What a variable is in the body of a function: a captured value. -/
theorem callEnv_get {env : Env} {p x cwd : Str} {body v : Expr} (hx : x ∈ body.usedSymbols)
    (h1 : x ≠ p) (h2 : x ≠ c!"CWD") (hs : (env.get x).isSome) :
    (callEnv p ⟨(closeLambda env p body ⟨[], []⟩).bindings,
      (closeLambda env p body ⟨[], []⟩).parents⟩ cwd v).get x = env.get x := by
  have h : (closeLambda env p body ⟨[], []⟩).bindings.get? x = env.get x := by
    rw [closeLambda, capture_get, if_pos ⟨hx, h1, rfl, hs⟩]
  rw [callEnv, Env.get_define, if_neg (Ne.symm h1), Env.setCwd, Env.get_define,
    if_neg (by exact Ne.symm h2), Env.get]
  simp only [h]
  obtain ⟨v, hv⟩ := Option.isSome_iff_exists.1 hs
  rw [hv]

theorem std_started {env env0 : Env} (hs : Std env)
    (h : ∀ x ∉ [c!"clear", c!"pwd", c!"join", c!"prompt", c!"incomplete_prompt"],
      env0.get x = env.get x) : Std env0 := by
  have e1 : ∀ p ∈ Init.ops, p.1 ∉ [c!"clear", c!"pwd", c!"join", c!"prompt", c!"incomplete_prompt"] := by
    decide
  have e2 : ∀ p ∈ Init.top, p.1 ∉ [c!"clear", c!"pwd", c!"join", c!"prompt", c!"incomplete_prompt"] := by
    decide
  have e3 : ∀ p ∈ Init.modules,
      p.1 ∉ [c!"clear", c!"pwd", c!"join", c!"prompt", c!"incomplete_prompt"] := by
    decide
  refine ⟨?_, ?_, ?_⟩
  · intro p hp
    rw [h _ (e1 p hp), hs.op p hp]
  · intro p hp
    rw [h _ (e2 p hp), hs.top p hp]
  · intro m hm
    rw [h _ (e3 m hm)]
    exact hs.mod m hm

/-! ### The prompts -/

/-- the text of the prompt -/
def promptText (cwd : Str) : Str :=
  inStyle c!"1" (inStyle c!"34" c!"(dune) " ++ inStyle c!"1" (inStyle c!"32" cwd) ++
    inStyle c!"1" (inStyle c!"34" c!"$ "))

theorem val_prompt {cwd : Str} (hp : PromptNames env) (hc : env.get c!"cwd" = some (.str cwd)) :
    Val P H L env w 6 3 promptBody (.str (promptText cwd)) := by
  have h1 := (Val.dark (w := w) (P := P) (H := H) (L := L) hp (p := (c!"blue", c!"34")) (by decide)
    (Val.str c!"(dune) ") (by decide)).group
  have h2 := (Val.bold hp ((Val.dark (w := w) (P := P) (H := H) (L := L) hp
    (p := (c!"green", c!"32")) (by decide) (Val.symbol hc) (by decide)).group) (by decide)).group
  have h3 := (Val.bold hp ((Val.dark (w := w) (P := P) (H := H) (L := L) hp
    (p := (c!"blue", c!"34")) (by decide) (Val.str c!"$ ") (by decide)).group) (by decide)).group
  have h4 := Val.add hp.add (h1.mono (n1 := 2) (by decide) (Nat.le_refl _)) h2 (by decide)
  have h5 := Val.add hp.add (h4.mono (k1 := 4) (Nat.le_refl _) (by decide))
    (h3.mono (n1 := 3) (by decide) (Nat.le_refl _)) (by decide)
  exact (Val.bold hp h5.group (by decide)).mono (by decide) (Nat.le_refl _)

theorem promptNames {x : Str} {body v : Expr} {cwd : Str} (hs : Std env) (hx : x ∉ [c!"@", c!"+", c!"fmt"])
    (hu : ∀ y ∈ [c!"@", c!"+", c!"fmt"], y ∈ body.usedSymbols) :
    PromptNames (callEnv x ⟨(closeLambda env x body ⟨[], []⟩).bindings,
      (closeLambda env x body ⟨[], []⟩).parents⟩ cwd v) := by
  have h1 : env.get c!"@" = some (.builtin c!"@" .index []) := hs.op (Init.b c!"@" .index) (by mem_tac)
  have h2 : env.get c!"+" = some (.builtin c!"+" .add []) := hs.op (Init.b c!"+" .add) (by mem_tac)
  obtain ⟨t, ht, h⟩ := hs.mod (c!"fmt", Init.fmtM) (by mem_tac)
  have ht' : env.get c!"fmt" = some (.map t) := ht
  simp only [List.mem_cons, List.not_mem_nil, or_false, not_or] at hx
  refine ⟨?_, ?_, t, ?_, h⟩
  · rw [callEnv_get (hu _ (by decide)) (Ne.symm hx.1) (by decide) (by rw [h1]; rfl), h1]
  · rw [callEnv_get (hu _ (by decide)) (Ne.symm hx.2.1) (by decide) (by rw [h2]; rfl), h2]
  · rw [callEnv_get (hu _ (by decide)) (Ne.symm hx.2.2) (by decide) (by rw [ht']; rfl), ht']

theorem eval_prompt {env' : Env} {cwd : Str} (hs : Std env)
    (hv : env'.get c!"prompt" = some (closure env c!"cwd" promptBody)) :
    evalN P H (stdB P L) (n + 7) (.apply (.symbol c!"prompt") [.str cwd]) env' w =
      (.ok (.str (promptText cwd)), env', w) := by
  have := val_prompt (P := P) (H := H) (L := L) (w := w)
    (promptNames (x := c!"cwd") (body := promptBody) (v := .str cwd) (cwd := env'.getCwd) hs
      (by decide) (by decide)) (cwd := cwd) (by rw [callEnv, Env.get_define, if_pos rfl])
  rw [evalN]
  change evalD P H (bodyRun P H (stdB P L) (n + 6)) 801 _ _ _ = _
  rw [evalD_call1 (evalD_symbol hv) rfl, this (n + 6) 800 (by omega) (by omega)]

/-- The numbers of characters are computed with; more than 2^63 cannot be held in memory. -/
theorem wrap_len {n : Nat} (h : n < 2 ^ 63) : (I64.wrap (n : Int)).val = n := by
  simp only [I64.wrap]
  rw [Int.bmod_eq_of_le (by omega) (by omega)]

/-- the text of the second prompt -/
def incompleteText (cwd : Str) : Str :=
  List.replicate (cwd.length + 7) ' ' ++ inStyle c!"1" (inStyle c!"33" c!"> ")

theorem Val.len {a : Expr} {s : Str} {n0 k0 : Nat} 
    (h : env.get c!"len" = some (.builtin c!"len" .len []))
    (ha : Val P H L env w n0 k0 a (.str s)) (hk : k0 ≤ 801) :
    Val P H L env w (n0 + 1) 2 (len_ a) (Builtins.lenInt s.length) := by
  refine Val.call ((Val.symbol h).mono (by omega) (Nat.le_refl _)) ?_
  intro n hn
  brun [Builtins.lenB, ha.full hk hn]

theorem Val.addLen {n0 k0 : Nat} {a b : Expr} {i j : Nat}
    (hop : env.get c!"+" = some (.builtin c!"+" .add []))
    (ha : Val P H L env w n0 k0 a (Builtins.lenInt i)) (hb : Val P H L env w n0 k0 b (Builtins.lenInt j))
    (hk : k0 ≤ 801) (hij : i + j < 2 ^ 63) :
    Val P H L env w (n0 + 1) 3 (plus a b) (Builtins.lenInt (i + j)) := by
  refine (Val.call ((Val.symbol hop).mono (n1 := n0 + 1) (k1 := 1) (by omega) (by omega)) ?_).group
  intro n hn
  simp only [stdB, Builtins.addB, Builtins.evArg, Builtins.arg, List.getElem?_cons_zero,
    BProg.run_bind, BProg.run_ret, pure_bind, BProg.run_ev, List.tail_cons]
  rw [M.bind_ok (ha.full hk hn), opLoop_two (r := Builtins.lenInt i) (evalN_int ..) (hb.full hk hn)]
  have h1 : Expr.add P (Builtins.lenInt i) (Builtins.lenInt j) = Builtins.lenInt (i + j) := by
    simp only [Builtins.lenInt, Expr.add, wrap_len (n := i) (by omega), wrap_len (n := j) (by omega)]
    have h2 : I64.ofInt? ((i : Int) + j) = some (I64.wrap ((i + j : Nat) : Int)) := by
      exact ofInt_some _ (by rw [wrap_len hij]; omega)
    rw [h2]
    rfl
  rw [h1]
  rfl

theorem Val.spaces {n0 k0 : Nat} {a : Expr} {i : Nat}
    (hop : env.get c!"*" = some (Builtins.curry2 (.builtin c!"*" .mul [])))
    (ha : Val P H L env w n0 k0 a (Builtins.lenInt i)) (hi : i < 2 ^ 63) :
    Val P H L env w n0 (k0 + 4) (.apply (.symbol c!"*") [a, .str c!" "])
      (.str (List.replicate i ' ')) := by
  intro n k hn hk
  obtain ⟨m, rfl⟩ : ∃ m, k = m + 4 := ⟨k - 4, by omega⟩
  rw [evalD_curry2 (evalD_symbol hop) (ha n (m + 3) hn (by omega)) rfl]
  simp only [bodyRun, stdB, Builtins.mulB, Builtins.evArg, Builtins.arg, curryArgs,
    List.getElem?_cons_zero,
    BProg.run_bind, BProg.run_ret, pure_bind, BProg.run_ev, List.tail_cons]
  rw [M.bind_ok (evalN_arg0 _ _ _ _ _), opLoop_two (r := Builtins.lenInt i) (evalN_int ..) (evalN_arg1 _ _ _ _ _)]
  have h1 : Expr.mul P (Builtins.lenInt i) (.str c!" ") = .ok (.str (List.replicate i ' ')) := by
    have h2 : (I64.wrap (i : Int)).asUsize = i := by
      rw [asUsize_of_nonneg (by rw [wrap_len hi]; omega), wrap_len hi]
      rfl
    have h3 : utf8Len c!" " = 1 := rfl
    simp only [Builtins.lenInt, Expr.mul, Expr.repeatStr, h2, h3]
    rw [if_pos (by omega), if_neg (by decide), replicateList_eq]
    simp
  rw [h1]
  rfl

theorem val_incomplete {cwd : Str} (hp : PromptNames env) (hc : env.get c!"cwd" = some (.str cwd))
    (hl : env.get c!"len" = some (.builtin c!"len" .len []))
    (hm : env.get c!"*" = some (Builtins.curry2 (.builtin c!"*" .mul [])))
    (hlen : cwd.length + 7 < 2 ^ 63) :
    Val P H L env w 4 3 incompleteBody (.str (incompleteText cwd)) := by
  have h1 := (Val.len (w := w) (P := P) (H := H) (L := L) hl (Val.symbol hc) (by decide)).group
  have h2 := (Val.len (w := w) (P := P) (H := H) (L := L) hl (Val.str c!"(dune) ") (by decide)).group
  have h3 := Val.spaces hm (Val.addLen hp.add h1 h2 (by decide) hlen).group hlen
  have h4 := (Val.bold hp ((Val.dark (w := w) (P := P) (H := H) (L := L) hp
    (p := (c!"yellow", c!"33")) (by decide) (Val.str c!"> ") (by decide)).group) (by decide)).group
  exact (Val.add hp.add h3.group (h4.mono (k1 := 9) (by decide) (by decide)) (by decide)).mono
    (by decide) (Nat.le_refl _)

theorem eval_incomplete {env' : Env} {cwd : Str} (hs : Std env)
    (hv : env'.get c!"incomplete_prompt" = some (closure env c!"cwd" incompleteBody))
    (hlen : cwd.length + 7 < 2 ^ 63) :
    evalN P H (stdB P L) (n + 7) (.apply (.symbol c!"incomplete_prompt") [.str cwd]) env' w =
      (.ok (.str (incompleteText cwd)), env', w) := by
  have h1 : env.get c!"len" = some (.builtin c!"len" .len []) := hs.top (Init.b c!"len" .len) (by mem_tac)
  have h2 : env.get c!"*" = some (Builtins.curry2 (.builtin c!"*" .mul [])) :=
    hs.op (c!"*", Builtins.curry2 (.builtin c!"*" .mul [])) (by mem_tac)
  have := val_incomplete (P := P) (H := H) (L := L) (w := w)
    (promptNames (x := c!"cwd") (body := incompleteBody) (v := .str cwd) (cwd := env'.getCwd) hs
      (by decide) (by decide)) (cwd := cwd) (by rw [callEnv, Env.get_define, if_pos rfl])
    (by rw [callEnv_get (by decide) (by decide) (by decide) (by rw [h1]; rfl), h1])
    (by rw [callEnv_get (by decide) (by decide) (by decide) (by rw [h2]; rfl), h2]) hlen
  rw [evalN]
  change evalD P H (bodyRun P H (stdB P L) (n + 6)) 801 _ _ _ = _
  rw [evalD_call1 (evalD_symbol hv) rfl, this (n + 6) 800 (by omega) (by omega)]

theorem starts_eq {env0 : Env} {w0 : W} (h : Starts P (evalN P H (stdB P L) n) env env0 w w0) :
    env0 = started env ∧ w0 = w := by
  rw [Starts, startup_eq] at h
  simp only [Prod.mk.injEq, true_and] at h
  exact ⟨h.1.symm, h.2.symm⟩

/-- the environments in which the prompts are defined -/
theorem started_prompts (hs : Std env) : ∃ env3 env4, Std env3 ∧ Std env4 ∧
    (started env).get c!"prompt" = some (closure env3 c!"cwd" promptBody) ∧
    (started env).get c!"incomplete_prompt" = some (closure env4 c!"cwd" incompleteBody) := by
  have h1 : ∀ {env : Env} {x : Str} {v : Expr}, Std env →
      x ∈ [c!"clear", c!"pwd", c!"join", c!"prompt", c!"incomplete_prompt"] →
      Std (env.define x v) := by
    intro env x v hs hx
    refine std_started hs ?_
    intro y hy
    rw [Env.get_define, if_neg]
    rintro rfl
    exact hy hx
  have s2 : Std (started2 env) := h1 (h1 hs (by decide)) (by decide)
  have s3 : Std (started3 env) := h1 s2 (by decide)
  have s4 : Std (started4 env) := h1 s3 (by decide)
  refine ⟨started3 env, started4 env, s3, s4, ?_, ?_⟩
  · simp only [started, started4, Env.get_define]
    rw [if_neg (by decide), if_pos trivial]
  · simp only [started, Env.get_define]
    rw [if_pos trivial]

/-- C79.  After the start, and as long as it is not redefined, the prompt without its styles is
`(dune) `, the current directory, and `$ `. -/
theorem C79_prompt {env0 : Env} {w0 : W} (hs : Std env)
    (hst : Starts P (evalN P H (stdB P L) n) env env0 w w0)
    {env' : Env} {w' : W} (hv : env'.get c!"prompt" = env0.get c!"prompt")
    (hc : '\x1b' ∉ env'.getCwd) (m : Nat) :
    ∃ text, Repl.prompt P (evalN P H (stdB P L) (m + 7)) [] env' w' = (.ok text, env', w') ∧
      stripAnsi text = c!"(dune) " ++ env'.getCwd ++ c!"$ " := by
  obtain ⟨rfl, rfl⟩ := starts_eq hst
  obtain ⟨env3, _, hs3, _, h, _⟩ := started_prompts hs
  refine ⟨promptText env'.getCwd, ?_, ?_⟩
  · simp only [Repl.prompt, M.getEnv_bind, if_true]
    rw [M.bind_ok (a := .ok (.str (promptText env'.getCwd))) (env' := env') (w' := w') (by
      rw [M.catch_, eval_prompt hs3 (hv.trans h)])]
    rfl
  · refine strip_styled (.style (by decide) (.append (.append (.style (by decide) (.plain _ (by decide)))
      (.style (by decide) (.style (by decide) (.plain _ hc)))) (.style (by decide) (.style (by decide)
      (.plain _ (by decide))))))

/-- C79.  While an input is incomplete, the prompt without its styles is `> ` at the end of a line of
spaces. -/
theorem C79_incomplete {env0 : Env} {w0 : W} (hs : Std env)
    (hst : Starts P (evalN P H (stdB P L) n) env env0 w w0)
    {env' : Env} {w' : W} (hv : env'.get c!"incomplete_prompt" = env0.get c!"incomplete_prompt")
    {lines : List Str} (hl : lines ≠ []) (hc : env'.getCwd.length + 7 < 2 ^ 63) (m : Nat) :
    ∃ text, Repl.prompt P (evalN P H (stdB P L) (m + 7)) lines env' w' = (.ok text, env', w') ∧
      stripAnsi text = List.replicate (env'.getCwd.length + 7) ' ' ++ c!"> " := by
  obtain ⟨rfl, rfl⟩ := starts_eq hst
  obtain ⟨_, env4, _, hs4, _, h⟩ := started_prompts hs
  refine ⟨incompleteText env'.getCwd, ?_, ?_⟩
  · simp only [Repl.prompt, M.getEnv_bind, hl, if_false]
    rw [M.bind_ok (a := .ok (.str (incompleteText env'.getCwd))) (env' := env') (w' := w') (by
      rw [M.catch_, eval_incomplete hs4 (hv.trans h) hc])]
    rfl
  · refine strip_styled (.append (.plain _ ?_) (.style (by decide) (.style (by decide)
      (.plain _ (by decide)))))
    intro hm
    have := List.eq_of_mem_replicate hm
    exact absurd this (by decide)

/-- C79.  So what is typed stays in the same column from one line to the next. -/
theorem C79_aligned {env0 : Env} {w0 : W} (hs : Std env)
    (hst : Starts P (evalN P H (stdB P L) n) env env0 w w0) {env' : Env} {w' : W}
    (hv : env'.get c!"prompt" = env0.get c!"prompt")
    (hv' : env'.get c!"incomplete_prompt" = env0.get c!"incomplete_prompt")
    (hc : '\x1b' ∉ env'.getCwd) (hl : env'.getCwd.length + 7 < 2 ^ 63)
    (lines : List Str) (m : Nat) :
    ∃ text, Repl.prompt P (evalN P H (stdB P L) (m + 7)) lines env' w' = (.ok text, env', w') ∧
      (stripAnsi text).length = env'.getCwd.length + 9 := by
  by_cases h : lines = []
  · subst h
    obtain ⟨t, h1, h2⟩ := C79_prompt (w' := w') hs hst hv hc m
    refine ⟨t, h1, ?_⟩
    rw [h2]
    simp
  · obtain ⟨t, h1, h2⟩ := C79_incomplete (w' := w') hs hst hv' h hl m
    refine ⟨t, h1, ?_⟩
    rw [h2]
    simp

/-- C79.  If the prompt cannot be computed, the current directory and `$ ` are shown. -/
theorem C79_fallback {ev : Expr → M W Expr} {lines : List Str} {er : Error} {env1 : Env} {w1 : W}
    (h : ev (.apply (.symbol (if lines = [] then c!"prompt" else c!"incomplete_prompt"))
      [.str env.getCwd]) env w = (.err er, env1, w1)) :
    Repl.prompt P ev lines env w = (.ok (env.getCwd ++ c!"$ "), env1, w1) := by
  simp only [Repl.prompt, M.getEnv_bind]
  rw [M.bind_ok (a := .error er) (env' := env1) (w' := w1) (by rw [M.catch_, h])]
  rfl

end

/-! ### Examples -/

section

/-- A world that records what is done, in which every file has this text, and in which the prelude
exists or not. -/
def mainHost (text : Option Str) (prelude : Bool) : Host (List IOp) where
  io op w :=
    match op with
    | .readFile _ =>
      (match text with | some t => .bytes (utf8Encode t) | none => .err .notFound, w ++ [op])
    | .exists_ _ => (.bool prelude, w ++ [op])
    | _ => (.unit, w ++ [op])

def mainSetup : Main.Setup := ⟨some c!"/home", c!"let y = 3", c!"let z = 4"⟩

abbrev mainEv (text : Option Str) (prelude : Bool) : Expr → M (List IOp) Expr :=
  evalN Demo.plat (mainHost text prelude) (stdB Demo.plat Demo.lib) 3

theorem main_starts (text : Option Str) (prelude : Bool) :
    Starts Demo.plat (mainEv text prelude) Demo.env (started Demo.env) [] [] := startup_eq _ _

set_option maxRecDepth 100000 in
theorem main_parse : parseText Demo.plat c!"let x = 2" = .ok xIs2 := rfl

theorem main_parse_intro : parseText Demo.plat mainSetup.intro =
    .ok (.do_ [.assign c!"y" (.int (.lit 3))]) := by
  set_option maxRecDepth 100000 in rfl

/-- `dune a.dune` for the program `let x = 2` -/
example : Main.main Demo.plat (mainHost (some c!"let x = 2") true)
    (mainEv (some c!"let x = 2") true) mainSetup { file := some c!"a.dune" } [] Demo.env [] =
    (.ok .done, (started Demo.env).define c!"x" (.int (.lit 2)), [.readFile c!"a.dune"]) :=
  C78_file (main_starts _ _) rfl main_parse rfl

/-- the program `5 6`: the number 5 cannot be called; only the message is shown -/
example : ∃ s, Main.main Demo.plat (mainHost (some c!"5 6") true)
    (mainEv (some c!"5 6") true) mainSetup { file := some c!"a.dune" } [] Demo.env [] =
    (.ok .done, started Demo.env, [.readFile c!"a.dune", .eprint (s ++ c!"\n")]) :=
  ⟨_, C78_file_error (main_starts _ _) (text := c!"5 6") rfl
    (e := .do_ [.apply (.int (.lit 5)) [.int (.lit 6)]]) (by
      set_option maxRecDepth 100000 in rfl) rfl rfl ⟨_, rfl, fun _ h => by cases h⟩⟩

/-- no such file -/
example : ∃ s, Main.main Demo.plat (mainHost none true) (mainEv none true) mainSetup
    { file := some c!"a.dune" } [] Demo.env [] =
    (.ok .done, started Demo.env, [.readFile c!"a.dune", .eprint (s ++ c!"\n")]) :=
  ⟨_, C78_file_missing (main_starts _ _) rfl (fun s h => ⟨_, by cases h; rfl, fun _ h => by cases h⟩)⟩

/-- `dune -x let x = 2` -/
example : Main.main Demo.plat (mainHost none true) (mainEv none true) mainSetup
    { exec := some [c!"let", c!"x", c!"=", c!"2"] } [] Demo.env [] =
    (.ok .done, (started Demo.env).define c!"x" (.int (.lit 2)), []) :=
  C78_exec (v := .none) (v' := .none) (main_starts _ _) main_parse rfl rfl

/-- `dune -x "'(let y = 2)"`: the program only quotes the assignment, but the assignment is made. -/
example : Main.main Demo.plat (mainHost none true) (mainEv none true) mainSetup
    { exec := some [c!"'(let y = 2)"] } [] Demo.env [] =
    (.ok .done, (started Demo.env).define c!"y" (.int (.lit 2)), []) :=
  C78_exec (e := .do_ [.quote (.group (.assign c!"y" (.int (.lit 2))))])
    (v := .group (.assign c!"y" (.int (.lit 2)))) (v' := .none) (main_starts _ _) (by
      set_option maxRecDepth 100000 in rfl) rfl rfl

/-- the program `= =`: nothing is run, the message is shown -/
example : ∃ s, Main.main Demo.plat (mainHost (some c!"= =") true)
    (mainEv (some c!"= =") true) mainSetup { file := some c!"a.dune" } [] Demo.env [] =
    (.ok .done, started Demo.env, [.readFile c!"a.dune", .eprint (s ++ c!"\n")]) := by
  obtain ⟨er, s, h, hs⟩ : ∃ er s, parseText Demo.plat c!"= =" = .err er ∧ displayError Demo.plat er = some s :=
    ⟨_, _, by set_option maxRecDepth 100000 in rfl, by set_option maxRecDepth 100000 in rfl⟩
  exact ⟨s, C78_file_syntax (main_starts _ _) (text := c!"= =") rfl h hs ⟨_, rfl, fun _ h => by cases h⟩⟩

/-- `dune -x 5 6` -/
example : ∃ s, Main.main Demo.plat (mainHost none true) (mainEv none true) mainSetup
    { exec := some [c!"5", c!"6"] } [] Demo.env [] =
    (.ok .done, started Demo.env, [.eprint (s ++ c!"\n")]) :=
  ⟨_, C78_exec_error (main_starts _ _) (er := .cannotApply (.int (.lit 5)) [.int (.lit 6)]) (by
      rw [runText_ok (e := .do_ [.apply (.int (.lit 5)) [.int (.lit 6)]]) (by
        set_option maxRecDepth 100000 in rfl)]
      rfl) rfl ⟨_, rfl, fun _ h => by cases h⟩⟩

/-- `dune -x "'(5 6)"`: the value is run to be shown, which fails, and this error ends the shell. -/
example : Main.main Demo.plat (mainHost none true) (mainEv none true) mainSetup
    { exec := some [c!"'(5 6)"] } [] Demo.env [] =
    (.err (.cannotApply (.int (.lit 5)) [.int (.lit 6)]), started Demo.env, []) :=
  C78_exec_report (e := .do_ [.quote (.group (.apply (.int (.lit 5)) [.int (.lit 6)]))])
    (v := .group (.apply (.int (.lit 5)) [.int (.lit 6)])) (main_starts _ _) (by
      set_option maxRecDepth 100000 in rfl) rfl rfl

/-- `dune a.dune -x let x = 2` for the program `let y = 3`: the text is run after the file -/
example : Main.main Demo.plat (mainHost (some c!"let y = 3") true)
    (mainEv (some c!"let y = 3") true) mainSetup
    { file := some c!"a.dune", exec := some [c!"let", c!"x", c!"=", c!"2"] } [] Demo.env [] =
    (.ok .done, ((started Demo.env).define c!"y" (.int (.lit 3))).define c!"x" (.int (.lit 2)),
      [.readFile c!"a.dune"]) :=
  C78_file_exec (v1 := .none) (v2 := .none) (v' := .none) (main_starts _ _) rfl main_parse_intro rfl
    main_parse rfl rfl

/-- `dune` with the prelude `let x = 2`, before anything is typed -/
example : Main.main Demo.plat (mainHost (some c!"let x = 2") true)
    (mainEv (some c!"let x = 2") true) mainSetup {} [] Demo.env [] =
    (.ok (.waiting []), (started Demo.env).define c!"x" (.int (.lit 2)),
      [.exists_ c!"/home/.dune-prelude", .readFile c!"/home/.dune-prelude"]) :=
  C78_prompt (home := c!"/home") (main_starts _ _) rfl rfl rfl main_parse rfl

/-- a broken prelude, and the answer "y" -/
example : Main.main Demo.plat (mainHost (some c!"5 6") true)
    (mainEv (some c!"5 6") true) mainSetup {} [⟨[], .line c!"y"⟩] Demo.env [] =
    (.ok (.waiting []), (started Demo.env).define c!"y" (.int (.lit 3)),
      [.exists_ c!"/home/.dune-prelude", .readFile c!"/home/.dune-prelude"]) :=
  C78_prelude_kept (home := c!"/home") (text := c!"5 6")
    (er := .cannotApply (.int (.lit 5)) [.int (.lit 6)]) (main_starts _ _) rfl rfl rfl (by
      rw [runText_ok (e := .do_ [.apply (.int (.lit 5)) [.int (.lit 6)]]) (by
        set_option maxRecDepth 100000 in rfl)]
      rfl) rfl (by unfold Ascii; decide) (⟨[], 'y', [], rfl, by simp [Blank], by simp [Blank], .inl rfl⟩)
    main_parse_intro rfl

/-- no prelude, and the answer "y" -/
example : Main.main Demo.plat (mainHost none false) (mainEv none false) mainSetup {}
    [⟨[], .line c!"y"⟩] Demo.env [] =
    (.ok (.waiting []), (started Demo.env).define c!"y" (.int (.lit 3)),
      [.exists_ c!"/home/.dune-prelude",
        .writeFile c!"/home/.dune-prelude" (utf8Encode c!"let z = 4")]) :=
  C78_no_prelude (home := c!"/home") (r := .unit) (main_starts _ _) rfl rfl
    (by unfold Ascii; decide)
    (.inl ⟨⟨[], 'y', [], rfl, by simp [Blank], by simp [Blank], .inl rfl⟩, rfl, fun _ h => by cases h⟩)
    main_parse_intro rfl

/-- The prompt in `/home`. -/
example : ∃ text, Repl.prompt Demo.plat (evalN Demo.plat Demo.host (stdB Demo.plat Demo.lib) 7) []
    ((started Demo.env).define c!"CWD" (.str c!"/home")) [] =
      (.ok text, (started Demo.env).define c!"CWD" (.str c!"/home"), []) ∧
    stripAnsi text = c!"(dune) /home$ " :=
  C79_prompt (L := Demo.lib) (n := 0) (w := ([] : List IOp)) demo_std (startup_eq _ _)
    (by rw [Env.get_define, if_neg (by decide)]) (by decide) 0

end

/-! ### Instances: the hypotheses can be met -/

example := C79_incomplete (w' := []) (env' := started Demo.env) demo_std (main_starts (some c!"let x = 2") true) rfl
  (lines := [c!"let x ="]) (by simp) (by decide) 2

example := C79_aligned (w' := []) (env' := started Demo.env) demo_std (main_starts (some c!"let x = 2") true) rfl rfl
  (by decide) (by decide) [c!"let x ="] 2

end Dune.Props
