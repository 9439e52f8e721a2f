import Verif.Proof.Actions
import Verif.Props.Commands

/-! `ssh` and `scp` of the default prelude. -/

namespace Dune.Props

open Spec Calc Prelude Repl

/-! ### Specification -/

/-- The program is started once, in this directory and with exactly these arguments, nothing else is done, and
the outcome tells whether it could be started. -/
def Ran {W : Type} (H : Host W) (name dir : Str) (args : List Str) (w : W) (o : Outcome Expr) (w' : W) : Prop :=
  ∃ vars r, H.io (.status name dir args vars) w = (r, w') ∧
    match r with
    | .err .notFound => o = .err (.programNotFound name)
    | .err .permissionDenied => ∃ e, o = .err (.permissionDenied e)
    | .err (.other _) => ∃ as, o = .err (.commandFailed name as)
    | _ => o = .ok .none

/-! ### Proofs -/

section

variable {W : Type} {H : Host W} {P : Plat} {L : Lib}

theorem yields_unbound {env : Env} {x : Str} (h : env.get x = none) : Yields H P L 1 env (.symbol x) (.symbol x) := by
  intro n k w _ hk
  obtain ⟨k, rfl, -⟩ := pos_succ hk
  rw [evalD]
  simp only [evalStep, M.getEnv_bind, h, M.pure_apply]

theorem ran_command {name dir : Str} {self_ : Expr} {raw : List Expr} {args : List Str} {vars : BMap Str} (w : W) :
    Ran H name dir args w (commandOutcome name self_ raw (H.io (.status name dir args vars) w).1)
      (H.io (.status name dir args vars) w).2 := by
  refine ⟨vars, _, rfl, ?_⟩
  generalize (H.io (.status name dir args vars) w).1 = r
  cases r with
  | err e =>
    cases e with
    | notFound => rfl
    | permissionDenied => exact ⟨_, rfl⟩
    | other => exact ⟨_, rfl⟩
  | _ => rfl

theorem yields_strOf {env : Env} {x : Str} {v : Expr} (hs : env.get c!"str" = some (.builtin c!"str" .str []))
    (hx : env.get x = some v) : Yields H P L 6 env (strOf x) (.str (display P v)) :=
  Run.mono (yields_show hs (yields_symbol hx) (by decide)).group (by decide)

variable {n m : Nat} {w w' : W} {env env' env2 : Env}

/-- What is captured by both commands. -/
def remoteNames : List (Str × Expr) := [(c!"str", .builtin c!"str" .str []), (c!"+", .builtin c!"+" .add [])]

theorem remote_sees (h : Kept [c!"str", c!"+"] env) : Sees env remoteNames := by
  intro q hq
  simp only [remoteNames, List.mem_cons, List.not_mem_nil, or_false] at hq
  rcases hq with rfl | rfl
  · exact h.top (by simp) (by mem_tac)
  · exact h.op (by simp) (by mem_tac)

theorem ssh_define (h : Kept [c!"str", c!"+"] env) (hu : env.get c!"-X" = none) :
    ∃ v, Run H P L 3 env (.do_ [.assign c!"ssh" (curried [c!"addr", c!"user"] sshBody)]) .none (env.define c!"ssh" v) ∧
      IsAct H P L 30 [c!"-X"] 2 (fun as cwd A => ∃ a b, as = [a, b] ∧
        ∀ w, Ran H c!"ssh" cwd [c!"-X", display P b ++ c!"@" ++ display P a] w (A w).1 (A w).2) v := by
  refine run_define_act (K := remoteNames) (by decide) (by decide) (by decide) ?_ (remote_sees h) (by decide)
    (by simpa [Unbound] using hu) ?_
  · intro q hq
    simp only [remoteNames, List.mem_cons, List.not_mem_nil, or_false] at hq
    rcases hq with rfl | rfl
    · exact ⟨(by decide : Mentions sshBody c!"str"), (by decide : c!"str" ∉ _), (by decide : c!"str" ≠ _)⟩
    · exact ⟨(by decide : Mentions sshBody c!"+"), (by decide : c!"+" ∉ _), (by decide : c!"+" ≠ _)⟩
  · intro env as hl hs hU
    obtain ⟨a, b, rfl⟩ : ∃ a b, as = [a, b] := by
      match as, hl with
      | [a, b], _ => exact ⟨a, b, rfl⟩
    have h1 := hs (c!"str", .builtin c!"str" .str []) (by simp [remoteNames])
    have h2 := hs (c!"+", .builtin c!"+" .add []) (by simp [remoteNames])
    have h3 := hs (c!"addr", a) (by simp)
    have h4 := hs (c!"user", b) (by simp)
    have hX := yields_unbound (H := H) (P := P) (L := L) (hU c!"-X" (by simp))
    have hd := yields_concat (H := H) (P := P) (L := L) h2 (yields_concat h2 (yields_strOf h1 h4) (yields_str c!"@") (by decide))
      (yields_strOf h1 h3) (by decide)
    refine ⟨_, ⟨a, b, rfl, fun w => ?_⟩, ((acts_program (name := c!"ssh") (.cons (hX.mono (by decide)) (.cons
      (hd.mono (by decide)) .nil))).block (d := 27)).mono (by decide)⟩
    exact ran_command w

theorem scp_define (h : Kept [c!"str", c!"+"] env) (hu : env.get c!"-r" = none) :
    ∃ v, Run H P L 3 env (.do_ [.assign c!"scp" (curried [c!"addr", c!"user", c!"src", c!"dst"] scpBody)]) .none
        (env.define c!"scp" v) ∧
      IsAct H P L 40 [c!"-r"] 4 (fun as cwd A => ∃ a b s t, as = [a, b, s, t] ∧
        ∀ w, Ran H c!"scp" cwd (argStrings P [.symbol c!"-r", s, .str (display P b ++ c!"@" ++ display P a ++ c!":" ++
          display P t)]) w (A w).1 (A w).2) v := by
  refine run_define_act (K := remoteNames) (by decide) (by decide) (by decide) ?_ (remote_sees h) (by decide)
    (by simpa [Unbound] using hu) ?_
  · intro q hq
    simp only [remoteNames, List.mem_cons, List.not_mem_nil, or_false] at hq
    rcases hq with rfl | rfl
    · exact ⟨(by decide : Mentions scpBody c!"str"), (by decide : c!"str" ∉ _), (by decide : c!"str" ≠ _)⟩
    · exact ⟨(by decide : Mentions scpBody c!"+"), (by decide : c!"+" ∉ _), (by decide : c!"+" ≠ _)⟩
  · intro env as hl hs hU
    obtain ⟨a, b, c, d, rfl⟩ : ∃ a b c d, as = [a, b, c, d] := by
      match as, hl with
      | [a, b, c, d], _ => exact ⟨a, b, c, d, rfl⟩
    have h1 := hs (c!"str", .builtin c!"str" .str []) (by simp [remoteNames])
    have h2 := hs (c!"+", .builtin c!"+" .add []) (by simp [remoteNames])
    have h3 := hs (c!"addr", a) (by simp)
    have h4 := hs (c!"user", b) (by simp)
    have h5 := hs (c!"src", c) (by simp)
    have h6 := hs (c!"dst", d) (by simp)
    have hX := yields_unbound (H := H) (P := P) (L := L) (hU c!"-r" (by simp))
    have hd := yields_concat (H := H) (P := P) (L := L) h2 (yields_concat h2 (yields_concat h2 (yields_concat h2 (yields_strOf h1 h4)
      (yields_str c!"@") (by decide)) (yields_strOf h1 h3) (by decide)) (yields_str c!":") (by decide))
      (yields_strOf h1 h6) (by decide)
    refine ⟨_, ⟨a, b, c, d, rfl, fun w => ?_⟩, ((acts_program (name := c!"scp") (.cons (hX.mono (by decide)) (.cons
      ((yields_symbol h5).mono (by decide)) (.cons (hd.mono (by decide)) .nil)))).block (d := 37)).mono (by decide)⟩
    exact ran_command w

/-- C112.  Entering the definition of `ssh` or `scp` changes only this name. -/
theorem C112_defines {f t o : Str} (ht : t = sshText ∧ f = c!"ssh" ∧ o = c!"-X" ∨ t = scpText ∧ f = c!"scp" ∧ o = c!"-r")
    (hn : 4 ≤ n) (h : Kept [c!"str", c!"+"] env) (hu : env.get o = none) :
    ∃ env', Entered H P L n w [t] env env' ∧ ∀ s, s ≠ f → env'.get s = env.get s := by
  rcases ht with ⟨rfl, rfl, rfl⟩ | ⟨rfl, rfl, rfl⟩
  · obtain ⟨v, hr, -⟩ := ssh_define (H := H) (P := P) (L := L) h hu
    exact ⟨_, enter_text (ssh_parse P) hr hn (.nil _), fun s hs => by rw [Env.get_define, if_neg (Ne.symm hs)]⟩
  · obtain ⟨v, hr, -⟩ := scp_define (H := H) (P := P) (L := L) h hu
    exact ⟨_, enter_text (scp_parse P) hr hn (.nil _), fun s hs => by rw [Env.get_define, if_neg (Ne.symm hs)]⟩

/-- C112.  `ssh host user` starts the program ssh once, in the current directory, with exactly the arguments `-X` and
`user@host`, whatever characters these texts have, also after `str` or `+` has got another meaning; no variable of the
caller changes. -/
theorem C112_ssh (h : Kept [c!"str", c!"+"] env) (hu : env.get c!"-X" = none) (hn : 4 ≤ n)
    (he : Entered H P L n w [sshText] env env') (h2 : env2.get c!"ssh" = env'.get c!"ssh")
    (hu2 : env2.get c!"-X" = none) (hm : 33 ≤ m) {x y a b : Expr} (hx : Gives H P L env2 x a)
    (hy : Gives H P L env2 y b) {d : Str} (hd : Directory env2 d) :
    ∃ o w1, evalN P H (stdB P L) m (.apply (.symbol c!"ssh") [x, y]) env2 w' = (o, env2, w1) ∧
      Ran H c!"ssh" d [c!"-X", display P b ++ c!"@" ++ display P a] w' o w1 := by
  obtain ⟨v, hr, hv⟩ := ssh_define (H := H) (P := P) (L := L) h hu
  cases he.unique (enter_text (ssh_parse P) hr hn (.nil _))
  rw [Env.get_define, if_pos rfl] at h2
  obtain ⟨A, ⟨a', b', hab, hA⟩, hc⟩ := acts_call [x, y] [a, b] (.cons (gives_yields hx) (.cons (gives_yields hy) .nil))
    (U := [c!"-X"]) (by simpa [Unbound] using hu2) _ _ _ (yields_symbol h2) hv
  cases hab
  rw [directory_iff.mp hd] at hA
  obtain ⟨m, rfl⟩ : ∃ j, m = j + 1 := ⟨m - 1, by omega⟩
  exact ⟨_, _, hc m 801 w' (by simp; omega) (by simp), hA w'⟩

/-- C112.  `scp host user src dst` starts the program scp once, in the current directory, with the arguments `-r`, then
the source (each element of a list as one argument, nothing for None), then `user@host:dst` as one argument. -/
theorem C112_scp (h : Kept [c!"str", c!"+"] env) (hu : env.get c!"-r" = none) (hn : 4 ≤ n)
    (he : Entered H P L n w [scpText] env env') (h2 : env2.get c!"scp" = env'.get c!"scp")
    (hu2 : env2.get c!"-r" = none) (hm : 45 ≤ m) {x y z u a b s t : Expr} (hx : Gives H P L env2 x a)
    (hy : Gives H P L env2 y b) (hz : Gives H P L env2 z s) (ht : Gives H P L env2 u t) {d : Str}
    (hd : Directory env2 d) {ls : List Expr} (hl : Leaves s ls) :
    ∃ o w1, evalN P H (stdB P L) m (.apply (.symbol c!"scp") [x, y, z, u]) env2 w' = (o, env2, w1) ∧
      Ran H c!"scp" d (c!"-r" :: ls.flatMap (leafString P) ++
        [display P b ++ c!"@" ++ display P a ++ c!":" ++ display P t]) w' o w1 := by
  obtain ⟨v, hr, hv⟩ := scp_define (H := H) (P := P) (L := L) h hu
  cases he.unique (enter_text (scp_parse P) hr hn (.nil _))
  rw [Env.get_define, if_pos rfl] at h2
  obtain ⟨A, ⟨a', b', s', t', hab, hA⟩, hc⟩ := acts_call [x, y, z, u] [a, b, s, t]
    (.cons (gives_yields hx) (.cons (gives_yields hy) (.cons (gives_yields hz) (.cons (gives_yields ht) .nil))))
    (U := [c!"-r"]) (by simpa [Unbound] using hu2) _ _ _ (yields_symbol h2) hv
  cases hab
  rw [directory_iff.mp hd] at hA
  obtain ⟨m, rfl⟩ : ∃ j, m = j + 1 := ⟨m - 1, by omega⟩
  refine ⟨_, _, hc m 801 w' (by simp; omega) (by simp), ?_⟩
  have := hA w'
  rw [C30_argument_order, C30_argument_order s] at this
  obtain ⟨ls', hl', hs⟩ := C30_argument_strings (P := P) s
  rw [hs, (leaves_flatten hl').symm.trans (leaves_flatten hl)] at this
  exact this

/-- C112.  Contrary to what a user expects, a user name that begins with `-` does not name a user: the program gets an
argument that begins with `-`, and no `--` before it, so it takes it as an option (such as `-oProxyCommand=…`). -/
theorem C112_option_refuted (h : Kept [c!"str", c!"+"] env) (hu : env.get c!"-X" = none) (hn : 4 ≤ n)
    (he : Entered H P L n w [sshText] env env') (h2 : env2.get c!"ssh" = env'.get c!"ssh")
    (hu2 : env2.get c!"-X" = none) (hm : 33 ≤ m) {s t : Str} {d : Str} (hd : Directory env2 d) :
    ∃ o w1 opt, evalN P H (stdB P L) m (.apply (.symbol c!"ssh") [.str s, .str ('-' :: t)]) env2 w' = (o, env2, w1) ∧
      Ran H c!"ssh" d [c!"-X", opt] w' o w1 ∧ opt.head? = some '-' := by
  obtain ⟨o, w1, h1, hR⟩ := C112_ssh (P := P) (L := L) (w' := w') (x := .str s) (a := .str s) (y := .str ('-' :: t))
    (b := .str ('-' :: t)) h hu hn he h2 hu2 hm (fun m k w => by rw [evalD]; rfl) (fun m k w => by rw [evalD]; rfl) hd
  exact ⟨o, w1, _, h1, hR, rfl⟩

end

/-! ### Instances -/

/-- `ssh "box" "me"` -/
example : ∃ env', Entered Demo.host Demo.plat Demo.lib 9 [] [sshText] Demo.env env' ∧ ∃ o w1,
    evalN Demo.plat Demo.host (stdB Demo.plat Demo.lib) 33 (.apply (.symbol c!"ssh") [.str c!"box", .str c!"me"]) env' [] =
      (o, env', w1) ∧ Ran Demo.host c!"ssh" env'.getCwd [c!"-X", c!"me@box"] [] o w1 := by
  obtain ⟨env', h, h'⟩ := C112_defines (H := Demo.host) (P := Demo.plat) (L := Demo.lib) (n := 9) (w := []) (env := Demo.env)
    (.inl ⟨rfl, rfl, rfl⟩) (by decide) (kept_of_std demo_std _) (by decide +kernel)
  refine ⟨env', h, ?_⟩
  exact C112_ssh (a := .str c!"box") (b := .str c!"me") (kept_of_std demo_std _) (by decide +kernel) (by decide) h rfl
    ((h' _ (by decide)).trans (by decide +kernel)) (by decide) (fun m k w => by rw [evalD]; rfl)
    (fun m k w => by rw [evalD]; rfl) (directory_iff.mpr rfl)

/-- `scp "box" "me" ["a b" "c"] "~/in"` -/
example : ∃ env', Entered Demo.host Demo.plat Demo.lib 9 [] [scpText] Demo.env env' ∧ ∃ o w1,
    evalN Demo.plat Demo.host (stdB Demo.plat Demo.lib) 45 (.apply (.symbol c!"scp")
      [.str c!"box", .str c!"me", .quote (.list [.str c!"a b", .str c!"c"]), .str c!"~/in"]) env' [] =
      (o, env', w1) ∧ Ran Demo.host c!"scp" env'.getCwd [c!"-r", c!"a b", c!"c", c!"me@box:~/in"] [] o w1 := by
  obtain ⟨env', h, h'⟩ := C112_defines (H := Demo.host) (P := Demo.plat) (L := Demo.lib) (n := 9) (w := []) (env := Demo.env)
    (.inr ⟨rfl, rfl, rfl⟩) (by decide) (kept_of_std demo_std _) (by decide +kernel)
  refine ⟨env', h, ?_⟩
  exact C112_scp (a := .str c!"box") (b := .str c!"me") (s := .list [.str c!"a b", .str c!"c"]) (t := .str c!"~/in")
    (kept_of_std demo_std _) (by decide +kernel) (by decide) h rfl
    ((h' _ (by decide)).trans (by decide +kernel)) (by decide) (fun m k w => by rw [evalD]; rfl)
    (fun m k w => by rw [evalD]; rfl) (fun m k w => by rw [evalD]; rfl) (fun m k w => by rw [evalD]; rfl)
    (directory_iff.mpr rfl) (.cons (.atom (by simp) (by simp)) (.cons (.atom (by simp) (by simp)) .nil))

/-- `ssh "box" "-oProxyCommand=id"` -/
example : ∃ env', Entered Demo.host Demo.plat Demo.lib 9 [] [sshText] Demo.env env' ∧ ∃ o w1 opt,
    evalN Demo.plat Demo.host (stdB Demo.plat Demo.lib) 33
      (.apply (.symbol c!"ssh") [.str c!"box", .str c!"-oProxyCommand=id"]) env' [] = (o, env', w1) ∧
      Ran Demo.host c!"ssh" env'.getCwd [c!"-X", opt] [] o w1 ∧ opt.head? = some '-' := by
  obtain ⟨env', h, h'⟩ := C112_defines (H := Demo.host) (P := Demo.plat) (L := Demo.lib) (n := 9) (w := []) (env := Demo.env)
    (.inl ⟨rfl, rfl, rfl⟩) (by decide) (kept_of_std demo_std _) (by decide +kernel)
  exact ⟨env', h, C112_option_refuted (kept_of_std demo_std _) (by decide +kernel) (by decide) h rfl
    ((h' _ (by decide)).trans (by decide +kernel)) (by decide) (directory_iff.mpr rfl)⟩

end Dune.Props
