import Verif.Props.Remote

/-! `~` of the default prelude. -/

namespace Dune.Props

open Spec Calc Prelude Repl

/-! ### Specification -/

/-- The system is asked once for the full path of `p`, nothing else is done, and the outcome is its answer, or a
failure if it has none. -/
def Canonical {W : Type} (H : Host W) (p : Str) (w : W) (o : Outcome Expr) (w' : W) : Prop :=
  ∃ r, H.io (.canonicalize p) w = (r, w') ∧
    ((∃ q, r = .str q ∧ o = .ok (.str q)) ∨ ((∀ q, r ≠ .str q) ∧ ∃ m, o = .err (.customError m)))

/-! ### Proofs -/

section

variable {W : Type} {H : Host W} {P : Plat} {L : Lib}

theorem acts_canon {env : Env} {p : Str} {tbl : List (Str × Expr)}
    (h1 : env.get c!"|" = some (.builtin c!"|" .pipe [])) (h2 : env.get c!"+" = some (.builtin c!"+" .add []))
    (h3 : env.get c!"@" = some (.builtin c!"@" .index [])) (h4 : env.get c!"fs" = some (.map tbl))
    (h5 : BMap.get? tbl c!"canon" = some (.builtin c!"canon" .fsCanon [])) {d : Nat} (hd : d ≤ 790)
    (hp : Yields H P L d env tildePath (.str ('/' :: p))) :
    Acts H P L (d + 9) env tildeBody fun w =>
      ((match (H.io (.canonicalize ('/' :: p)) w).1 with
        | .str s => .ok (.str s)
        | _ => .err (.customError (c!"could not canonicalize path " ++ '/' :: p))),
        (H.io (.canonicalize ('/' :: p)) w).2) := by
  intro n k w hn hk
  obtain ⟨k, rfl⟩ : ∃ j, k = j + 3 := ⟨k - 3, by omega⟩
  obtain ⟨n, rfl⟩ : ∃ j, n = j + 3 := ⟨n - 3, by omega⟩
  refine ⟨env, ?_⟩
  have hA : evalN P H (stdB P L) (n + 3) tildePath env w = (.ok (.str ('/' :: p)), env, w) :=
    hp.evalN (by omega) (by omega) w
  have hm : Yields H P L 3 env (.apply (.symbol c!"@") [.symbol c!"fs", .symbol c!"canon"])
      (.builtin c!"canon" .fsCanon []) := yields_member h3 (yields_symbol h4) (by decide) h5
  have hB : evalN P H (stdB P L) (n + 3) (.apply (.apply (.symbol c!"@") [.symbol c!"fs", .symbol c!"canon"])
      [.str ('/' :: p)]) env w =
      (stdB P L .fsCanon [.str ('/' :: p)]).run H (evalN P H (stdB P L) (n + 2)) env w := by
    rw [evalN_unfold]
    simp only [evalStep]
    rw [M.bind_ok (hm (n + 2) 800 w (by omega) (by omega))]
    rfl
  have hj : ∀ c : Str, pathJoin c ('/' :: p) = '/' :: p := fun c => rfl
  rw [tildeBody, evalD]
  simp only [evalStep]
  rw [evalD]
  simp only [evalStep]
  rw [M.bind_ok (evalD_symbol h1)]
  simp only [applyValue, bodyRun]
  have hcA : Builtins.exprToCommand P tildePath = Builtins.exprToCommand.named P c!"+"
      [plus (.symbol c!"HOME") (.str c!"/"), strOf c!"x"] := rfl
  brun [Builtins.pipeB, Builtins.pipeLoop, hcA, Builtins.exprToCommand, Builtins.exprToCommand.named, h2, h3, hA, hB,
    Builtins.canonB, Builtins.pathArg, hj, display_str]
  generalize H.io (.canonicalize ('/' :: p)) w = q
  rcases q with ⟨q, w2⟩
  cases q <;> rfl

theorem canonical_action {p : Str} (w : W) : Canonical H p w
    (match (H.io (.canonicalize p) w).1 with
      | .str s => .ok (.str s)
      | _ => .err (.customError (c!"could not canonicalize path " ++ p)))
    (H.io (.canonicalize p) w).2 := by
  refine ⟨_, rfl, ?_⟩
  generalize (H.io (.canonicalize p) w).1 = r
  cases r with
  | str s => exact .inl ⟨s, rfl, rfl⟩
  | _ => exact .inr ⟨by simp, _, rfl⟩

variable {n m : Nat} {w w' : W} {env env' env2 : Env} {h : Str}

theorem tilde_define (hk : Kept [c!"str", c!"+", c!"|", c!"@", c!"fs"] env) (hh : env.get c!"HOME" = some (.str ('/' :: h))) :
    ∃ v, Run H P L 3 env (.do_ [.assign c!"~" (curried [c!"x"] tildeBody)]) .none (env.define c!"~" v) ∧
      IsAct H P L 30 [] 1 (fun as _ A => ∃ a, as = [a] ∧
        ∀ w, Canonical H ('/' :: h ++ c!"/" ++ display P a) w (A w).1 (A w).2) v := by
  obtain ⟨env0, hs, hk0⟩ := id hk
  obtain ⟨tbl, ht, ht'⟩ := hs.mod (c!"fs", Init.fsM) (by mem_tac)
  have h5 := ht' (c!"canon", .builtin c!"canon" .fsCanon []) (by mem_tac)
  have hf : env.get c!"fs" = some (.map tbl) := (hk0 _ (by simp)).trans ht
  refine run_define_act (K := [(c!"str", .builtin c!"str" .str []), (c!"+", .builtin c!"+" .add []),
    (c!"|", .builtin c!"|" .pipe []), (c!"@", .builtin c!"@" .index []), (c!"fs", .map tbl),
    (c!"HOME", .str ('/' :: h))]) (by decide) (by decide) (by decide) ?_ ?_ (by decide) (by simp [Unbound]) ?_
  · intro q hq
    simp only [List.mem_cons, List.not_mem_nil, or_false] at hq
    rcases hq with rfl | rfl | rfl | rfl | rfl | rfl
    · exact ⟨(by decide : Mentions tildeBody c!"str"), (by decide : c!"str" ∉ _), (by decide : c!"str" ≠ _)⟩
    · exact ⟨(by decide : Mentions tildeBody c!"+"), (by decide : c!"+" ∉ _), (by decide : c!"+" ≠ _)⟩
    · exact ⟨(by decide : Mentions tildeBody c!"|"), (by decide : c!"|" ∉ _), (by decide : c!"|" ≠ _)⟩
    · exact ⟨(by decide : Mentions tildeBody c!"@"), (by decide : c!"@" ∉ _), (by decide : c!"@" ≠ _)⟩
    · exact ⟨(by decide : Mentions tildeBody c!"fs"), (by decide : c!"fs" ∉ _), (by decide : c!"fs" ≠ _)⟩
    · exact ⟨(by decide : Mentions tildeBody c!"HOME"), (by decide : c!"HOME" ∉ _), (by decide : c!"HOME" ≠ _)⟩
  · intro q hq
    simp only [List.mem_cons, List.not_mem_nil, or_false] at hq
    rcases hq with rfl | rfl | rfl | rfl | rfl | rfl
    · exact hk.top (by simp) (by mem_tac)
    · exact hk.op (by simp) (by mem_tac)
    · exact hk.op (by simp) (by mem_tac)
    · exact hk.op (by simp) (by mem_tac)
    · exact hf
    · exact hh
  · intro env as hl hs _
    obtain ⟨a, rfl⟩ : ∃ a, as = [a] := by
      match as, hl with
      | [a], _ => exact ⟨a, rfl⟩
    have h1 := hs (c!"str", .builtin c!"str" .str []) (by simp)
    have h2 := hs (c!"+", .builtin c!"+" .add []) (by simp)
    have h3 := hs (c!"|", .builtin c!"|" .pipe []) (by simp)
    have h4 := hs (c!"@", .builtin c!"@" .index []) (by simp)
    have h6 := hs (c!"fs", .map tbl) (by simp)
    have h7 := hs (c!"HOME", .str ('/' :: h)) (by simp)
    have h8 := hs (c!"x", a) (by simp)
    have hd := yields_concat (H := H) (P := P) (L := L) h2 (yields_concat h2 (yields_symbol h7) (yields_str c!"/")
      (by decide)) (yields_strOf h1 h8) (by decide)
    refine ⟨_, ⟨a, rfl, fun w => canonical_action w⟩, (acts_canon h3 h2 h4 h6 h5 (d := 9) (by decide)
      (hd.mono (by decide))).mono (by decide)⟩

/-- C114.  Entering the definition of `~` changes only this name. -/
theorem C114_defines (hk : Kept [c!"str", c!"+", c!"|", c!"@", c!"fs"] env)
    (hh : env.get c!"HOME" = some (.str ('/' :: h))) (hn : 4 ≤ n) :
    ∃ env', Entered H P L n w [tildeText] env env' ∧ ∀ s, s ≠ c!"~" → env'.get s = env.get s := by
  obtain ⟨v, hr, -⟩ := tilde_define (H := H) (P := P) (L := L) hk hh
  exact ⟨_, enter_text (tilde_parse P) hr hn (.nil _), fun s hs => by rw [Env.get_define, if_neg (Ne.symm hs)]⟩

/-- C114.  `~ x` is the full path of x in the home directory, whatever the current directory is, and also after `HOME`
or one of the functions has got another meaning; nothing is done but to ask the system for it. -/
theorem C114_home (hk : Kept [c!"str", c!"+", c!"|", c!"@", c!"fs"] env)
    (hh : env.get c!"HOME" = some (.str ('/' :: h))) (hn : 4 ≤ n)
    (he : Entered H P L n w [tildeText] env env') (h2 : env2.get c!"~" = env'.get c!"~") (hm : 33 ≤ m) {x a : Expr}
    (hx : Gives H P L env2 x a) :
    ∃ o w1, evalN P H (stdB P L) m (.apply (.symbol c!"~") [x]) env2 w' = (o, env2, w1) ∧
      Canonical H ('/' :: h ++ c!"/" ++ display P a) w' o w1 := by
  obtain ⟨v, hr, hv⟩ := tilde_define (H := H) (P := P) (L := L) hk hh
  cases he.unique (enter_text (tilde_parse P) hr hn (.nil _))
  rw [Env.get_define, if_pos rfl] at h2
  obtain ⟨A, ⟨a', hab, hA⟩, hc⟩ := acts_call [x] [a] (.cons (gives_yields hx) .nil)
    (U := []) (by simp [Unbound]) _ _ _ (yields_symbol h2) hv
  cases hab
  obtain ⟨m, rfl⟩ : ∃ j, m = j + 1 := ⟨m - 1, by omega⟩
  exact ⟨_, _, hc m 801 w' (by simp; omega) (by simp), hA w'⟩

end

/-! ### Instances -/

/-- `~ "docs"` after `cd "/tmp"` and `let HOME = "/root"` -/
example : ∃ env', Entered Demo.host Demo.plat Demo.lib 9 [] [tildeText] (Demo.env.define c!"HOME" (.str c!"/home/me")) env' ∧
    ∃ o w1, evalN Demo.plat Demo.host (stdB Demo.plat Demo.lib) 33 (.apply (.symbol c!"~") [.str c!"docs"])
        ((env'.define c!"CWD" (.str c!"/tmp")).define c!"HOME" (.str c!"/root")) [] =
      (o, (env'.define c!"CWD" (.str c!"/tmp")).define c!"HOME" (.str c!"/root"), w1) ∧
      Canonical Demo.host c!"/home/me/docs" [] o w1 := by
  have hk := (kept_of_std demo_std [c!"str", c!"+", c!"|", c!"@", c!"fs"]).define (x := c!"HOME")
    (v := .str c!"/home/me") (by simp)
  obtain ⟨env', h, -⟩ := C114_defines (H := Demo.host) (P := Demo.plat) (L := Demo.lib) (n := 9) (w := []) hk
    (by rw [Env.get_define, if_pos rfl]) (by decide)
  refine ⟨env', h, ?_⟩
  exact C114_home (x := .str c!"docs") (a := .str c!"docs") (m := 33)
    (env2 := (env'.define c!"CWD" (.str c!"/tmp")).define c!"HOME" (.str c!"/root")) hk
    (by rw [Env.get_define, if_pos rfl]) (by decide) h
    ((Env.get_define ..).trans ((if_neg (by decide)).trans ((Env.get_define ..).trans (if_neg (by decide)))))
    (by decide) (fun m k w => by rw [evalD]; rfl)

end Dune.Props
