import Verif.Model.Aliases
import Verif.Props.Secrets

/-! The commands that the default prelude defines according to the system. -/

namespace Dune.Props

open Spec Calc Prelude Repl

/-! ### Specification -/

/-- The commands on Windows, and the functions of the module `fs` that they are. -/
def windowsCommands : List (Str × Str) :=
  [(c!"rm", c!"rm"), (c!"cp", c!"cp"), (c!"mv", c!"mv"), (c!"mkdir", c!"mkdir"), (c!"rmdir", c!"rmdir"), (c!"cat", c!"read")]

/-! ### Proofs -/

/-- `if (fs@exists? HOME + "…") { let f = 'g; }` -/
def aliasIf (f path g : Str) : Expr :=
  .ite (.group (call c!"fs" c!"exists?" [infix_ c!"+" (.symbol c!"HOME") (.str path)]))
    (.do_ [.assign f (.quote (.symbol g))]) .none

/-- `let f = fs@g` -/
def aliasFs (f g : Str) : Expr := .assign f (.apply (.symbol c!"@") [.symbol c!"fs", .symbol g])

/-- `ls` on Windows -/
def lsMacro : Expr := .macro_ c!"dir" (.group (.apply (.symbol c!"|") [call c!"fs" c!"ls" [.symbol c!"dir"],
  .apply (.symbol c!"join") [.str c!"\n"], .symbol c!"echo"]))

theorem alias_parse (P : Plat) : parseText P aliasText = .ok (.do_ [.ite
    (infix_ c!"==" (.apply (.symbol c!"@") [.symbol c!"os", .symbol c!"name"]) (.str c!"windows"))
    (.do_ (.assign c!"ls" lsMacro :: windowsCommands.map fun p => aliasFs p.1 p.2))
    (.group (.do_ [aliasIf c!"cat" c!"/.cargo/bin/bat" c!"bat", aliasIf c!"ls" c!"/.cargo/bin/lsd" c!"lsd"]))]) := by
  kernel_rfl

variable {W : Type} {H : Host W} {P : Plat} {L : Lib} {d n m k : Nat} {env env' env2 : Env} {w w' w1 w2 : W}

theorem yields_isName {t : BMap Expr} {nm : Str} (he : env.get c!"==" = some (.builtin c!"==" .eq []))
    (ha : env.get c!"@" = some (.builtin c!"@" .index [])) (ho : env.get c!"os" = some (.map t))
    (hn : BMap.get? t c!"name" = some (.str nm)) (s : Str) :
    Yields H P L 6 env (infix_ c!"==" (.apply (.symbol c!"@") [.symbol c!"os", .symbol c!"name"]) (.str s))
      (.bool (decide (nm = s))) := by
  have h := yields_member (H := H) (P := P) (L := L) ha (yields_symbol ho) (by decide) hn
  refine Run.group (yields_builtin2 he h ((yields_str s).mono (by decide : 1 ≤ 3)) ?_ ?_ (by decide))
  · exact (yields_str nm).mono (by decide)
  intro ev0 h1 h2 h3 w
  simp only [stdB, Builtins.cmpB, Builtins.evArg, Builtins.arg, List.getElem?_cons_succ,
        List.getElem?_cons_zero, BProg.run_bind, BProg.run_ret, pure_bind, BProg.run_ev]
  rw [M.bind_ok (h1 w), M.bind_ok (h2 w)]
  simp [Expr.beq]

theorem run_aliases {tbl : BMap Expr} : ∀ {l : List (Str × Str)} {env : Env}, l ≠ [] → (l.map Prod.fst).Nodup →
    (∀ p ∈ l, p.1 ≠ c!"@" ∧ p.1 ≠ c!"fs") → (∀ p ∈ l, ∃ v, BMap.get? tbl p.2 = some v) →
    env.get c!"@" = some (.builtin c!"@" .index []) → env.get c!"fs" = some (.map tbl) →
    ∃ env', RunDo H P L 4 env (l.map fun p => aliasFs p.1 p.2) .none env' ∧
      (∀ p ∈ l, env'.get p.1 = BMap.get? tbl p.2) ∧ ∀ s, s ∉ l.map Prod.fst → env'.get s = env.get s
  | [], _, h, _, _, _, _, _ => absurd rfl h
  | p :: l, env, _, hd, hl, hv, ha, hf => by
    obtain ⟨v, hp⟩ := hv p (List.mem_cons_self ..)
    have h1 := (yields_member (H := H) (P := P) (L := L) ha (yields_symbol hf) (by decide) hp).assign (x := p.1)
    have hpa := hl p (List.mem_cons_self ..)
    cases l with
    | nil =>
      refine ⟨_, h1.last, fun q hq => ?_, fun s hs => ?_⟩
      · simp only [List.mem_singleton] at hq
        subst hq
        rw [Env.get_define, if_pos rfl, hp]
      · simp only [List.map_cons, List.map_nil, List.mem_singleton] at hs
        rw [Env.get_define, if_neg (Ne.symm hs)]
    | cons q l =>
      simp only [List.map_cons, List.nodup_cons] at hd
      obtain ⟨env', r, g1, g2⟩ := run_aliases (l := q :: l) (env := env.define p.1 v) (by simp)
        (by simpa [List.nodup_cons] using hd.2) (fun x hx => hl x (List.mem_cons_of_mem _ hx))
        (fun x hx => hv x (List.mem_cons_of_mem _ hx)) (by rw [Env.get_define, if_neg hpa.1, ha])
        (by rw [Env.get_define, if_neg hpa.2, hf])
      refine ⟨env', (h1.then_ r).mono (by decide), fun x hx => ?_, fun s hs => ?_⟩
      · rcases List.mem_cons.1 hx with rfl | hx
        · rw [g2 _ (by simpa using hd.1), Env.get_define, if_pos rfl, hp]
        · exact g1 x hx
      · simp only [List.map_cons, List.mem_cons, not_or] at hs
        rw [g2 s (by simp [hs]), Env.get_define, if_neg (Ne.symm hs.1)]

/-- C123.  On Windows, `rm`, `cp`, `mv`, `mkdir`, `rmdir` and `cat` become functions of the module `fs`; `ls` is
redefined too, and no other name. -/
theorem C123_windows {t : BMap Expr} (hk : Kept [c!"==", c!"@", c!"fs"] env) (ho : env.get c!"os" = some (.map t))
    (hs : BMap.get? t c!"name" = some (.str c!"windows")) (hn : 11 ≤ n) :
    ∃ env' tbl, Entered H P L n w [aliasText] env env' ∧ env.get c!"fs" = some (.map tbl) ∧
      (∀ p ∈ windowsCommands, ∃ v, BMap.get? tbl p.2 = some v ∧ env'.get p.1 = some v) ∧
      ∀ s, s ≠ c!"ls" → s ∉ windowsCommands.map Prod.fst → env'.get s = env.get s := by
  have he : env.get c!"==" = some (.builtin c!"==" .eq []) := hk.op (by simp) (by mem_tac)
  have ha : env.get c!"@" = some (.builtin c!"@" .index []) := hk.op (by simp) (by mem_tac)
  obtain ⟨env0, h0, hk0⟩ := hk
  obtain ⟨tbl, ht, ht'⟩ := h0.mod (c!"fs", Init.fsM) (by mem_tac)
  have hf : env.get c!"fs" = some (.map tbl) := (hk0 _ (by simp)).trans ht
  have hv : ∀ p ∈ windowsCommands, ∃ v, BMap.get? tbl p.2 = some v := by
    have : ∀ p ∈ windowsCommands, ∃ q ∈ Init.fsM, q.1 = p.2 := by decide +kernel
    intro p hp
    obtain ⟨q, hq, e⟩ := this p hp
    exact ⟨q.2, e ▸ ht' q hq⟩
  obtain ⟨env', r, g1, g2⟩ := run_aliases (H := H) (P := P) (L := L) (l := windowsCommands) (env := env.define c!"ls" lsMacro)
    (by decide) (by decide) (by decide) hv (by rw [Env.get_define, if_neg (by decide), ha])
    (by rw [Env.get_define, if_neg (by decide), hf])
  have h1 := (((yields_macro (H := H) (P := P) (L := L) (env := env) _ _).assign (x := c!"ls")).then_ r).block
  have h2 := (Run.iteB (e := .group (.do_ [aliasIf c!"cat" c!"/.cargo/bin/bat" c!"bat", aliasIf c!"ls" c!"/.cargo/bin/lsd" c!"lsd"]))
    (yields_isName (H := H) (P := P) (L := L) he ha ho hs c!"windows") (fun _ => h1) (fun h => absurd rfl h)).last.block
  refine ⟨env', tbl, enter_text (alias_parse P) (h2.mono (by decide)) (d := 10) (by omega) (.nil _), hf, fun p hp => ?_, fun s hs1 hs2 => ?_⟩
  · obtain ⟨v, hv⟩ := hv p hp
    exact ⟨v, hv, (g1 p hp).trans hv⟩
  · rw [g2 s hs2, Env.get_define, if_neg (Ne.symm hs1)]

/-- one of the two commands -/
theorem aliasIf_runs {f path g home : Str} {b : Bool} (hk : Kept [c!"+", c!"@", c!"fs"] env)
    (hh : env.get c!"HOME" = some (.str home))
    (hx : H.io (.exists_ (pathJoin env.getCwd (home ++ path))) w = (.bool b, w1)) (hm : 8 ≤ m) :
    evalD P H (bodyRun P H (stdB P L) m) (k + 5) (aliasIf f path g) env w =
      (.ok .none, if b then env.define f (.symbol g) else env, w1) := by
  obtain ⟨m, rfl⟩ : ∃ j, m = j + 8 := ⟨m - 8, by omega⟩
  have hp : env.get c!"+" = some (.builtin c!"+" .add []) := hk.op (by simp) (by mem_tac)
  have hd : display P (.str (home ++ path)) = home ++ path := rfl
  have hc := (yields_concat (H := H) (P := P) (L := L) hp (yields_symbol hh) (yields_str path) (by decide)).evalN
    (n := m + 8) (by simp) (by decide) w
  have he : evalD P H (bodyRun P H (stdB P L) (m + 8)) (k + 4)
      (.group (call c!"fs" c!"exists?" [infix_ c!"+" (.symbol c!"HOME") (.str path)])) env w = (.ok (.bool b), env, w1) := by
    rw [hk.libD (tbl := Init.fsM) (by simp) (by simp) (by mem_tac) (by mem_tac)]
    brun [Builtins.pathTestB, Builtins.pathArg, hc, hd, Builtins.askBool, hx]
  rw [aliasIf, evalD]
  simp only [evalStep]
  rw [M.bind_ok he]
  cases b
  · rw [if_neg (by simp [Expr.isTruthy]), evalD]
    rfl
  · rw [if_pos (by simp [Expr.isTruthy]), evalD]
    simp only [evalStep, evalDo]
    rw [evalD]
    simp only [evalStep]
    rw [evalD]
    rfl

/-- C123.  Elsewhere `cat` becomes the name `bat` if there is a file `.cargo/bin/bat` in the home directory, and `ls` the
name `lsd` if there is `.cargo/bin/lsd`; nothing else changes. -/
theorem C123_elsewhere {t : BMap Expr} {nm home : Str} {b1 b2 : Bool} (hk : Kept [c!"==", c!"+", c!"@", c!"fs"] env)
    (ho : env.get c!"os" = some (.map t)) (hs : BMap.get? t c!"name" = some (.str nm)) (hw : nm ≠ c!"windows")
    (hh : env.get c!"HOME" = some (.str home))
    (hx1 : H.io (.exists_ (pathJoin env.getCwd (home ++ c!"/.cargo/bin/bat"))) w = (.bool b1, w1))
    (hx2 : H.io (.exists_ (pathJoin env.getCwd (home ++ c!"/.cargo/bin/lsd"))) w1 = (.bool b2, w2)) (hn : 9 ≤ n) :
    ∃ env', runText P (evalN P H (stdB P L) n) aliasText env w = (.ok .none, env', w2) ∧
      env'.get c!"cat" = (if b1 then some (.symbol c!"bat") else env.get c!"cat") ∧
      env'.get c!"ls" = (if b2 then some (.symbol c!"lsd") else env.get c!"ls") ∧
      ∀ s, s ≠ c!"cat" → s ≠ c!"ls" → env'.get s = env.get s := by
  have he : env.get c!"==" = some (.builtin c!"==" .eq []) := hk.op (by simp) (by mem_tac)
  have ha : env.get c!"@" = some (.builtin c!"@" .index []) := hk.op (by simp) (by mem_tac)
  have hk' : Kept [c!"+", c!"@", c!"fs"] env := kept_sub hk (by simp)
  obtain ⟨n, rfl⟩ : ∃ j, n = j + 1 := ⟨n - 1, by omega⟩
  have h1 := aliasIf_runs (P := P) (L := L) (k := 792) (m := n) (f := c!"cat") (g := c!"bat") hk' hh hx1 (by omega)
  obtain ⟨env1, e1⟩ : ∃ e, e = if b1 then env.define c!"cat" (.symbol c!"bat") else env := ⟨_, rfl⟩
  have g1 : ∀ s, s ≠ c!"cat" → env1.get s = env.get s := fun s hs => by
    rw [e1]
    cases b1
    · rfl
    · rw [if_pos rfl, Env.get_define, if_neg (Ne.symm hs)]
  rw [← e1] at h1
  have hk1 : Kept [c!"+", c!"@", c!"fs"] env1 := by
    obtain ⟨env0, h0, hk0⟩ := hk'
    exact ⟨env0, h0, fun s hm => (g1 s (by rintro rfl; revert hm; decide)).trans (hk0 s hm)⟩
  have hc1 : env1.getCwd = env.getCwd := by rw [Env.getCwd, Env.getCwd, g1 _ (by decide)]
  have h2 := aliasIf_runs (P := P) (L := L) (k := 792) (m := n) (f := c!"ls") (g := c!"lsd") (env := env1)
    (home := home) (path := c!"/.cargo/bin/lsd") hk1 ((g1 _ (by decide)).trans hh) (by rw [hc1]; exact hx2) (by omega)
  refine ⟨if b2 then env1.define c!"ls" (.symbol c!"lsd") else env1, ?_, ?_, ?_, ?_⟩
  · rw [run_of_parse (alias_parse P), evalN_unfold]
    simp only [evalStep, evalDo]
    show evalD P H (bodyRun P H (stdB P L) n) (799 + 1) _ env w = _
    rw [evalD]
    simp only [evalStep]
    rw [M.bind_ok (yields_isName (H := H) (P := P) (L := L) he ha ho hs c!"windows" n 799 w (by omega) (by decide))]
    rw [if_neg (by simpa [Expr.isTruthy] using hw)]
    show evalD P H (bodyRun P H (stdB P L) n) (798 + 1) _ env w = _
    rw [evalD]
    simp only [evalStep]
    show evalD P H (bodyRun P H (stdB P L) n) (797 + 1) _ env w = _
    rw [evalD]
    simp only [evalStep, evalDo]
    rw [M.bind_ok h1]
    exact h2
  · cases b2
    · rw [if_neg (by decide), e1]
      cases b1
      · rfl
      · rw [if_pos rfl, Env.get_define, if_pos rfl, if_pos rfl]
    · rw [if_pos rfl, Env.get_define, if_neg (by decide), e1]
      cases b1
      · rfl
      · rw [if_pos rfl, Env.get_define, if_pos rfl, if_pos rfl]
  · cases b2
    · exact g1 _ (by decide)
    · rw [if_pos rfl, Env.get_define, if_pos rfl, if_pos rfl]
  · intro s a1 a2
    cases b2
    · exact g1 s a1
    · rw [if_pos rfl, Env.get_define, if_neg (Ne.symm a2), g1 s a1]

/-- C123.  A command that has become a name starts the program of this name, once, with the same arguments as before. -/
theorem C123_program {f g : Str} {args vs : List Expr} (hf : env.get f = some (.symbol g))
    (ha : evalList (evalD P H (bodyRun P H (stdB P L) m) 800) args env w = (.ok vs, env', w')) :
    evalN P H (stdB P L) (m + 1) (.apply (.symbol f) args) env w =
      let r := H.io (.status g env'.getCwd (argStrings P vs) (exported P env)) w'
      (commandOutcome g (.apply (.symbol f) args) args r.1, env', r.2) := by
  show evalD P H (bodyRun P H (stdB P L) m) (800 + 1) (.apply (.symbol f) args) env w = _
  rw [evalD]
  simp only [evalStep, M.bind_ok (evalD_symbol (k := 799) hf), applyValue, applyName_apply, M.bind_ok ha, runProgram,
    M.getEnv_bind, M.io_bind]
  generalize H.io _ w' = q
  rcases q with ⟨q, w2⟩
  cases q with
  | err e => cases e <;> rfl
  | _ => rfl

/-- C123.  So where `.cargo/bin/bat` is there but cannot be found by its name, `cat` does not work any more, whatever
program `cat` there is. -/
theorem C123_cat_refuted {args vs : List Expr} (hf : env.get c!"cat" = some (.symbol c!"bat"))
    (ha : evalList (evalD P H (bodyRun P H (stdB P L) m) 800) args env w = (.ok vs, env', w'))
    (hx : ∀ a e, (H.io (.status c!"bat" env'.getCwd a e) w').1 = .err .notFound) :
    (evalN P H (stdB P L) (m + 1) (.apply (.symbol c!"cat") args) env w).1 = .err (.programNotFound c!"bat") := by
  rw [C123_program hf ha]
  simp only [hx, commandOutcome]

/-! ### Instances -/

/-- Every file is there, no program is found. -/
def cargoHost : Host Unit where
  io op w :=
    match op with
    | .exists_ _ => (.bool true, w)
    | .status .. => (.err .notFound, w)
    | _ => (.unit, w)

def osEnv (nm : Str) : Env := (Demo.env.define c!"os" (.map [(c!"name", .str nm)])).define c!"HOME" (.str c!"/home/u")

theorem osEnv_get {nm s : Str} (h1 : s ≠ c!"os") (h2 : s ≠ c!"HOME") : (osEnv nm).get s = Demo.env.get s := by
  rw [osEnv, Env.get_define, if_neg (Ne.symm h2), Env.get_define, if_neg (Ne.symm h1)]

theorem osEnv_kept (nm : Str) {l : List Str} (h : c!"os" ∉ l ∧ c!"HOME" ∉ l) : Kept l (osEnv nm) :=
  ⟨Demo.env, demo_std, fun _ hs => osEnv_get (fun e => h.1 (e ▸ hs)) (fun e => h.2 (e ▸ hs))⟩

/-- On Windows `cat` is `fs@read`, and `echo` is as before. -/
example : ∃ env', Entered cargoHost Demo.plat Demo.lib 11 () [aliasText] (osEnv c!"windows") env' ∧
    (∃ v, env'.get c!"cat" = some v) ∧ env'.get c!"echo" = Demo.env.get c!"echo" := by
  obtain ⟨env', tbl, h, -, h1, h2⟩ := C123_windows (H := cargoHost) (P := Demo.plat) (L := Demo.lib) (n := 11) (w := ())
    (env := osEnv c!"windows") (t := [(c!"name", .str c!"windows")]) (osEnv_kept _ (by decide))
    (by rw [osEnv, Env.get_define, if_neg (by decide), Env.get_define, if_pos rfl]) rfl (by decide)
  obtain ⟨v, -, hv⟩ := h1 (c!"cat", c!"read") (by decide)
  exact ⟨env', h, ⟨v, hv⟩, by rw [h2 _ (by decide) (by decide), osEnv_get (by decide) (by decide)]⟩

/-- On Linux, with both files: `cat "x"` looks for the program `bat`. -/
example : ∃ env', runText Demo.plat (evalN Demo.plat cargoHost (stdB Demo.plat Demo.lib) 9) aliasText (osEnv c!"linux") () =
      (.ok .none, env', ()) ∧ env'.get c!"ls" = some (.symbol c!"lsd") ∧
    (evalN Demo.plat cargoHost (stdB Demo.plat Demo.lib) 9 (.apply (.symbol c!"cat") [.str c!"x"]) env' ()).1 =
      .err (.programNotFound c!"bat") := by
  obtain ⟨env', h, h1, h2, -⟩ := C123_elsewhere (H := cargoHost) (P := Demo.plat) (L := Demo.lib) (n := 9) (w := ())
    (w1 := ()) (w2 := ()) (b1 := true) (b2 := true) (nm := c!"linux") (home := c!"/home/u")
    (env := osEnv c!"linux") (t := [(c!"name", .str c!"linux")]) (osEnv_kept _ (by decide))
    (by rw [osEnv, Env.get_define, if_neg (by decide), Env.get_define, if_pos rfl]) rfl (by decide)
    (by rw [osEnv, Env.get_define, if_pos rfl]) rfl rfl (by decide)
  refine ⟨env', h, h2, C123_cat_refuted (vs := [.str c!"x"]) (env' := env') (w' := ()) h1 ?_ fun _ _ => rfl⟩
  rfl

end Dune.Props
