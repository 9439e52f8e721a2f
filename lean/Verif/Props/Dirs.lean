import Verif.Model.Dirs
import Verif.Proof.Start
import Verif.Props.Log
import Verif.Props.Listing

/-! C125: the directories of the user. -/

namespace Dune.Props

open Spec Init

/-- `fs@dirs@f` -/
def dirName (f : Str) : Expr := .apply (.symbol c!"@") [.symbol c!"fs", .symbol c!"dirs", .symbol f]

/-- The directories of the user: the name in `fs@dirs`, the variable, and what the system says. -/
def userDirs (X : Machine) : List (Str × Str × Option Str) :=
  [(c!"home", c!"HOME", X.home), (c!"desk", c!"DESK", X.desktop), (c!"docs", c!"DOCS", X.documents),
    (c!"down", c!"DOWN", X.downloads)]

theorem get_startFs (X : Machine) {x : Str} (h : x ≠ c!"fs") :
    (startFs X).get x = BMap.get? (dirVars X).reverse x := by
  rw [startFs, Env.defineModule, Env.get_define, if_neg (Ne.symm h), defineAll_get]
  cases BMap.get? (dirVars X).reverse x <;> rfl

theorem get_dirVars (X : Machine) :
    BMap.get? (dirVars X).reverse c!"HOME" = X.home.map .str ∧ BMap.get? (dirVars X).reverse c!"DESK" = X.desktop.map .str ∧
      BMap.get? (dirVars X).reverse c!"DOCS" = X.documents.map .str ∧
      BMap.get? (dirVars X).reverse c!"DOWN" = X.downloads.map .str ∧
      BMap.get? (dirVars X).reverse c!"CWD" = (X.cwd.or X.home).map .str := by
  obtain ⟨h, c, d, o, l, m, s, p⟩ := X
  cases h <;> cases c <;> cases d <;> cases o <;> cases l <;> exact ⟨rfl, rfl, rfl, rfl, rfl⟩

theorem start_dirVar (X : Machine) {x : Str} (h : x ∈ [c!"HOME", c!"DESK", c!"DOCS", c!"DOWN", c!"CWD"]) :
    (start X).get x = BMap.get? (dirVars X).reverse x := by
  simp only [List.mem_cons, List.not_mem_nil, or_false] at h
  rcases h with rfl | rfl | rfl | rfl | rfl <;>
  · rw [← get_startFs X (by decide)]
    exact (start_get _).trans rfl

theorem start_var {X : Machine} {nm var : Str} {p : Option Str} (h : (nm, var, p) ∈ userDirs X) :
    (start X).get var = p.map .str := by
  obtain ⟨h1, h2, h3, h4, -⟩ := get_dirVars X
  simp only [userDirs, List.mem_cons, Prod.mk.injEq, List.not_mem_nil, or_false] at h
  rcases h with ⟨rfl, rfl, rfl⟩ | ⟨rfl, rfl, rfl⟩ | ⟨rfl, rfl, rfl⟩ | ⟨rfl, rfl, rfl⟩ <;>
    rw [start_dirVar X (by decide)] <;> assumption

theorem get_dirTree {X : Machine} {nm var : Str} {p : Option Str} (h : (nm, var, p) ∈ userDirs X) :
    BMap.get? (BMap.ofList (dirTree X)) nm = p.map .str := by
  have : BMap.get? (BMap.ofList (dirTree X)) c!"home" = X.home.map .str ∧
      BMap.get? (BMap.ofList (dirTree X)) c!"desk" = X.desktop.map .str ∧
      BMap.get? (BMap.ofList (dirTree X)) c!"docs" = X.documents.map .str ∧
      BMap.get? (BMap.ofList (dirTree X)) c!"down" = X.downloads.map .str := by
    clear h
    obtain ⟨a, c, d, o, l, m, s, p⟩ := X
    cases a <;> cases d <;> cases o <;> cases l <;> exact ⟨rfl, rfl, rfl, rfl⟩
  obtain ⟨h1, h2, h3, h4⟩ := this
  simp only [userDirs, List.mem_cons, Prod.mk.injEq, List.not_mem_nil, or_false] at h
  rcases h with ⟨rfl, rfl, rfl⟩ | ⟨rfl, rfl, rfl⟩ | ⟨rfl, rfl, rfl⟩ | ⟨rfl, rfl, rfl⟩ <;> assumption

theorem start_dirs (X : Machine) : ∃ tbl : BMap Expr, (start (withDirs X)).get c!"fs" = some (.map tbl) ∧
    tbl.get? c!"dirs" = some (.map (BMap.ofList (dirTree X))) := by
  refine ⟨_, (start_get _).trans rfl, ?_⟩
  rw [BMap.ofList, BMap.get?_extend, members]
  simp only [withDirs, if_true, List.append_assoc]
  rw [List.reverse_append, List.reverse_append, BMap.get?_extend.get?_append, BMap.get?_extend.get?_append]
  rfl

section

variable {W : Type} {P : Plat} {H : Host W} {L : Lib} {n : Nat} {w : W} {X : Machine}

theorem evalN_dir {f : Str} {o : Option Str} (h : BMap.get? (BMap.ofList (dirTree X)) f = o.map .str) :
    evalN P H (stdB P L) (n + 1) (dirName f) (start (withDirs X)) w =
      (.ok ((o.map Expr.str).getD .none), start (withDirs X), w) := by
  obtain ⟨tbl, h1, h2⟩ := start_dirs X
  have hat : (start (withDirs X)).get c!"@" = some (.builtin c!"@" .index []) :=
    (start_std (X := withDirs X)).op (Init.b c!"@" .index) (by mem_tac)
  have key : ∀ k, evalD P H (bodyRun P H (stdB P L) n) (k + 2) (dirName f) (start (withDirs X)) w =
      (.ok ((o.map Expr.str).getD .none), start (withDirs X), w) := by
    intro k
    rw [dirName, evalD]
    simp only [evalStep]
    rw [M.bind_ok (evalD_symbol hat)]
    simp only [applyValue, bodyRun, stdB, Builtins.indexB, Builtins.evArg, Builtins.arg,
      List.getElem?_cons_zero, BProg.run_bind, BProg.run_ret, pure_bind, BProg.run_ev, List.tail_cons,
      Builtins.indexLoop]
    rw [M.bind_ok (evalN_sym h1)]
    cases o <;> simp [Expr.index, h2, h]
  exact key 799

/-- C125.  When the shell has started, each directory of the user that the system knows has two names, which give the
same path. -/
theorem C125_dirs {nm var d : Str} (h : (nm, var, some d) ∈ userDirs X) :
    evalN P H (stdB P L) (n + 1) (.symbol var) (start (withDirs X)) w = (.ok (.str d), start (withDirs X), w) ∧
      evalN P H (stdB P L) (n + 1) (dirName nm) (start (withDirs X)) w = (.ok (.str d), start (withDirs X), w) :=
  ⟨evalN_sym (start_var (X := withDirs X) h), evalN_dir (get_dirTree h)⟩

/-- C125, refuted: that the names mean the same when the system knows no such directory.  Then the variable is the
word itself, as in `cd HOME`, and the member of `fs@dirs` is `None`; neither fails. -/
theorem C125_unknown_refuted {nm var : Str} (h : (nm, var, none) ∈ userDirs X) :
    evalN P H (stdB P L) (n + 1) (.symbol var) (start (withDirs X)) w = (.ok (.symbol var), start (withDirs X), w) ∧
      evalN P H (stdB P L) (n + 1) (dirName nm) (start (withDirs X)) w = (.ok .none, start (withDirs X), w) :=
  ⟨evalN_unbound (start_var (X := withDirs X) h), evalN_dir (o := none) (get_dirTree h)⟩

/-- C125, refuted: that `cd HOME` (or `cd DESK`, ..) fails when the system knows no such directory.  It goes to a
directory with the name of the variable, below the current one, if there is such a directory. -/
theorem C125_cd_refuted {nm var p q : Str} (h : (nm, var, none) ∈ userDirs X)
    (hp : Resolved (start (withDirs X)).getCwd var p) {w1 w2 : W} {r : IORes}
    (h1 : H.io (.canonicalize p) w = (.str q, w1)) (h2 : H.io (.setCurrentDir q) w1 = (r, w2)) (hr : ∀ e, r ≠ .err e) :
    ∃ env', evalN P H (stdB P L) (n + 1) (.apply (.symbol c!"cd") [.symbol var]) (start (withDirs X)) w =
      (.ok .none, env', w2) ∧ env'.getCwd = q := by
  have ha : evalN P H (stdB P L) n (.symbol var) (start (withDirs X)) w = (.ok (.symbol var), start (withDirs X), w) :=
    evalN_unbound (start_var (X := withDirs X) h)
  refine ⟨(start (withDirs X)).define c!"CWD" (.str q), ?_, ?_⟩
  · rw [eval_top start_std (nm := c!"cd") (id := .cd) (hlp := []) (by mem_tac), evalN_builtin]
    cases r <;> first
      | exact absurd rfl (hr _)
      | (brun [Builtins.cdB, ha, Builtins.strOrSym, M.getEnv, M.io, hp.join, h1, h2]; rfl)
  · rw [Env.getCwd, show cwdVar = c!"CWD" from rfl, Env.get_define, if_pos rfl]

/-- C125.  The shell starts in the directory in which it was called, else in the home directory, else in `/`. -/
theorem C125_start : (start X).getCwd = (X.cwd.or X.home).getD c!"/" := by
  obtain ⟨-, -, -, -, h⟩ := get_dirVars X
  have := (start_dirVar X (x := c!"CWD") (by decide)).trans h
  rw [Env.getCwd, show cwdVar = c!"CWD" from rfl, this]
  cases X.cwd <;> cases X.home <;> rfl

end

/-! ### Instances: the hypotheses can be met -/

/-- A machine with a home directory and no other. -/
def dirsMachine : Machine := ⟨some c!"/home/me", none, none, none, none, fun _ => [], .none, .none⟩

example := C125_dirs (P := Demo.plat) (H := Demo.host) (L := Demo.lib) (n := 4) (w := []) (X := dirsMachine)
  (nm := c!"home") (var := c!"HOME") (d := c!"/home/me") (by simp [userDirs, dirsMachine])

example := C125_unknown_refuted (P := Demo.plat) (H := Demo.host) (L := Demo.lib) (n := 4) (w := []) (X := dirsMachine)
  (nm := c!"desk") (var := c!"DESK") (by simp [userDirs, dirsMachine])

/-- on a machine where every path is resolved to `/x` -/
example := C125_cd_refuted (P := Demo.plat) (L := Demo.lib) (n := 4) (w := ([] : List IOp)) (X := dirsMachine)
  (H := ⟨fun op w => match op with | .canonicalize _ => (.str c!"/x", w) | _ => (.unit, w)⟩)
  (nm := c!"desk") (var := c!"DESK") (p := c!"/home/me/DESK") (q := c!"/x") (by simp [userDirs, dirsMachine])
  (.relative c!"/home/me" c!"DESK" (by decide) (by decide) (by decide)) rfl rfl (by simp)

example : (start dirsMachine).getCwd = c!"/home/me" := C125_start

end Dune.Props
