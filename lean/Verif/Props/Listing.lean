import Verif.Model.PreludeFiles
import Verif.Props.Tilde
import Verif.Props.Waiting
import Verif.Props.Text
import Verif.Props.Tree

/-! `$` of the default prelude. -/

namespace Dune.Props

open Spec Calc Prelude Repl

/-! ### Specification -/

/-- `g` occurs in `s`, and does not occur again after its first occurrence. -/
def Once (g s : Str) : Prop := ∃ a b, s = a ++ g ++ b ∧ ¬ Occurs g (a ++ g.dropLast) ∧ ¬ Occurs g b

/-- The system says that `dir` is a directory and lists `ns`. -/
def Lists {W : Type} (H : Host W) (dir : Str) (ns : List Str) (w w' : W) : Prop :=
  ∃ w1, H.io (.isDir dir) w = (.bool true, w1) ∧ H.io (.readDir dir) w1 = (.strs ns, w')

/-! ### Proofs -/

/-- the test of `$` -/
def dollarTest : Expr :=
  .group (.apply (.symbol c!"==") [.group (.apply (.symbol c!"len")
    [.group (call c!"string" c!"split" [.symbol c!"GLOB", .symbol c!"file"])]), .int (.lit 2)])

/-- the body of `$` -/
def dollarBody : Expr :=
  .group (.group (.apply (.symbol c!"|") [.group (call c!"fs" c!"ls" [.symbol c!"."]),
    .group (call c!"fn" c!"filter" [.group (.lambda c!"file" dollarTest [] [])])]))

theorem dollar_parse (P : Plat) : parseText P dollarText =
    .ok (.do_ [.assign c!"$" (.macro_ c!"GLOB" dollarBody)]) := by kernel_rfl

theorem once_iff {g s : Str} (hg : g ≠ []) : (splitStr g s).length = 2 ↔ Once g s := by
  have hc := cut_splitStr hg s
  constructor
  · intro h
    obtain ⟨a, b, hab⟩ := List.length_eq_two.mp h
    rw [hab] at hc
    cases hc with
    | cut h1 h2 =>
      cases h2 with
      | last h2 => exact ⟨_, _, rfl, h1, h2⟩
      | cut _ h3 => cases h3
  · rintro ⟨a, b, rfl, h1, h2⟩
    rw [hc.unique hg (.cut h1 (.last h2))]
    rfl

theorem cut_length {g s : Str} (hg : g ≠ []) {ps : List Str} (h : Cut g s ps) : ps.length ≤ s.length + 1 := by
  induction h with
  | last => simp
  | @cut p rest ps _ _ ih =>
    have : 0 < g.length := List.length_pos_iff.mpr hg
    simp only [List.length_cons, List.length_append]
    omega

section

variable {W : Type} {H : Host W} {P : Plat} {L : Lib} {n : Nat}

/-- a call of a library function in parentheses -/
theorem Kept.libD {names : List Str} {env : Env} (h : Kept names env) {m f nm hlp : Str} {id : BId}
    {tbl : List (Str × Expr)} {k : Nat} {w : W} {args : List Expr} (h1 : c!"@" ∈ names) (h2 : m ∈ names)
    (hm : (m, tbl) ∈ Init.modules) (hf : (f, .builtin nm id hlp) ∈ tbl) :
    evalD P H (bodyRun P H (stdB P L) n) (k + 4) (.group (call m f args)) env w =
      (stdB P L id args).run H (evalN P H (stdB P L) n) env w := by
  obtain ⟨env0, hs, h⟩ := h
  obtain ⟨t, ht, h'⟩ := hs.mod _ hm
  have hat := hs.op (Init.b c!"@" .index) (by mem_tac)
  rw [evalD]
  simp only [evalStep]
  rw [evalD]
  simp only [evalStep]
  rw [M.bind_ok (evalD_member (k := k) ((h _ h1).trans hat) ((h _ h2).trans ht) (h' _ hf))]
  rfl

theorem scriptScope_unused {env : Env} {p x : Str} {body : Expr} {cwd : Str} {v : Expr}
    (hx : x ∉ body.usedSymbols) (h1 : x ≠ p) (h2 : x ≠ c!"CWD") :
    (scriptScope env p body cwd v).get x = none := by
  rw [scriptScope, closeLambda_parents]
  simp only [callEnv, Env.setCwd, Env.get_define, cwdVar, if_neg (Ne.symm h1), if_neg (Ne.symm h2)]
  rw [Env.get]
  rw [closeLambda, capture_get, if_neg (by simp [hx])]
  simp only [Env.setCwd, Env.define, BMap.get?_insert, cwdVar]
  rw [if_neg (Ne.symm h2), if_neg (Ne.symm h1)]
  rfl

theorem yields_split {env : Env} (hk : Kept [c!"@", c!"string"] env) (h0 : env.get c!"arg0" = none) {x y : Str}
    {v : Expr} {g s : Str} (hv : v = .str g ∨ v = .symbol g) (hx : env.get x = some v) (hy : env.get y = some (.str s)) :
    Yields H P L 4 env (.group (call c!"string" c!"split" [.symbol x, .symbol y])) (.list ((splitStr g s).map .str)) := by
  intro n k w hn hk'
  obtain ⟨k, rfl⟩ : ∃ j, k = j + 4 := ⟨k - 4, by omega⟩
  obtain ⟨n, rfl⟩ : ∃ j, n = j + 1 := ⟨n - 1, by omega⟩
  rw [hk.libD (tbl := Init.stringM) (by simp) (by simp) (by mem_tac) (by mem_tac)]
  simp only [stdB, Builtins.splitB, BProg.run_bind, BProg.run_ev]
  rw [M.bind_ok (run_curryEnv ..), M.bind_ok (evalN_reclose ..)]
  rw [evalN]
  rw [show maxRecursionDepth + 1 = 797 + 4 from rfl]
  rw [evalD_curryOuter (k := 797) (evalD_reclose (k := 799) ..) (evalD_symbol hx) (evalD_symbol hy), h0]
  rcases hv with rfl | rfl <;> brun [bodyRun, Builtins.split2B, curryArgs, Builtins.strOrSym]

theorem filter_waits {fe x body : Expr} {p : Str} {bs : List (Str × Expr)}
    {ps : List (List (Str × Expr))} {l vs : List Expr} {env env1 env2 : Env} {w w1 w2 w3 : W}
    (hk : Kept [c!"@", c!"fn", c!"+"] env)
    (hf : evalD P H (bodyRun P H (stdB P L) n) 800 fe env w = (.ok (.lambda p body bs ps), env1, w1))
    (hx : evalD P H (bodyRun P H (stdB P L) (n + 1)) 800 x env1 w1 = (.ok (.list l), env2, w2))
    (hd : ∀ v ∈ l, Data 800 v)
    (h : CallsEach (Called P H L (n + 1) 795 env1.getCwd (.lambda p body bs ps)) l vs w2 w3) :
    evalN P H (stdB P L) (n + 2) (.apply (.group (call c!"fn" c!"filter" [fe])) [x]) env w =
      (.ok (.list (((l.zip vs).filter fun p => Truthy p.2).map (·.1))), env2, w3) := by
  have h1 : evalD P H (bodyRun P H (stdB P L) (n + 1)) 800 (.group (call c!"fn" c!"filter" [fe])) env
      w = (.ok (closure (scriptScope env c!"f" (.lambda c!"list" filterRest [] []) env.getCwd
        (.lambda p body bs ps)) c!"list" filterRest), env1, w1) := by
    rw [hk.libD (k := 796) (m := c!"fn") (f := c!"filter") (tbl := Init.fnM) (by simp) (by simp) (by mem_tac)
      (by mem_tac)]
    brun [Builtins.filterB, Builtins.countCheck]
    exact (eval_script hf).trans rfl
  have h2 := evalD_call1 h1 hx
  generalize hsc : scriptScope (scriptScope env c!"f" (.lambda c!"list" filterRest [] []) env.getCwd
      (.lambda p body bs ps)) c!"list" filterRest env1.getCwd (.list l) = scope
  have hop : env.get c!"+" = some (.builtin c!"+" .add []) := hk.op (by simp) (by mem_tac)
  have hcwd : scope.getCwd = env1.getCwd := by rw [← hsc]; exact scriptScope_cwd (by decide)
  have hfn : scope.get c!"f" = some (.lambda p body bs ps) := by
    rw [← hsc]; exact scriptScope_get (by decide) (by decide) (by decide) scriptScope_param
  have hadd : scope.get c!"+" = some (.builtin c!"+" .add []) := by
    rw [← hsc]
    exact scriptScope_get (by decide) (by decide) (by decide)
      (scriptScope_get (by decide) (by decide) (by decide) hop)
  have hlist : scope.get c!"list" = some (.list l) := by rw [← hsc]; exact scriptScope_param
  have hi : FilterScope env1.getCwd (.lambda p body bs ps) [] (scope.define c!"result" (.list [])) := by
    constructor
    · rw [getCwd_define (by decide), hcwd]
    all_goals rw [Env.get_define]
    · rw [if_neg (by decide), hfn]
    · rw [if_neg (by decide), hadd]
    · rw [if_pos rfl]
  obtain ⟨rs, scope', h3, h4⟩ := filter_loop (k := 791) h hi (by simpa using hd)
  have h5 : evalD P H (bodyRun P H (stdB P L) (n + 1)) 800 filterRest scope w2 =
      (.ok (.list (((l.zip vs).filter fun p => Truthy p.2).map (·.1))), scope', w3) := by
    have hl : (scope.define c!"result" (.list [])).get c!"list" = some (.list l) := by
      rw [Env.get_define, if_neg (by decide), hlist]
    have a1 : evalD P H (bodyRun P H (stdB P L) (n + 1)) 799 (.assign c!"result" (.list [])) scope w2 =
        (.ok .none, scope.define c!"result" (.list []), w2) := rfl
    rw [filterRest, evalD]
    simp only [evalStep, evalDo]
    rw [M.bind_ok a1, M.bind_ok (evalD_for (evalD_symbol hl) h3)]
    exact (evalD_symbol h4).trans (by simp)
  rw [evalN]
  refine h2.trans ?_
  rw [← scriptScope, hsc, h5]

/-- the names that `$` needs -/
abbrev dollarNames : List Str := [c!"@", c!"fs", c!"fn", c!"string", c!"|", c!"+", c!"==", c!"len"]

theorem yields_test {env : Env} (hk : Kept [c!"@", c!"string", c!"==", c!"len"] env) (h0 : env.get c!"arg0" = none) {v : Expr} {g s : Str}
    (hv : v = .str g ∨ v = .symbol g) (hg : g ≠ []) (hx : env.get c!"GLOB" = some v)
    (hy : env.get c!"file" = some (.str s)) (hs : s.length < 2 ^ 62) :
    Yields H P L 10 env dollarTest (.bool (decide ((splitStr g s).length = 2))) := by
  have h1 := yields_split (H := H) (P := P) (L := L) (kept_sub hk (by simp)) h0 hv hx hy
  have hlen : env.get c!"len" = some (.builtin c!"len" .len []) := hk.top (by simp) (by mem_tac)
  have hlt := cut_length hg (cut_splitStr hg s)
  have h2 : YieldsInt H P L 7 env (.group (.apply (.symbol c!"len")
      [.group (call c!"string" c!"split" [.symbol c!"GLOB", .symbol c!"file"])])) (splitStr g s).length := by
    refine ⟨I64.wrap (splitStr g s).length, (by
      simp only [I64.wrap]
      exact Int.bmod_eq_of_le (by omega) (by omega)), Run.group (yields_builtin1 hlen h1 ?_ (by decide))⟩
    intro ev0 w h
    simp only [stdB, Builtins.lenB, Builtins.evArg, Builtins.arg, List.getElem?_cons_zero, BProg.run_bind,
      BProg.run_ret, pure_bind, BProg.run_ev]
    rw [M.bind_ok h]
    simp only [Builtins.lenInt, List.length_map]
    rfl
  have h3 := yields_eq (hk.op (by simp) (by mem_tac)) h2 ⟨.lit 2, rfl, yields_int (.lit 2)⟩ (by decide)
  have e : decide (((splitStr g s).length : Int) = (I64.lit 2).val) = decide ((splitStr g s).length = 2) := by
    congr 1
    have : (I64.lit 2).val = 2 := rfl
    rw [this]
    exact propext ⟨fun h => by omega, fun h => by omega⟩
  rw [← e]
  exact h3

theorem dollar_entered {w : W} {env : Env} (hn : 4 ≤ n) :
    Entered H P L n w [dollarText] env (env.define c!"$" (.macro_ c!"GLOB" dollarBody)) :=
  enter_text (dollar_parse P)
    ((yields_macro (H := H) (P := P) (L := L) (env := env) c!"GLOB" dollarBody).assign (x := c!"$")).last.block hn (.nil _)

theorem kept_scope {env : Env} (hk : Kept dollarNames env) {cwd : Str} {u : Expr} :
    Kept [c!"@", c!"string", c!"==", c!"len"] (scriptScope env c!"file" dollarTest cwd u) := by
  have h1 : env.get c!"@" = some (.builtin c!"@" .index []) := hk.op (by simp) (by mem_tac)
  have h2 : env.get c!"==" = some (.builtin c!"==" .eq []) := hk.op (by simp) (by mem_tac)
  have h3 : env.get c!"len" = some (.builtin c!"len" .len []) := hk.top (by simp) (by mem_tac)
  obtain ⟨env0, hs, h⟩ := hk
  obtain ⟨t, ht, -⟩ := hs.mod (c!"string", Init.stringM) (by mem_tac)
  have h4 : env.get c!"string" = some (.map t) := (h _ (by simp)).trans ht
  refine ⟨env0, hs, fun s hm => ?_⟩
  simp only [List.mem_cons, List.not_mem_nil, or_false] at hm
  rcases hm with rfl | rfl | rfl | rfl
  · rw [scriptScope_get (by decide) (by decide) (by decide) h1, ← h1, h _ (by simp)]
  · rw [scriptScope_get (by decide) (by decide) (by decide) h4, ← h4, h _ (by simp)]
  · rw [scriptScope_get (by decide) (by decide) (by decide) h2, ← h2, h _ (by simp)]
  · rw [scriptScope_get (by decide) (by decide) (by decide) h3, ← h3, h _ (by simp)]

theorem test_called {env : Env} (hk : Kept dollarNames env) {v : Expr} {g s cwd : Str}
    (hv : v = .str g ∨ v = .symbol g) (hg : g ≠ []) (hx : env.get c!"GLOB" = some v) (hs : s.length < 2 ^ 62) (hn : 10 ≤ n)
    (w : W) : Called P H L n 795 cwd (closure env c!"file" dollarTest) (.str s) w
      (.bool (decide ((splitStr g s).length = 2))) w := by
  intro scope hc
  rw [closure, evalD_call1 (env0 := scope) (env1 := scope) (w0 := w) (w1 := w) (v := .str s) rfl rfl]
  have h := yields_test (H := H) (P := P) (L := L) (env := scriptScope env c!"file" dollarTest scope.getCwd (.str s))
    (kept_scope hk) (scriptScope_unused (by decide) (by decide) (by decide)) hv hg
    (scriptScope_get (by decide) (by decide) (by decide) hx) scriptScope_param hs n 794 w hn (by decide)
  rw [scriptScope] at h
  rw [h]

theorem test_each {env : Env} (hk : Kept dollarNames env) {v : Expr} {g cwd : Str}
    (hv : v = .str g ∨ v = .symbol g) (hg : g ≠ []) (hx : env.get c!"GLOB" = some v) (hn : 10 ≤ n) (w : W) :
    ∀ {l : List Str}, (∀ s ∈ l, s.length < 2 ^ 62) →
      CallsEach (Called P H L n 795 cwd (closure env c!"file" dollarTest)) (l.map .str)
        (l.map fun s => .bool (decide ((splitStr g s).length = 2))) w w
  | [], _ => .nil w
  | s :: l, h => .cons (test_called hk hv hg hx (h s (by simp)) hn w)
      (test_each hk hv hg hx hn w fun t ht => h t (by simp [ht]))

theorem zip_filter (g : Str) : ∀ l : List Str,
    (((l.map Expr.str).zip (l.map fun s => Expr.bool (decide ((splitStr g s).length = 2)))).filter
      fun p => Truthy p.2).map (·.1) = (l.filter fun s => decide ((splitStr g s).length = 2)).map .str
  | [] => rfl
  | s :: l => by
    have ih := zip_filter g l
    have ht : ∀ b, Truthy (.bool b) ↔ b = true := fun b => (isTruthy_iff _).symm.trans (by simp [Expr.isTruthy])
    by_cases h : (splitStr g s).length = 2
    · simp only [List.map_cons, List.zip_cons_cons, List.filter_cons, ht, h, decide_true, if_true, ih]
    · simp only [List.map_cons, List.zip_cons_cons, List.filter_cons, ht, h, decide_false, if_false, ih,
        Bool.false_eq_true]

theorem evalN_unbound {x : Str} {env : Env} {w : W} (h : env.get x = none) :
    evalN P H (stdB P L) n (.symbol x) env w = (.ok (.symbol x), env, w) := by
  have : ∀ (B : BId → List Expr → M W Expr) k, evalD P H B (k + 1) (.symbol x) env w = (.ok (.symbol x), env, w) := by
    intro B k
    rw [evalD]
    simp only [evalStep, M.getEnv_bind, h]
    rfl
  cases n <;> exact this _ 800

variable {m : Nat} {w w' w1 : W} {env env' env2 : Env} {x v : Expr} {g dir : Str} {ns : List Str}

theorem dollar_body (he : Entered H P L n w [dollarText] env env') (hn : 4 ≤ n) (h2 : env2.get c!"$" = env'.get c!"$")
    (hk : Kept dollarNames env2) (hx : Gives H P L env2 x v) :
    evalN P H (stdB P L) (m + 1) (.apply (.symbol c!"$") [x]) env2 w' =
      (stdB P L .pipe [.group (call c!"fs" c!"ls" [.symbol c!"."]),
        .group (call c!"fn" c!"filter" [.group (.lambda c!"file" dollarTest [] [])])]).run H
        (evalN P H (stdB P L) m) (env2.define c!"GLOB" v) w' := by
  cases he.unique (dollar_entered hn)
  rw [Env.get_define, if_pos rfl] at h2
  rw [evalN_unfold]
  simp only [evalStep]
  rw [M.bind_ok (evalD_symbol h2)]
  simp only [applyValue]
  rw [M.bind_ok (hx m 799 w'), M.define_bind, dollarBody, evalD]
  simp only [evalStep]
  rw [evalD]
  simp only [evalStep]
  rw [evalD]
  simp only [evalStep]
  rw [M.bind_ok (evalD_symbol (v := .builtin c!"|" .pipe []) (by
    rw [Env.get_define, if_neg (by decide)]
    exact hk.op (by simp) (by mem_tac)))]
  rfl

/-- C115.  Entering the definition of `$` changes only this name. -/
theorem C115_defines (hn : 4 ≤ n) :
    ∃ env', Entered H P L n w [dollarText] env env' ∧ ∀ s, s ≠ c!"$" → env'.get s = env.get s :=
  ⟨_, dollar_entered hn, fun s hs => by rw [Env.get_define, if_neg (Ne.symm hs)]⟩

open Classical in
/-- C115.  `$ g` lists the current directory once and gives those names, in the order of the system and with `./`
before them, in which the text g occurs, and does not occur again after its first occurrence.  A variable `arg0`
does not matter.  Afterwards the caller's variable `GLOB` is g. -/
theorem C115_dollar (hn : 4 ≤ n) (he : Entered H P L n w [dollarText] env env')
    (h2 : env2.get c!"$" = env'.get c!"$") (hk : Kept dollarNames env2) (hdot : env2.get c!"." = none) (hm : 13 ≤ m)
    (hx : Gives H P L env2 x v) (hv : v = .str g ∨ v = .symbol g) (hg : g ≠ []) (hdir : Resolved env2.getCwd c!"." dir)
    (hl : Lists H dir ns w' w1) (hns : ∀ s ∈ ns, Name s ∧ s.length < 2 ^ 32) :
    evalN P H (stdB P L) m (.apply (.symbol c!"$") [x]) env2 w' =
      (.ok (.list (((ns.map (c!"./" ++ ·)).filter fun s => decide (Once g s)).map .str)), env2.define c!"GLOB" v, w1) := by
  obtain ⟨m, rfl⟩ : ∃ j, m = j + 3 := ⟨m - 3, by omega⟩
  rw [dollar_body he hn h2 hk hx]
  have hk' : Kept dollarNames (env2.define c!"GLOB" v) := hk.define (by decide)
  have hcwd : (env2.define c!"GLOB" v).getCwd = env2.getCwd := getCwd_define (by decide)
  have hdot' : (env2.define c!"GLOB" v).get c!"." = none := by rw [Env.get_define, if_neg (by decide), hdot]
  have hnames : ∀ s ∈ ns, pathJoin c!"." s = c!"./" ++ s := by
    intro s hs
    have h0 : s.head? ≠ some '/' := fun h => (hns s hs).1.2.1 (List.mem_of_head? h)
    rw [(Resolved.relative c!"." s h0 (by decide) (by decide)).join]
    rfl
  have hA : evalN P H (stdB P L) (m + 2) (.group (call c!"fs" c!"ls" [.symbol c!"."])) (env2.define c!"GLOB" v) w' =
      (.ok (.list ((ns.map (c!"./" ++ ·)).map .str)), env2.define c!"GLOB" v, w1) := by
    obtain ⟨w2, hd1, hd2⟩ := hl
    have hd : display P (.symbol c!".") = c!"." := rfl
    rw [hk'.lib (tbl := Init.fsM) (by simp) (by simp) (by mem_tac) (by mem_tac)]
    brun [Builtins.lsB, evalN_unbound hdot', hd, hcwd, hdir.join, Builtins.askBool, hd1, hd2]
    exact hnames
  have hB := filter_waits (P := P) (H := H) (L := L) (n := m) (fe := .group (.lambda c!"file" dollarTest [] []))
    (x := .list ((ns.map (c!"./" ++ ·)).map .str)) (l := (ns.map (c!"./" ++ ·)).map .str) (w := w1) (w1 := w1) (w2 := w1)
    (env1 := env2.define c!"GLOB" v) (env2 := env2.define c!"GLOB" v)
    (kept_sub hk' (by simp)) (p := c!"file") (body := dollarTest) rfl
    (C17_data_inert (.list (by simp only [List.mem_map]; rintro _ ⟨s, -, rfl⟩; exact .str s)) _ _)
    (by simp only [List.mem_map]; rintro _ ⟨s, -, rfl⟩; exact .str s)
    (test_each hk' hv hg (by rw [Env.get_define, if_pos rfl]) (by omega) w1 (by
      simp only [List.mem_map]
      rintro _ ⟨s, hs, rfl⟩
      have := (hns s hs).2
      simp only [List.length_append]
      have : (c!"./").length = 2 := rfl
      omega))
  rw [zip_filter] at hB
  generalize ns.map (c!"./" ++ ·) = l at hA hB ⊢
  have hc1 : Builtins.exprToCommand P (.group (call c!"fs" c!"ls" [.symbol c!"."])) = .ret none := rfl
  have hc2 : Builtins.exprToCommand P (.group (call c!"fn" c!"filter" [.group (.lambda c!"file" dollarTest [] [])])) =
      .ret none := rfl
  brun [Builtins.pipeB, Builtins.pipeLoop, hc1, hc2, hA, hB]
  simp only [once_iff hg]

theorem once_mem {g s : Str} {c : Char} (hc : c ∈ g) (h : Once g s) : c ∈ s := by
  obtain ⟨a, b, rfl, -⟩ := h
  simp [hc]

theorem not_once {g x y z : Str} (hg : g ≠ []) : ¬ Once g (x ++ g ++ (y ++ g ++ z)) := by
  rintro ⟨a, b, hs, h1, h2⟩
  have hpos : 0 < g.length := List.length_pos_iff.mpr hg
  by_cases hle : a.length ≤ x.length
  · refine h2 ?_
    have hsuf : y ++ g ++ z <:+ b := by
      refine List.suffix_of_suffix_length_le (l₃ := x ++ g ++ (y ++ g ++ z)) ⟨_, rfl⟩ ⟨a ++ g, hs.symm⟩ ?_
      have := congrArg List.length hs
      simp only [List.length_append] at this ⊢
      omega
    obtain ⟨t, ht⟩ := hsuf
    exact ⟨t ++ y, z, by rw [← ht]; simp⟩
  · refine h1 ?_
    have hsplit : a ++ g ++ b = (a ++ g.dropLast) ++ (g.drop (g.length - 1) ++ b) := by
      rw [List.dropLast_eq_take, List.append_assoc, List.append_assoc, ← List.append_assoc (g.take _), List.take_append_drop]
    have hpre : x ++ g <+: a ++ g.dropLast := by
      refine List.prefix_of_prefix_length_le (l₃ := x ++ g ++ (y ++ g ++ z)) ⟨_, rfl⟩ ⟨_, (hs.trans hsplit).symm⟩ ?_
      simp only [List.length_append, List.length_dropLast]
      omega
    obtain ⟨t, ht⟩ := hpre
    exact ⟨x, t, ht.symm⟩

/-- C115.  `$` is not about patterns: with a `*` it finds nothing, unless names contain a `*`. -/
theorem C115_pattern_refuted (hn : 4 ≤ n) (he : Entered H P L n w [dollarText] env env')
    (h2 : env2.get c!"$" = env'.get c!"$") (hk : Kept dollarNames env2) (hdot : env2.get c!"." = none) (hm : 13 ≤ m)
    (hx : Gives H P L env2 x v) (hv : v = .str g ∨ v = .symbol g) (hg : '*' ∈ g) (hdir : Resolved env2.getCwd c!"." dir)
    (hl : Lists H dir ns w' w1) (hns : ∀ s ∈ ns, Name s ∧ s.length < 2 ^ 32) (hno : ∀ s ∈ ns, '*' ∉ s) :
    evalN P H (stdB P L) m (.apply (.symbol c!"$") [x]) env2 w' = (.ok (.list []), env2.define c!"GLOB" v, w1) := by
  rw [C115_dollar hn he h2 hk hdot hm hx hv (List.ne_nil_of_mem hg) hdir hl hns]
  rw [List.filter_eq_nil_iff.mpr, List.map_nil]
  simp only [List.mem_map, decide_eq_true_eq]
  rintro _ ⟨s, hs, rfl⟩ h
  have := once_mem hg h
  rw [List.mem_append] at this
  rcases this with h | h
  · revert h; decide
  · exact hno s hs h

/-- C115.  A name in which g occurs twice is left out. -/
theorem C115_twice_refuted (hn : 4 ≤ n) (he : Entered H P L n w [dollarText] env env')
    (h2 : env2.get c!"$" = env'.get c!"$") (hk : Kept dollarNames env2) (hdot : env2.get c!"." = none) (hm : 13 ≤ m)
    (hx : Gives H P L env2 x v) (hv : v = .str g ∨ v = .symbol g) (hg : g ≠ []) (hdir : Resolved env2.getCwd c!"." dir)
    (hl : Lists H dir ns w' w1) (hns : ∀ s ∈ ns, Name s ∧ s.length < 2 ^ 32) (a b c : Str) :
    ∃ l, evalN P H (stdB P L) m (.apply (.symbol c!"$") [x]) env2 w' = (.ok (.list l), env2.define c!"GLOB" v, w1) ∧
      .str (c!"./" ++ (a ++ g ++ b ++ g ++ c)) ∉ l := by
  refine ⟨_, C115_dollar hn he h2 hk hdot hm hx hv hg hdir hl hns, ?_⟩
  intro h
  simp only [List.mem_map, List.mem_filter, decide_eq_true_eq, Expr.str.injEq] at h
  obtain ⟨s, ⟨-, h⟩, rfl⟩ := h
  refine not_once (x := c!"./" ++ a) (y := b) (z := c) hg ?_
  simpa using h

/-- C115.  If the current directory does not exist any more, `$ g` fails; the caller's variable `GLOB` is g all the
same. -/
theorem C115_fails (hn : 4 ≤ n) (he : Entered H P L n w [dollarText] env env')
    (h2 : env2.get c!"$" = env'.get c!"$") (hk : Kept dollarNames env2) (hdot : env2.get c!"." = none) (hm : 13 ≤ m)
    (hx : Gives H P L env2 x v) (hdir : Resolved env2.getCwd c!"." dir) {w2 : W}
    (h3 : H.io (.isDir dir) w' = (.bool false, w1)) (h4 : H.io (.isFile dir) w1 = (.bool false, w2)) :
    ∃ msg, evalN P H (stdB P L) m (.apply (.symbol c!"$") [x]) env2 w' =
      (.err (.customError msg), env2.define c!"GLOB" v, w2) := by
  obtain ⟨m, rfl⟩ : ∃ j, m = j + 3 := ⟨m - 3, by omega⟩
  refine ⟨dir ++ c!" does not exist", ?_⟩
  rw [dollar_body he hn h2 hk hx]
  have hk' : Kept dollarNames (env2.define c!"GLOB" v) := hk.define (by decide)
  have hcwd : (env2.define c!"GLOB" v).getCwd = env2.getCwd := getCwd_define (by decide)
  have hdot' : (env2.define c!"GLOB" v).get c!"." = none := by rw [Env.get_define, if_neg (by decide), hdot]
  have hA : evalN P H (stdB P L) (m + 2) (.group (call c!"fs" c!"ls" [.symbol c!"."])) (env2.define c!"GLOB" v) w' =
      (.err (.customError (dir ++ c!" does not exist")), env2.define c!"GLOB" v, w2) := by
    have hd : display P (.symbol c!".") = c!"." := rfl
    rw [hk'.lib (tbl := Init.fsM) (by simp) (by simp) (by mem_tac) (by mem_tac)]
    brun [Builtins.lsB, evalN_unbound hdot', hd, hcwd, hdir.join, Builtins.askBool, h3, h4]
  have hc1 : Builtins.exprToCommand P (.group (call c!"fs" c!"ls" [.symbol c!"."])) = .ret none := rfl
  brun [Builtins.pipeB, Builtins.pipeLoop, hc1, hA]

end

/-! ### Instances -/

/-- A world with one directory. -/
def listHost (ns : List Str) : Host (List IOp) where
  io op w :=
    match op with
    | .isDir _ => (.bool true, w ++ [op])
    | .readDir _ => (.strs ns, w ++ [op])
    | _ => (.unit, w ++ [op])

/-- a directory with the files `a.txt`, `b.rs` and `txt.txt` -/
abbrev demoNames : List Str := [c!"a.txt", c!"b.rs", c!"txt.txt"]

open Classical in
/-- `$ "txt"` in `/home` -/
example : ∃ env', Entered (listHost demoNames) Demo.plat Demo.lib 9 [] [dollarText] Demo.env env' ∧
    evalN Demo.plat (listHost demoNames) (stdB Demo.plat Demo.lib) 13 (.apply (.symbol c!"$") [.str c!"txt"])
        (env'.define c!"CWD" (.str c!"/home")) [] =
      (.ok (.list (((demoNames.map (c!"./" ++ ·)).filter fun s => decide (Once c!"txt" s)).map .str)),
        (env'.define c!"CWD" (.str c!"/home")).define c!"GLOB" (.str c!"txt"),
        [.isDir c!"/home/.", .readDir c!"/home/."]) := by
  refine ⟨_, dollar_entered (by decide), ?_⟩
  refine C115_dollar (v := .str c!"txt") (g := c!"txt") (ns := demoNames) (dir := c!"/home/.") (n := 9) (w := [])
    (env := Demo.env) (by decide) (dollar_entered (by decide)) ?_ ?_ ?_ (by decide) (fun m k w => by rw [evalD]; rfl)
    (.inl rfl) (by decide) ?_ ⟨_, rfl, rfl⟩ (by unfold Name; decide)
  · rw [Env.get_define, if_neg (by decide)]
  · exact ((kept_of_std demo_std _).define (by decide)).define (by decide)
  · rw [Env.get_define, if_neg (by decide), Env.get_define, if_neg (by decide)]
    rfl
  · have : ((Demo.env.define c!"$" (.macro_ c!"GLOB" dollarBody)).define c!"CWD" (.str c!"/home")).getCwd = c!"/home" := by
      simp only [Env.getCwd, cwdVar, Env.get_define, if_true]
    rw [this]
    exact Resolved.relative c!"/home" c!"." (by decide) (by decide) (by decide)

/-- Of these names only the first is listed. -/
example : Once c!"txt" c!"./a.txt" ∧ ¬ Once c!"txt" c!"./b.rs" ∧ ¬ Once c!"txt" c!"./txt.txt" := by
  rw [← once_iff (by decide), ← once_iff (by decide), ← once_iff (by decide)]
  decide

/-- the environment of the instances -/
def dollarEnv : Env := (Demo.env.define c!"$" (.macro_ c!"GLOB" dollarBody)).define c!"CWD" (.str c!"/home")

theorem dollarEnv_cwd : Resolved dollarEnv.getCwd c!"." c!"/home/." := by
  have : dollarEnv.getCwd = c!"/home" := by
    rw [dollarEnv, Env.getCwd, Env.get_define, if_pos (by rfl)]
  rw [this]
  exact .relative _ _ (by decide) (by decide) (by decide)

theorem dollarEnv_kept : Kept dollarNames dollarEnv := ((kept_of_std demo_std _).define (by decide)).define (by decide)

theorem dollarEnv_dot : dollarEnv.get c!"." = none := by
  rw [dollarEnv, Env.get_define, if_neg (by decide), Env.get_define, if_neg (by decide)]
  rfl

/-- `$ "*.txt"` finds nothing. -/
example : evalN Demo.plat (listHost demoNames) (stdB Demo.plat Demo.lib) 13 (.apply (.symbol c!"$") [.str c!"*.txt"])
    dollarEnv [] = (.ok (.list []), dollarEnv.define c!"GLOB" (.str c!"*.txt"), [.isDir c!"/home/.", .readDir c!"/home/."]) :=
  C115_pattern_refuted (g := c!"*.txt") (ns := demoNames) (n := 9) (w := []) (env := Demo.env) (by decide)
    (dollar_entered (by decide)) (by rw [dollarEnv, Env.get_define, if_neg (by decide)]) dollarEnv_kept dollarEnv_dot
    (by decide) (fun m k w => by rw [evalD]; rfl) (.inl rfl) (by decide) dollarEnv_cwd ⟨_, rfl, rfl⟩
    (by unfold Name; decide) (by decide)

/-- `$ "txt"` does not find `txt.txt`, which is there. -/
example : c!"txt.txt" ∈ demoNames ∧ ∃ l w1, evalN Demo.plat (listHost demoNames) (stdB Demo.plat Demo.lib) 13
    (.apply (.symbol c!"$") [.str c!"txt"]) dollarEnv [] = (.ok (.list l), dollarEnv.define c!"GLOB" (.str c!"txt"), w1) ∧
    .str c!"./txt.txt" ∉ l := by
  refine ⟨by decide, ?_⟩
  obtain ⟨l, h, h'⟩ := C115_twice_refuted (H := listHost demoNames) (P := Demo.plat) (L := Demo.lib) (m := 13) (w' := [])
    (env2 := dollarEnv) (x := .str c!"txt") (v := .str c!"txt") (g := c!"txt") (ns := demoNames) (n := 9) (w := [])
    (env := Demo.env) (by decide)
    (dollar_entered (by decide)) (by rw [dollarEnv, Env.get_define, if_neg (by decide)]) dollarEnv_kept dollarEnv_dot
    (by decide) (fun m k w => by rw [evalD]; rfl) (.inl rfl) (by decide) dollarEnv_cwd ⟨_, rfl, rfl⟩
    (by unfold Name; decide) [] c!"." []
  exact ⟨l, _, h, h'⟩

/-- Nothing is there. -/
def goneHost : Host Unit where
  io op w :=
    match op with
    | .isDir _ | .isFile _ => (.bool false, w)
    | _ => (.unit, w)

/-- The current directory is gone. -/
example : ∃ msg, evalN Demo.plat goneHost (stdB Demo.plat Demo.lib) 13 (.apply (.symbol c!"$") [.str c!"txt"]) dollarEnv () =
    (.err (.customError msg), dollarEnv.define c!"GLOB" (.str c!"txt"), ()) :=
  C115_fails (n := 9) (w := ()) (env := Demo.env) (by decide) (dollar_entered (by decide))
    (by rw [dollarEnv, Env.get_define, if_neg (by decide)]) dollarEnv_kept dollarEnv_dot
    (by decide) (fun m k w => by rw [evalD]; rfl) dollarEnv_cwd rfl rfl

end Dune.Props
