import Verif.Props.Willing
import Verif.Props.Sys

/-! C113: `fs@glob`. -/

namespace Dune.Props

open Spec

/-! ### Specification -/

/-- A name in a path; `..` is allowed. -/
def Part (n : Str) : Prop := n ≠ [] ∧ '/' ∉ n ∧ n ≠ c!"."

/-- How a match is shown in the current directory: without the path of the directory if it is below it,
and otherwise as it is. -/
inductive Shortened : Str → Str → Str → Prop
  | below {ds qs : List Str} : (∀ n ∈ ds, Name n) → (∀ n ∈ qs, Part n) →
      Shortened (render ds) (render (ds ++ qs)) (render qs).tail
  | elsewhere {ds ps : List Str} : (∀ n ∈ ds, Name n) → (∀ n ∈ ps, Part n) → ¬ ds <+: ps →
      Shortened (render ds) (render ps) (render ps)
  | relative {ds : List Str} {p : Str} : (∀ n ∈ ds, Name n) → p.head? ≠ some '/' → Shortened (render ds) p p

/-- A system in which the process is in the directory `dir`, and in which a pattern has the matches `find`, which
depend on the directory of the process. -/
structure Located {W : Type} (H : Host W) (dir : W → List Str) (find : W → List Str → Str → List Str) : Prop where
  glob : ∀ pat w, H.io (.glob pat) w = (.strs (find w (dir w) pat), w)
  enter : ∀ ns w, (∀ n ∈ ns, Name n) → ∃ w', H.io (.setCurrentDir (render ns)) w = (.unit, w') ∧ dir w' = ns

/-! ### Proofs -/

theorem Name.part {n : Str} (h : Name n) : Part n := ⟨h.1, h.2.1, h.2.2.1⟩

theorem not_blank {n : Str} (h : Part n) : Builtins.blankName n = false := by
  simp [Builtins.blankName, h.1, h.2.2]

theorem dropBlank {ps : List Str} (h : ∀ n ∈ ps, Part n) : ps.dropWhile Builtins.blankName = ps := by
  cases ps with
  | nil => rfl
  | cons n ps => rw [List.dropWhile_cons_of_neg (by simp [not_blank (h n (by simp))])]

theorem strip_append {ds qs : List Str} (h : ∀ n ∈ ds, Part n) :
    Builtins.stripNames ds (ds ++ qs) = some qs := by
  induction ds with
  | nil => rfl
  | cons n ds ih =>
    rw [List.cons_append, Builtins.stripNames, List.dropWhile_cons_of_neg (by simp [not_blank (h n (by simp))])]
    simp only [if_true]
    exact ih fun x hx => h x (List.mem_cons_of_mem _ hx)

theorem strip_other {ds : List Str} : ∀ {ps : List Str}, (∀ n ∈ ps, Part n) → ¬ ds <+: ps →
    Builtins.stripNames ds ps = none := by
  induction ds with
  | nil => intro ps _ h; exact absurd (List.nil_prefix) h
  | cons n ds ih =>
    intro ps hp h
    rw [Builtins.stripNames, dropBlank hp]
    cases ps with
    | nil => rfl
    | cons m ps =>
      simp only
      split
      · rename_i hm
        subst hm
        refine ih (fun x hx => hp x (List.mem_cons_of_mem _ hx)) fun hc => h ?_
        exact List.cons_prefix_cons.mpr ⟨rfl, hc⟩
      · rfl

theorem join_tail : ∀ qs : List Str, joinStr c!"/" qs = (render qs).tail
  | [] => rfl
  | [n] => by simp [joinStr, render]
  | n :: m :: qs => by
    have := join_tail (m :: qs)
    rw [joinStr, this]
    simp [render]

theorem rest_names {qs : List Str} (h : ∀ n ∈ qs, Part n) : Builtins.restPath qs = (render qs).tail := by
  rw [Builtins.restPath, dropBlank h, dropBlank (by simpa using h), List.reverse_reverse, join_tail]

theorem cut_parts {p : List Str} (h : ∀ n ∈ p, Part n) :
    Cut c!"/" (render p) ([] :: if p = [] then [[]] else p) := by
  have key : ∀ {p : List Str} {n : Str}, Part n → (∀ n ∈ p, Part n) →
      Cut c!"/" (n ++ p.flatMap ('/' :: ·)) (n :: p) := by
    intro p
    induction p with
    | nil =>
      intro n hn _
      simp only [List.flatMap_nil, List.append_nil]
      refine .last ?_
      rintro ⟨a, b, h⟩
      exact hn.2.1 (by simp [h])
    | cons m p ih =>
      intro n hn hp
      have := ih (hp m (by simp)) fun x hx => hp x (List.mem_cons_of_mem _ hx)
      have h2 : ¬ Occurs c!"/" (n ++ (c!"/").dropLast) := by
        rintro ⟨a, b, h⟩
        have : '/' ∈ n ++ (c!"/").dropLast := by rw [h]; simp
        exact hn.2.1 (by simpa using this)
      have := Cut.cut h2 this
      simpa using this
  cases p with
  | nil => exact cut_names (p := []) (by simp)
  | cons n p =>
    have h := Cut.cut (sep := c!"/") (p := []) (by
      rintro ⟨a, b, h⟩
      simp at h) (key (h n (by simp)) fun x hx => h x (List.mem_cons_of_mem _ hx))
    simpa [render] using h

theorem split_render {p : List Str} (hp : ∀ n ∈ p, Part n) :
    splitStr c!"/" (render p) = [] :: if p = [] then [[]] else p := by
  exact (cut_splitStr (sep := c!"/") (by simp) (render p)).unique (by simp) (cut_parts hp)

theorem render_slash (p : List Str) : ∃ t, render p = '/' :: t := by
  cases p with
  | nil => exact ⟨[], rfl⟩
  | cons n p => exact ⟨_, render_cons n p⟩

theorem strip_render {ds ps : List Str} (hd : ∀ n ∈ ds, Name n) (hp : ∀ n ∈ ps, Part n) :
    Builtins.pathStrip (render ds) (render ps) =
      (Builtins.stripNames ds (if ps = [] then [[]] else ps)).map Builtins.restPath := by
  have h1 : (splitStr c!"/" (render ps)).drop 1 = if ps = [] then [[]] else ps := by
    rw [split_render hp]
    rfl
  rw [Builtins.pathStrip.eq_def, components_render hd, ← h1]
  obtain ⟨t, ht⟩ := render_slash ps
  rw [ht]
  rfl

theorem shortened_eq {cwd p s : Str} (h : Shortened cwd p s) : (Builtins.pathStrip cwd p).getD p = s := by
  cases h with
  | @below ds qs hd hq =>
    rw [strip_render hd fun n hn => (List.mem_append.mp hn).elim (fun h => (hd n h).part) (hq n)]
    by_cases h0 : ds ++ qs = []
    · obtain ⟨rfl, rfl⟩ := List.append_eq_nil_iff.mp h0
      rfl
    · rw [if_neg h0, strip_append fun n hn => (hd n hn).part]
      simp only [Option.map_some, Option.getD_some]
      exact rest_names hq
  | elsewhere hd hp hn =>
    rw [strip_render hd hp]
    split
    · rename_i h0
      subst h0
      cases hds : ‹List Str› with
      | nil => exact absurd (by rw [hds]) hn
      | cons n ds =>
        rw [show Builtins.stripNames (n :: ds) [[]] = none from rfl]
        rfl
    · rw [strip_other hp hn]
      rfl
  | relative hd hp =>
    rw [Builtins.pathStrip.eq_def, components_render hd]
    cases p with
    | nil => rfl
    | cons c t =>
      have hc : c ≠ '/' := fun h => hp (by rw [h]; rfl)
      split
      · simp_all
      · rfl
      · simp_all
      · simp_all
      · simp_all

theorem shortened_map {cwd : Str} {ps ss : List Str} (h : List.Forall₂ (Shortened cwd) ps ss) :
    (ps.map fun p => Expr.str ((Builtins.pathStrip cwd p).getD p)) = ss.map .str := by
  induction h with
  | nil => rfl
  | cons h _ ih => rw [List.map_cons, List.map_cons, ih, shortened_eq h]

section

variable {W : Type} {P : Plat} {H : Host W} {L : Lib} {n : Nat} {env env1 env2 : Env} {w w1 w2 : W}

/-- C113.  `fs@glob` asks the system once, for the text of its argument as it is, and gives all matches, in the
order of the system, without the path of the current directory before those that are below it. -/
theorem C113_glob (hs : Std env) {a v : Expr} {ps ss : List Str}
    (ha : evalN P H (stdB P L) n a env w = (.ok v, env1, w1))
    (hg : H.io (.glob (display P v)) w1 = (.strs ps, w2)) (hp : List.Forall₂ (Shortened env.getCwd) ps ss) :
    evalN P H (stdB P L) (n + 1) (call c!"fs" c!"glob" [a]) env w = (.ok (.list (ss.map .str)), env1, w2) := by
  rw [← shortened_map hp]
  lib hs, Init.fsM
  brun [Builtins.globB, ha, hg]

/-- C113.  A match that cannot be read makes the call fail; the others are lost. -/
theorem C113_unreadable (hs : Std env) {a v : Expr} {e : IOErr}
    (ha : evalN P H (stdB P L) n a env w = (.ok v, env1, w1))
    (hg : H.io (.glob (display P v)) w1 = (.err e, w2)) :
    ∃ m, evalN P H (stdB P L) (n + 1) (call c!"fs" c!"glob" [a]) env w = (.err (.customError m), env1, w2) := by
  refine ⟨c!"could not glob pattern " ++ display P v, ?_⟩
  lib hs, Init.fsM
  brun [Builtins.globB, ha, hg]

/-- C113.  An invalid pattern (the system answers neither with paths nor with an error) ends the shell. -/
theorem C113_invalid_refuted (hs : Std env) {a v : Expr} {r : IORes}
    (ha : evalN P H (stdB P L) n a env w = (.ok v, env1, w1))
    (hg : H.io (.glob (display P v)) w1 = (r, w2)) (h1 : ∀ ps, r ≠ .strs ps) (h2 : ∀ e, r ≠ .err e) :
    (evalN P H (stdB P L) (n + 1) (call c!"fs" c!"glob" [a]) env w).1 = .panic := by
  lib hs, Init.fsM
  brun [Builtins.globB, ha, hg]

variable {dir : W → List Str} {find : W → List Str → Str → List Str}

/-- C113.  Matches of a relative pattern are those in the directory of the process, whatever the variable `CWD` is. -/
theorem C113_process_directory (hs : Std env) (hL : Located H dir find) {pat : Str} {ds : List Str}
    (hd : env.getCwd = render ds) (hn : ∀ n ∈ ds, Name n) (hr : ∀ p ∈ find w (dir w) pat, p.head? ≠ some '/') :
    evalN P H (stdB P L) (n + 1) (call c!"fs" c!"glob" [.str pat]) env w =
      (.ok (.list ((find w (dir w) pat).map .str)), env, w) := by
  refine C113_glob hs (evalN_str ..) (v := .str pat) (hL.glob pat _) ?_
  rw [hd]
  generalize find w (dir w) pat = ps at hr
  induction ps with
  | nil => exact .nil
  | cons p ps ih => exact .cons (.relative hn (hr p (by simp))) (ih fun q hq => hr q (List.mem_cons_of_mem _ hq))

/-- C113.  After `cd`, `fs@glob` finds what is in the directory entered. -/
theorem C113_cd (hs : Std env) (hL : Located H dir find) {p p' pat : Str} {ns : List Str}
    (hp : Resolved env.getCwd p p') (hn : ∀ n ∈ ns, Name n) (h1 : H.io (.canonicalize p') w = (.str (render ns), w1))
    (hr : ∀ w' q, q ∈ find w' ns pat → q.head? ≠ some '/') :
    ∃ env' w', evalN P H (stdB P L) (n + 2) (.apply (.symbol c!"cd") [.str p]) env w = (.ok .none, env', w') ∧
      evalN P H (stdB P L) (n + 1) (call c!"fs" c!"glob" [.str pat]) env' w' =
        (.ok (.list ((find w' ns pat).map .str)), env', w') := by
  obtain ⟨w', h2, h3⟩ := hL.enter ns w1 hn
  refine ⟨env.define c!"CWD" (.str (render ns)), w', ?_, ?_⟩
  · rw [eval_top hs (nm := c!"cd") (id := .cd) (hlp := []) (by mem_tac)]
    brun [Builtins.cdB, Builtins.strOrSym, M.getEnv, M.io, hp.join, h1, h2]
    rfl
  · have := C113_process_directory (P := P) (L := L) (n := n) (w := w') (pat := pat) (std_cwd hs (.str (render ns))) hL
      (ds := ns) (by rw [Env.getCwd, show cwdVar = c!"CWD" from rfl, Env.get_define, if_pos rfl]) hn
      (by rw [h3]; exact hr w')
    rwa [h3] at this

/-- C113.  Contrary to what a user expects, after `sys@cd` the current directory is another one, but `fs@glob` still
finds what is in the old one. -/
theorem C113_sys_cd_refuted (hs : Std env) (hL : Located H dir find) {p p' pat : Str} {ns : List Str}
    (hp : Resolved env.getCwd p p') (hn : ∀ n ∈ ns, Name n) (h1 : H.io (.canonicalize p') w = (.str (render ns), w))
    (hr : ∀ q ∈ find w (dir w) pat, q.head? ≠ some '/') :
    ∃ env', evalN P H (stdB P L) (n + 1) (call c!"sys" c!"cd" [.str p]) env w = (.ok .none, env', w) ∧
      env'.getCwd = render ns ∧
      evalN P H (stdB P L) (n + 1) (call c!"fs" c!"glob" [.str pat]) env' w =
        (.ok (.list ((find w (dir w) pat).map .str)), env', w) := by
  have hc : (env.define c!"CWD" (.str (render ns))).getCwd = render ns := by
    rw [Env.getCwd, show cwdVar = c!"CWD" from rfl, Env.get_define, if_pos rfl]
  refine ⟨env.define c!"CWD" (.str (render ns)), ?_, hc, ?_⟩
  · have hd : display P (.str p) = p := rfl
    lib hs, Init.sysM
    brun [Builtins.sysCdB, Builtins.pathArg, evalN_str, hd, hp.join, h1]
    rfl
  · exact C113_process_directory (std_cwd hs _) hL hc hn hr

end

/-! ### Instances -/

/-- A system with the directories `/a`, with the files x and y, and `/b`, with the file z, in which only the patterns
`*`, `/a/*` and `***` are asked for. -/
def globHost : Host (List Str) where
  io
    | .glob pat, w =>
      if pat = c!"***" then (.unit, w)
      else if pat = c!"/a/*" then (.strs [c!"/a/x", c!"/a/y"], w)
      else if w = [c!"a"] then (.strs [c!"x", c!"y"], w)
      else (.strs [c!"z"], w)
    | .canonicalize p, w => (.str p, w)
    | .setCurrentDir p, _ => (.unit, parts p)
    | _, w => (.unit, w)

/-- The matches of `*` in this system. -/
def globFind (_ : List Str) (dir : List Str) (_ : Str) : List Str :=
  if dir = [c!"a"] then [c!"x", c!"y"] else [c!"z"]

/-- The same system, in which all patterns are taken for `*`. -/
def starHost : Host (List Str) where
  io
    | .glob _, w => (.strs (globFind w w []), w)
    | op, w => globHost.io op w

theorem starHost_located : Located starHost id globFind where
  glob _ _ := rfl
  enter ns w hn := ⟨ns, by
    show (IORes.unit, parts (render ns)) = _
    rw [parts, components_render hn], rfl⟩

theorem name_a : Name c!"a" := by simp [Name]
theorem name_b : Name c!"b" := by simp [Name]

/-- `fs@glob "/a/*"` in `/a`: the names; in `/b`: the full paths -/
example : evalN Demo.plat globHost (stdB Demo.plat Demo.lib) 1 (call c!"fs" c!"glob" [.str c!"/a/*"])
    (Demo.env.define c!"CWD" (.str c!"/a")) [] =
    (.ok (.list [.str c!"x", .str c!"y"]), Demo.env.define c!"CWD" (.str c!"/a"), []) :=
  C113_glob (n := 0) (ps := [c!"/a/x", c!"/a/y"]) (ss := [c!"x", c!"y"]) (std_cwd demo_std _) (v := .str c!"/a/*")
    (evalN_str ..) rfl
    (.cons (.below (ds := [c!"a"]) (qs := [c!"x"]) (by simp [Name]) (by simp [Part]))
      (.cons (.below (ds := [c!"a"]) (qs := [c!"y"]) (by simp [Name]) (by simp [Part])) .nil))

example : evalN Demo.plat globHost (stdB Demo.plat Demo.lib) 1 (call c!"fs" c!"glob" [.str c!"/a/*"])
    (Demo.env.define c!"CWD" (.str c!"/b")) [] =
    (.ok (.list [.str c!"/a/x", .str c!"/a/y"]), Demo.env.define c!"CWD" (.str c!"/b"), []) :=
  C113_glob (n := 0) (ps := [c!"/a/x", c!"/a/y"]) (ss := [c!"/a/x", c!"/a/y"]) (std_cwd demo_std _)
    (v := .str c!"/a/*") (evalN_str ..) rfl
    (.cons (.elsewhere (ds := [c!"b"]) (ps := [c!"a", c!"x"]) (by simp [Name]) (by simp [Part]) (by simp))
      (.cons (.elsewhere (ds := [c!"b"]) (ps := [c!"a", c!"y"]) (by simp [Name]) (by simp [Part]) (by simp)) .nil))

example : (evalN Demo.plat globHost (stdB Demo.plat Demo.lib) 1 (call c!"fs" c!"glob" [.str c!"***"]) Demo.env []).1 =
    .panic :=
  C113_invalid_refuted (n := 0) (r := .unit) demo_std (v := .str c!"***") (evalN_str ..) rfl (by simp) (by simp)

example : ∃ m, evalN Demo.plat (⟨fun _ w => (.err .permissionDenied, w)⟩ : Host Nat) (stdB Demo.plat Demo.lib) 1
    (call c!"fs" c!"glob" [.str c!"/root/*"]) Demo.env 0 = (.err (.customError m), Demo.env, 0) :=
  C113_unreadable (n := 0) demo_std (v := .str c!"/root/*") (evalN_str ..) rfl

/-- `cd "/b"`, `fs@glob "*"` from `/a` -/
example : ∃ env' w', evalN Demo.plat starHost (stdB Demo.plat Demo.lib) 2 (.apply (.symbol c!"cd") [.str c!"/b"])
      Demo.env [c!"a"] = (.ok .none, env', w') ∧
    evalN Demo.plat starHost (stdB Demo.plat Demo.lib) 1 (call c!"fs" c!"glob" [.str c!"*"]) env' w' =
      (.ok (.list [.str c!"z"]), env', w') :=
  C113_cd (n := 0) (ns := [c!"b"]) demo_std starHost_located (.absolute _ _) (by simp [Name]) rfl (by
    intro w' q hq
    have : q = c!"z" := by simpa [globFind] using hq
    simp [this])

/-- `sys@cd "/b"`, `fs@glob "*"` from `/a` -/
example : ∃ env', evalN Demo.plat starHost (stdB Demo.plat Demo.lib) 1 (call c!"sys" c!"cd" [.str c!"/b"])
      Demo.env [c!"a"] = (.ok .none, env', [c!"a"]) ∧ env'.getCwd = c!"/b" ∧
    evalN Demo.plat starHost (stdB Demo.plat Demo.lib) 1 (call c!"fs" c!"glob" [.str c!"*"]) env' [c!"a"] =
      (.ok (.list [.str c!"x", .str c!"y"]), env', [c!"a"]) :=
  C113_sys_cd_refuted (n := 0) (ns := [c!"b"]) demo_std starHost_located (.absolute _ _) (by simp [Name]) rfl (by
    intro q hq
    have : q = c!"x" ∨ q = c!"y" := by simpa [globFind] using hq
    rcases this with rfl | rfl <;> simp)

end Dune.Props
