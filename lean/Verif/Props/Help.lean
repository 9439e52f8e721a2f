import Verif.Model.Help
import Verif.Props.Basics
import Verif.Props.Combinators
import Verif.Props.Program
import Verif.Props.Listing

/-! C124: `help`. -/

namespace Dune.Props

open Spec

/-- The words that stand for a page of the manual. -/
def pageNames : List Str := [c!"me", c!"prelude", c!"types", c!"scripting", c!"builtin", c!"lib", c!"syntax"]

/-- The name of a page of the manual. -/
def PageName (a : Expr) : Prop := ∃ s ∈ pageNames, a = .symbol s

/-- What `help` is expected to show about `a`: the page, the text of the builtin, or nothing. -/
inductive Explained {W : Type} (pages : Str → Str) (ev : Expr → M W Expr) (shown : W → Str) (env : Env) : Expr → Str → Prop
  | page (s : Str) : s ∈ pageNames → Explained pages ev shown env (.symbol s) (pages s ++ c!"\n")
  | builtin {a : Expr} {nm text : Str} {id : BId} : ¬ PageName a → Quiet ev shown env a (.builtin nm id text) →
      Explained pages ev shown env a (text ++ c!"\n")
  | other {a v : Expr} : ¬ PageName a → Quiet ev shown env a v → (∀ nm id text, v ≠ .builtin nm id text) →
      Explained pages ev shown env a []

/-- The command `help` is bound to the builtin with these pages. -/
def HasHelp (L : Lib) (pages : Str → Str) (env : Env) : Prop :=
  ∃ k nm text, L.other k = Builtins.helpB pages ∧ env.get c!"help" = some (.builtin nm (.other k) text)

theorem pageOf_some {a : Expr} {s : Str} (h : Builtins.pageOf a = some s) : a = .symbol s ∧ s ∈ pageNames := by
  unfold Builtins.pageOf at h
  split at h
  · split at h
    · rename_i h'
      obtain rfl := Option.some.inj h
      exact ⟨rfl, by simpa [pageNames] using h'⟩
    · cases h
  · cases h

theorem pageOf_symbol {s : Str} (h : s ∈ pageNames) : Builtins.pageOf (.symbol s) = some s := by
  rw [Builtins.pageOf, if_pos (by simpa [pageNames] using h)]

theorem pageOf_none {a : Expr} (h : ¬ PageName a) : Builtins.pageOf a = none := by
  cases h' : Builtins.pageOf a with
  | none => rfl
  | some s => exact absurd ⟨s, (pageOf_some h').2, (pageOf_some h').1⟩ h

section

variable {W : Type} {P : Plat} {H : Host W} {L : Lib} {n : Nat} {env env1 env2 : Env}
  {w w1 w2 : W} {shown : W → Str} {pages : Str → Str}

theorem run_helpB_step {ev0 : Expr → M W Expr} (hc : Console H shown) {a : Expr} {t : Str}
    (h : Explained pages ev0 shown env a t) (as : List Expr) (w : W) :
    ∃ w', (Builtins.helpB pages (a :: as)).run H ev0 env w = (Builtins.helpB pages as).run H ev0 env w' ∧
      shown w' = shown w ++ t := by
  cases h with
  | page s hs =>
    refine ⟨(H.io (.print (pages s ++ c!"\n")) w).2, ?_, hc.print _ _⟩
    rw [Builtins.helpB, pageOf_symbol hs]
    simp only [BProg.run_bind]
    rw [M.bind_ok (run_out_shown hc _)]
  | builtin hp hq =>
    rename_i nm text id
    obtain ⟨w1, e1, s1⟩ := hq w
    refine ⟨(H.io (.print (text ++ c!"\n")) w1).2, ?_, by rw [hc.print, s1]⟩
    rw [Builtins.helpB, pageOf_none hp]
    simp only [BProg.run_bind, BProg.run_ev]
    rw [M.bind_ok e1]
    simp only [BProg.run_bind]
    rw [M.bind_ok (run_out_shown hc _)]
  | other hp hq hv =>
    rename_i v
    obtain ⟨w1, e1, s1⟩ := hq w
    refine ⟨w1, ?_, by rw [s1, List.append_nil]⟩
    rw [Builtins.helpB, pageOf_none hp]
    simp only [BProg.run_bind, BProg.run_ev]
    rw [M.bind_ok e1]
    cases v <;> first | rfl | exact absurd rfl (hv _ _ _)

theorem run_helpB {ev0 : Expr → M W Expr} (hc : Console H shown) {args : List Expr} {ts : List Str}
    (h : List.Forall₂ (Explained pages ev0 shown env) args ts) (rest : List Expr) :
    ∀ w, ∃ w', (Builtins.helpB pages (args ++ rest)).run H ev0 env w = (Builtins.helpB pages rest).run H ev0 env w' ∧
      shown w' = shown w ++ ts.flatten := by
  induction h with
  | nil => exact fun w => ⟨w, rfl, by simp⟩
  | cons h1 _ ih =>
    intro w
    obtain ⟨w1, e1, s1⟩ := run_helpB_step hc h1 (_ ++ rest) w
    obtain ⟨w2, e2, s2⟩ := ih w1
    exact ⟨w2, by rw [List.cons_append, e1, e2], by rw [s2, s1]; simp⟩

theorem eval_help (hh : HasHelp L pages env) (args : List Expr) :
    evalN P H (stdB P L) (n + 1) (.apply (.symbol c!"help") args) env w =
      (Builtins.helpB pages args).run H (evalN P H (stdB P L) n) env w := by
  obtain ⟨k, nm, text, hk, hg⟩ := hh
  rw [evalN_symbol hg, evalN_builtin]
  show (L.other k args).run H _ env w = _
  rw [hk]

/-- C124.  `help` shows, for its arguments in turn, the page of the manual with that name or the text of the builtin
that the argument gives, and nothing else; it gives `None` and changes no variable. -/
theorem C124_help (hh : HasHelp L pages env) (hc : Console H shown) {args : List Expr} {ts : List Str}
    (h : List.Forall₂ (Explained pages (evalN P H (stdB P L) n) shown env) args ts) :
    ∃ w', evalN P H (stdB P L) (n + 1) (.apply (.symbol c!"help") args) env w = (.ok .none, env, w') ∧
      shown w' = shown w ++ ts.flatten := by
  obtain ⟨w', h1, h2⟩ := run_helpB hc h [] w
  rw [List.append_nil] at h1
  exact ⟨w', by rw [eval_help hh, h1]; rfl, h2⟩

/-- C124.  When an argument fails, what comes before it has been shown, what comes after it is not, and the command
fails in the same way. -/
theorem C124_fails (hh : HasHelp L pages env) (hc : Console H shown) {args rest : List Expr} {ts : List Str} {b : Expr}
    {e : Error} (h : List.Forall₂ (Explained pages (evalN P H (stdB P L) n) shown env) args ts) (hb : ¬ PageName b)
    (he : ∀ w, ∃ w', evalN P H (stdB P L) n b env w = (.err e, env, w') ∧ shown w' = shown w) :
    ∃ w', evalN P H (stdB P L) (n + 1) (.apply (.symbol c!"help") (args ++ b :: rest)) env w = (.err e, env, w') ∧
      shown w' = shown w ++ ts.flatten := by
  obtain ⟨w1, h1, h2⟩ := run_helpB hc h (b :: rest) w
  obtain ⟨w2, e2, s2⟩ := he w1
  refine ⟨w2, ?_, by rw [s2, h2]⟩
  rw [eval_help hh, h1, Builtins.helpB, pageOf_none hb]
  simp only [BProg.run_bind, BProg.run_ev]
  rw [M.bind_err e2]

/-- C124.  A word that is the name of a page always gives the page, whatever the word is bound to. -/
theorem C124_page (hh : HasHelp L pages env) (hc : Console H shown) {s : Str} (hs : s ∈ pageNames) :
    ∃ w', evalN P H (stdB P L) (n + 1) (.apply (.symbol c!"help") [.symbol s]) env w = (.ok .none, env, w') ∧
      shown w' = shown w ++ (pages s ++ c!"\n") := by
  obtain ⟨w', h1, h2⟩ := C124_help (P := P) (n := n) (w := w) hh hc (.cons (.page s hs) .nil)
  exact ⟨w', h1, by simpa using h2⟩

/-- C124, refuted: that a user learns when there is no help.  For a word without a meaning, for a function and for a
macro the command shows nothing and succeeds; so it does without arguments. -/
theorem C124_silent_refuted (hh : HasHelp L pages env) {s : Str} (hs : s ∉ pageNames)
    (hv : env.get s = none ∨ (∃ p body bs ps, env.get s = some (.lambda p body bs ps)) ∨
      ∃ p body, env.get s = some (.macro_ p body)) :
    evalN P H (stdB P L) (n + 1) (.apply (.symbol c!"help") [.symbol s]) env w = (.ok .none, env, w) ∧
      evalN P H (stdB P L) (n + 1) (.apply (.symbol c!"help") []) env w = (.ok .none, env, w) := by
  refine ⟨?_, by rw [eval_help hh]; rfl⟩
  have hp : ¬ PageName (.symbol s) := by
    rintro ⟨t, ht, h⟩
    cases h
    exact hs ht
  rw [eval_help hh, Builtins.helpB, pageOf_none hp]
  simp only [BProg.run_bind, BProg.run_ev]
  rcases hv with h | ⟨p, body, bs, ps, h⟩ | ⟨p, body, h⟩
  · rw [M.bind_ok (evalN_unbound h)]
    rfl
  · rw [M.bind_ok (evalN_sym h)]
    rfl
  · rw [M.bind_ok (evalN_sym h)]
    rfl

/-- C124, refuted: that every function of the library is explained.  About those that take their arguments one by one
nothing is shown, although a text is written for each of them. -/
theorem C124_curried_refuted (hs : Std env) (hh : HasHelp L pages env) {m f : Str}
    (hf : (m, f) ∈ [(c!"list", c!"take"), (c!"list", c!"drop"), (c!"math", c!"rsh"), (c!"math", c!"l-rsh"),
      (c!"math", c!"a-rsh"), (c!"math", c!"log")]) :
    evalN P H (stdB P L) (n + 2) (.apply (.symbol c!"help") [member m f]) env w = (.ok .none, env, w) := by
  have key : ∀ {m f : Str} {tbl : List (Str × Expr)} {g : Expr}, (m, tbl) ∈ Init.modules →
      (f, Builtins.curry2 g) ∈ tbl →
      evalN P H (stdB P L) (n + 2) (.apply (.symbol c!"help") [member m f]) env w = (.ok .none, env, w) := by
    intro m f tbl g hm hf
    have hp : ¬ PageName (member m f) := by
      rintro ⟨t, ht, h⟩
      cases h
    rw [eval_help hh, Builtins.helpB, pageOf_none hp]
    simp only [BProg.run_bind, BProg.run_ev]
    have : evalN P H (stdB P L) (n + 1) (member m f) env w = (.ok (Builtins.curry2 g), env, w) :=
      evalD_mem (k := 799) hs hm hf
    rw [M.bind_ok this]
    rfl
  simp only [List.mem_cons, Prod.mk.injEq, List.not_mem_nil, or_false] at hf
  rcases hf with ⟨rfl, rfl⟩ | ⟨rfl, rfl⟩ | ⟨rfl, rfl⟩ | ⟨rfl, rfl⟩ | ⟨rfl, rfl⟩ | ⟨rfl, rfl⟩
  · exact key (tbl := Init.listM) (by mem_tac) (g := .builtin c!"take" .lTake []) (by mem_tac)
  · exact key (tbl := Init.listM) (by mem_tac) (g := .builtin c!"drop" .lDrop []) (by mem_tac)
  · exact key (tbl := Init.mathM) (by mem_tac) (g := .builtin c!"a-rsh" .mARsh []) (by mem_tac)
  · exact key (tbl := Init.mathM) (by mem_tac) (g := .builtin c!"l-rsh" .mLRsh []) (by mem_tac)
  · exact key (tbl := Init.mathM) (by mem_tac) (g := .builtin c!"a-rsh" .mARsh []) (by mem_tac)
  · exact key (tbl := Init.mathM) (by mem_tac) (g := .builtin c!"log" .mLog []) (by mem_tac)

end

/-! ### Instances: the hypotheses can be met -/

/-- A library whose builtin number 0 is `help`. -/
def helpLib : Lib := { Demo.lib with other := fun _ => Builtins.helpB fun s => c!"page " ++ s }

def helpEnv : Env := Demo.env.define c!"help" (.builtin c!"help" (.other 0) c!"run `help me`")

theorem helpEnv_std : Std helpEnv := std_define demo_std (by decide) (by decide) (by decide)

theorem helpEnv_has : HasHelp helpLib (fun s => c!"page " ++ s) helpEnv :=
  ⟨0, _, _, rfl, by rw [helpEnv, Env.get_define, if_pos rfl]⟩

/-- A world that is the text on the screen. -/
def helpHost : Host Str where
  io op w := match op with
    | .print s => (.unit, w ++ s)
    | _ => (.unit, w)

theorem helpHost_console : Console helpHost id where
  print _ _ := rfl
  open_ _ _ _ := by simp [helpHost]

/-- `help types help nonsense` -/
example : ∃ w', evalN Demo.plat helpHost (stdB Demo.plat helpLib) 5
    (.apply (.symbol c!"help") [.symbol c!"types", .symbol c!"help", .symbol c!"nonsense"]) helpEnv [] =
      (.ok .none, helpEnv, w') ∧ id w' = c!"page types\nrun `help me`\n" := by
  obtain ⟨w', h1, h2⟩ := C124_help (P := Demo.plat) (n := 4) (w := []) helpEnv_has helpHost_console
    (args := [.symbol c!"types", .symbol c!"help", .symbol c!"nonsense"]) (.cons (.page _ (by decide))
      (.cons (.builtin (by rintro ⟨t, ht, h⟩; cases h; revert ht; decide)
        fun w => ⟨w, evalN_sym (by rw [helpEnv, Env.get_define, if_pos rfl]), rfl⟩)
      (.cons (.other (v := .symbol c!"nonsense") (by rintro ⟨t, ht, h⟩; cases h; revert ht; decide)
        (fun w => ⟨w, evalN_unbound rfl, rfl⟩) (by simp)) .nil)))
  exact ⟨w', h1, h2⟩

/-- `help lib`, while `lib` is something else -/
example := C124_page (P := Demo.plat) (n := 4) (w := []) (env := helpEnv) helpEnv_has helpHost_console (s := c!"lib") (by decide)

/-- `help nonsense` -/
example := C124_silent_refuted (P := Demo.plat) (H := helpHost) (n := 4) (w := []) helpEnv_has (s := c!"nonsense")
  (by decide) (.inl rfl)

/-- `help list@take` -/
example := C124_curried_refuted (P := Demo.plat) (H := helpHost) (n := 4) (w := []) helpEnv_std helpEnv_has
  (m := c!"list") (f := c!"take") (by decide)

/-- `help types (for x in 5 { x }) me` -/
example := C124_fails (P := Demo.plat) (n := 4) (w := []) helpEnv_has helpHost_console (args := [.symbol c!"types"])
  (rest := [.symbol c!"me"]) (b := .for_ c!"x" (.int (.lit 5)) (.symbol c!"x")) (e := .forNonList (.int (.lit 5)))
  (.cons (.page _ (by decide)) .nil) (by rintro ⟨t, ht, h⟩; cases h) fun w => ⟨w, rfl, rfl⟩

end Dune.Props
