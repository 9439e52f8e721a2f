import Verif.Props.Program
import Verif.Model.Shell

/-! Functions that users define: whole sessions, and functions that keep the variables of their
definition. -/

namespace Dune.Props

open Spec Spec.Calc Calc

section

variable {W : Type} {P : Plat} {H : Host W} {L : Lib} {Γ : Funs} {shown : W → Str}

theorem runs_text {t : Str} {env : Env} {w : W} {s : State} {src : Str} {ws : List Word} {d n : Nat}
    {p : Block} (hi : InState H P L Γ shown t s env w) (hc : Console H shown) (hw : Words src ws)
    (h : Code Γ .block d ws p) (hd : d ≤ 266) (hn : d ≤ n) :
    Finishes H P L Γ shown t (p.run s) (runText P (evalN P H (stdB P L) (n + 1)) src env w) := by
  obtain ⟨l, hg, hr, _⟩ : ∃ l, _ := code_ok (P := P) (L := L) (t := t) hc h
  have hp : parseText P src = .ok (.do_ l) := C67_grammar hw hg
  have h1 := hr n 801 env w s hn (by omega) (by omega) hi
  have e : runText P (evalN P H (stdB P L) (n + 1)) src env w =
      evalD P H (bodyRun P H (stdB P L) n) 801 (.do_ l) env w := by
    rw [runText, hp]
    show evalN P H (stdB P L) (n + 1) (.do_ l) env w = _
    rw [evalN]
    rfl
  rw [e]
  exact h1

theorem turns_ok {n : Nat} (hc : Console H shown) {t : Str} : ∀ {srcs : List Str} {ps : List Block}
    {env : Env} {w : W} {s : State}, InState H P L Γ shown t s env w →
    List.Forall₂ (fun src p => ∃ ws d, d ≤ 266 ∧ d ≤ n ∧ Words src ws ∧ Code Γ .block d ws p) srcs ps →
    Ans.open_ ∉ (session ps s).1 →
    List.Forall₂ Ends (session ps s).1
        (turns (runText P (evalN P H (stdB P L) (n + 1))) srcs env w).1 ∧
      InState H P L Γ shown t (session ps s).2
        (turns (runText P (evalN P H (stdB P L) (n + 1))) srcs env w).2.1
        (turns (runText P (evalN P H (stdB P L) (n + 1))) srcs env w).2.2
  | _, _, env, w, s, hi, .nil, _ => ⟨.nil, hi⟩
  | _, _, env, w, s, hi, .cons (a := src) (b := p) (l₁ := srcs) (l₂ := ps) ⟨ws, d, hd, hn, hw, h⟩ hr, ho => by
    have h1 := runs_text (P := P) (L := L) hi hc hw h hd hn
    simp only [session, turns] at ho ⊢
    generalize p.run s = r at h1 ho ⊢
    obtain ⟨r, s'⟩ := r
    cases r with
    | ok u =>
      obtain ⟨v, env', w', he, hi'⟩ := h1
      rw [he]
      have := turns_ok (n := n) hc hi' hr (fun h => ho (List.mem_cons_of_mem _ h))
      exact ⟨.cons ⟨v, rfl⟩ this.1, this.2⟩
    | error =>
      obtain ⟨v, env', w', he, hi'⟩ := h1
      rw [he]
      have := turns_ok (n := n) hc hi' hr (fun h => ho (List.mem_cons_of_mem _ h))
      exact ⟨.cons ⟨v, rfl⟩ this.1, this.2⟩
    | crash =>
      obtain ⟨env', w', he, hi'⟩ := h1
      rw [he]
      exact ⟨.cons rfl .nil, hi'⟩
    | open_ => exact absurd (List.mem_singleton_self _) ho

/-- C103: texts that are entered one after the other do what their programs do one after the other:
variables and functions stay from text to text, also when a text fails. -/
theorem C103_session {env : Env} {w : W} {σ : Vars} {srcs : List Str} {ps : List Block} {n : Nat}
    (hs : Std env) (hσ : Tracks env σ) (hf : NoFns σ) (hc : Console H shown)
    (h : List.Forall₂ (fun src p => ∃ ws d, d ≤ 266 ∧ d ≤ n ∧ Words src ws ∧ Code Γ .block d ws p) srcs ps)
    (ho : Ans.open_ ∉ (session ps ⟨σ, []⟩).1) :
    List.Forall₂ Ends (session ps ⟨σ, []⟩).1
        (turns (runText P (evalN P H (stdB P L) (n + 1))) srcs env w).1 ∧
      Tracks (turns (runText P (evalN P H (stdB P L) (n + 1))) srcs env w).2.1 (session ps ⟨σ, []⟩).2.vars ∧
      shown (turns (runText P (evalN P H (stdB P L) (n + 1))) srcs env w).2.2 =
        shown w ++ printed (session ps ⟨σ, []⟩).2.out := by
  have := turns_ok (P := P) (L := L) (n := n) (t := shown w) hc (s := ⟨σ, []⟩) (w := w) (env := env)
    ⟨known_of_tracks hs hσ hf, by simp [printed]⟩ h ho
  exact ⟨this.1, tracks_of_known this.2.known, this.2.out⟩

/-- The text of a program that defines a function of two numbers and calls it. -/
def maxText : Str := c!"let max = x -> y -> if x > y { x } else { y }; println (max a b)"

def maxProgram : Block :=
  .cons (.fn c!"max" [c!"x", c!"y"]
    (.ite (.cmp .gt (.var c!"x") (.var c!"y")) (.ret (.var c!"x")) (.ret (.var c!"y")))) <|
  .cons (.print (.call c!"max" [.var c!"a", .var c!"b"])) .nil

/-- `max` has two parameters. -/
def maxFuns : Funs := fun f => if f = c!"max" then some (2, 2) else none

theorem formula_var {x : Str} (h : x ∉ reserved) (h' : x ≠ c!"CWD") (d : Nat) :
    Formula Γ .sum d [(.symbol, x)] (.var x) := .prod (.atom (.var h h'))

set_option maxRecDepth 100000 in
theorem max_code : ∃ ws, Words maxText ws ∧ Code maxFuns .block 7 ws maxProgram := by
  refine ⟨_, words_of_attach (ts := _) (ds := _) rfl (by simp) rfl rfl rfl, ?_⟩
  have x : ∀ d, Formula maxFuns .sum d [(.symbol, c!"x")] (.var c!"x") := formula_var (by decide) (by decide)
  have y : ∀ d, Formula maxFuns .sum d [(.symbol, c!"y")] (.var c!"y") := formula_var (by decide) (by decide)
  have a : ∀ d, Formula maxFuns .sum d [(.symbol, c!"a")] (.var c!"a") := formula_var (by decide) (by decide)
  have b : ∀ d, Formula maxFuns .sum d [(.symbol, c!"b")] (.var c!"b") := formula_var (by decide) (by decide)
  have c : Formula maxFuns .whole 4 [(.symbol, c!"max"), (.symbol, c!"a"), (.symbol, c!"b")]
      (.call c!"max" [.var c!"a", .var c!"b"]) :=
    .call (d := 2) (n := 2) (by decide) (by decide) rfl (by decide) (.args (a 2) (.arg (b 2)))
  exact Code.simple (.fn (d := 5) (f := c!"max") (p := c!"x") (ps := [c!"y"]) (n := 2) (by decide) (by decide)
      (.ite (.one (.cmp (r := .gt) (x 0) (y 0))) (.ret (.sum (x 1))) (by simp) (.ret (.sum (y 1))) (by simp)) rfl)
    (.last (.print (.prod (.atom (.paren c)))))

/-- The variables `a`, `b` and `c`. -/
def abc (a b c : Int) : Vars := fun x =>
  if x = c!"a" then some (.int a) else if x = c!"b" then some (.int b)
  else if x = c!"c" then some (.int c) else none

theorem abc_tracks {env : Env} {a b c : I64} (ha : env.get c!"a" = some (.int a))
    (hb : env.get c!"b" = some (.int b)) (hc : env.get c!"c" = some (.int c)) :
    Tracks env (abc a.val b.val c.val) := by
  intro x z _ hx
  unfold abc at hx
  split at hx
  · rename_i h; subst h; cases hx; exact ⟨a, rfl, ha⟩
  · split at hx
    · rename_i h; subst h; cases hx; exact ⟨b, rfl, hb⟩
    · split at hx
      · rename_i h; subst h; cases hx; exact ⟨c, rfl, hc⟩
      · cases hx

theorem abc_noFns (a b c : Int) : NoFns (abc a b c) := by
  intro x m F
  unfold abc
  repeat' split
  all_goals simp

/-- C103: for all integers `a` and `b`, a text that defines `max` with two parameters and a conditional,
and calls it, prints the greater of the two. -/
theorem C103_max {env : Env} {w : W} {a b : I64} {n : Nat} (hs : Std env) (hc : Console H shown)
    (ha : env.get c!"a" = some (.int a)) (hb : env.get c!"b" = some (.int b)) (hn : 7 ≤ n) :
    ∃ v env' w', runText P (evalN P H (stdB P L) (n + 1)) maxText env w = (.ok v, env', w') ∧
      shown w' = shown w ++ ((toString (max a.val b.val)).toList ++ c!"\n") := by
  obtain ⟨ws, hw, h⟩ := max_code
  let σ : Vars := fun x => if x = c!"a" then some (.int a.val) else if x = c!"b" then some (.int b.val) else none
  have hσ : Tracks env σ := by
    intro x z _ hx
    simp only [σ] at hx
    split at hx
    · rename_i h; subst h; cases hx; exact ⟨a, rfl, ha⟩
    · split at hx
      · rename_i h; subst h; cases hx; exact ⟨b, rfl, hb⟩
      · cases hx
  have hf : NoFns σ := by
    intro x m F
    simp only [σ]
    repeat' split
    all_goals simp
  have hr : ∃ σ', maxProgram.run ⟨σ, []⟩ = (.ok (), ⟨σ', [max a.val b.val]⟩) := by
    refine ⟨(maxProgram.run ⟨σ, []⟩).2.vars, ?_⟩
    by_cases hab : a.val > b.val
    · simp [maxProgram, Block.run, Stmt.run, Arith.eval, Arith.evals, Ans.bind, Vars.set, Vars.bind, Fn.eval,
        Cond.eval, Rel.holds, σ, hab, max_def]
    · simp [maxProgram, Block.run, Stmt.run, Arith.eval, Arith.evals, Ans.bind, Vars.set, Vars.bind, Fn.eval,
        Cond.eval, Rel.holds, σ, hab, max_def]
  obtain ⟨σ', hr⟩ := hr
  have h1 := runs_text (P := P) (L := L) (w := w) (env := env) (s := ⟨σ, []⟩) (t := shown w) (n := n)
    (.mk (known_of_tracks hs hσ hf) (by simp [printed])) hc hw h (by decide) hn
  rw [hr] at h1
  obtain ⟨v, env', w', he, hi⟩ := h1
  refine ⟨v, env', w', he, ?_⟩
  rw [hi.out]
  simp [printed]

/-- The text of a program that changes a variable after a function was defined with it. -/
def scopeText : Str := c!"let k = a; let f = x -> x + k; let k = b; println (f c); println k"

def scopeProgram : Block :=
  .cons (.set c!"k" (.var c!"a")) <|
  .cons (.fn c!"f" [c!"x"] (.ret (.bin .add (.var c!"x") (.var c!"k")))) <|
  .cons (.set c!"k" (.var c!"b")) <|
  .cons (.print (.call c!"f" [.var c!"c"])) <|
  .cons (.print (.var c!"k")) .nil

def scopeFuns : Funs := fun f => if f = c!"f" then some (1, 1) else none

set_option maxRecDepth 100000 in
theorem scope_code : ∃ ws, Words scopeText ws ∧ Code scopeFuns .block 7 ws scopeProgram := by
  refine ⟨_, words_of_attach (ts := _) (ds := _) rfl (by simp) rfl rfl rfl, ?_⟩
  have v : ∀ x, x ∉ reserved → x ≠ c!"CWD" → ∀ d, Formula scopeFuns .sum d [(.symbol, x)] (.var x) :=
    fun _ h h' => formula_var h h'
  have c : Formula scopeFuns .whole 4 [(.symbol, c!"f"), (.symbol, c!"c")] (.call c!"f" [.var c!"c"]) :=
    .call (d := 3) (n := 1) (by decide) (by decide) rfl (by decide)
      (.arg (v c!"c" (by decide) (by decide) 3))
  exact Code.simple (.set (d := 5) (x := c!"k") (by decide) (.sum (v c!"a" (by decide) (by decide) 5))) <|
    .simple (.fn (d := 5) (f := c!"f") (p := c!"x") (ps := []) (n := 1) (by decide) (by decide)
      (.ret (.sum (.add (o := .add) (v c!"x" (by decide) (by decide) 0) (by simp)
        (.atom (.var (x := c!"k") (by decide) (by decide)))))) rfl) <|
    .simple (.set (d := 5) (x := c!"k") (by decide) (.sum (v c!"b" (by decide) (by decide) 5))) <|
    .simple (.print (.prod (.atom (.paren c)))) <|
    .last (.print (v c!"k" (by decide) (by decide) 5))

/-- C103: a function keeps the variables of its definition: for all integers `a`, `b` and `c`, `f` adds
the `a` that `k` was when `f` was defined, although `k` is `b` when `f` is called. -/
theorem C103_scope {env : Env} {w : W} {a b c : I64} {n : Nat} (hs : Std env) (hcon : Console H shown)
    (ha : env.get c!"a" = some (.int a)) (hb : env.get c!"b" = some (.int b))
    (hc : env.get c!"c" = some (.int c)) (hfit : Small (c.val + a.val)) (hn : 7 ≤ n) :
    ∃ v env' w', runText P (evalN P H (stdB P L) (n + 1)) scopeText env w = (.ok v, env', w') ∧
      shown w' = shown w ++ ((toString (c.val + a.val)).toList ++ c!"\n" ++
        (toString b.val).toList ++ c!"\n") := by
  obtain ⟨ws, hw, h⟩ := scope_code
  have hr : ∃ σ', scopeProgram.run ⟨abc a.val b.val c.val, []⟩ = (.ok (), ⟨σ', [c.val + a.val, b.val]⟩) := by
    refine ⟨(scopeProgram.run ⟨abc a.val b.val c.val, []⟩).2.vars, ?_⟩
    simp [scopeProgram, Block.run, Stmt.run, Arith.eval, Arith.evals, Ans.bind, Vars.set, Vars.bind, Fn.eval,
      abc, Op.apply, exact, hfit]
  obtain ⟨σ', hr⟩ := hr
  have h1 := runs_text (P := P) (L := L) (w := w) (env := env) (shown := shown) (s := ⟨abc a.val b.val c.val, []⟩) (t := shown w) (n := n)
    ⟨known_of_tracks hs (abc_tracks ha hb hc) (abc_noFns _ _ _), by simp [printed]⟩ hcon hw h (by decide) hn
  rw [hr] at h1
  obtain ⟨v, env', w', he, hi⟩ := h1
  refine ⟨v, env', w', he, ?_⟩
  rw [hi.out]
  simp [printed]

/-- there are such environments, for all numbers -/
example (a b c : I64) :
    let env := ((Demo.env.define c!"a" (.int a)).define c!"b" (.int b)).define c!"c" (.int c)
    Std env ∧ env.get c!"a" = some (.int a) ∧ env.get c!"b" = some (.int b) ∧
      env.get c!"c" = some (.int c) :=
  ⟨std_define (std_define (std_define demo_std (by decide) (by decide) (by decide))
      (by decide) (by decide) (by decide)) (by decide) (by decide) (by decide),
    by simp [Env.get_define], by simp [Env.get_define], by simp [Env.get_define]⟩

/-- A session of three texts: the second fails. -/
def demoTexts : List Str :=
  [c!"let sq = x -> x * x; let n = 5", c!"println 1 // 0; let n = 7", c!"println (sq n)"]

def demoSession : List Block :=
  [.cons (.fn c!"sq" [c!"x"] (.ret (.bin .mul (.var c!"x") (.var c!"x")))) (.cons (.set c!"n" (.lit 5)) .nil),
   .cons (.print (.bin .div (.lit 1) (.lit 0))) (.cons (.set c!"n" (.lit 7)) .nil),
   .cons (.print (.call c!"sq" [.var c!"n"])) .nil]

example : (session demoSession ⟨fun _ => none, []⟩).1 = [.ok (), .error, .ok ()] ∧
    (session demoSession ⟨fun _ => none, []⟩).2.out = [25] := by
  simp [demoSession, session, Block.run, Stmt.run, Arith.eval, Arith.evals, Ans.bind, Vars.set, Vars.bind, Fn.eval,
    Op.apply, exact, Small]

set_option maxRecDepth 100000 in
example : List.Forall₂ (fun src p => ∃ ws d, d ≤ 266 ∧ d ≤ 266 ∧ Words src ws ∧
    Code (fun f => if f = c!"sq" then some (1, 1) else none) .block d ws p) demoTexts demoSession := by
  have lit : ∀ (t : Str) (i : I64), parseI64 t = some i → ∀ d,
      Formula (fun f => if f = c!"sq" then some (1, 1) else none) .atom d [(.integerLiteral, t)] (.lit i.val) :=
    fun _ _ h _ => .lit h
  have v : ∀ x, x ∉ reserved → x ≠ c!"CWD" → ∀ d,
      Formula (fun f => if f = c!"sq" then some (1, 1) else none) .atom d [(.symbol, x)] (.var x) :=
    fun _ h h' _ => .var h h'
  refine .cons ⟨_, 7, by decide, by decide, words_of_attach (ts := _) (ds := _) rfl (by simp) rfl rfl rfl, ?_⟩ <|
    .cons ⟨_, 7, by decide, by decide, words_of_attach (ts := _) (ds := _) rfl (by simp) rfl rfl rfl, ?_⟩ <|
    .cons ⟨_, 7, by decide, by decide, words_of_attach (ts := _) (ds := _) rfl (by simp) rfl rfl rfl, ?_⟩ .nil
  · exact Code.simple (.fn (d := 5) (f := c!"sq") (p := c!"x") (ps := []) (n := 1) (by decide) (by decide)
      (.ret (.sum (.prod (.mul (o := .mul) (.atom (v c!"x" (by decide) (by decide) 0)) (by simp)
        (v c!"x" (by decide) (by decide) 0))))) rfl)
      (.last (.set (x := c!"n") (by decide)
        (.sum (.prod (.atom (lit c!"5" ⟨5, by decide, by decide⟩ (by decide +kernel) 5))))))
  · exact Code.simple (.print (.prod (.mul (o := .div)
        (.atom (lit c!"1" ⟨1, by decide, by decide⟩ (by decide +kernel) 4)) (by simp)
        (lit c!"0" ⟨0, by decide, by decide⟩ (by decide +kernel) 4))))
      (.last (.set (x := c!"n") (by decide)
        (.sum (.prod (.atom (lit c!"7" ⟨7, by decide, by decide⟩ (by decide +kernel) 5))))))
  · have c : Formula (fun f => if f = c!"sq" then some (1, 1) else none) .whole 4
        [(.symbol, c!"sq"), (.symbol, c!"n")] (.call c!"sq" [.var c!"n"]) :=
      .call (d := 3) (n := 1) (by decide) (by decide) rfl (by decide)
        (.arg (.prod (.atom (v c!"n" (by decide) (by decide) 3))))
    exact Code.last (.print (.prod (.atom (.paren c))))

end

/-! ### Instances: the hypotheses can be met -/

example := C103_max (P := Demo.plat) (L := Demo.lib) (n := 7) (w := []) (a := .lit 3) (b := .lit 5)
  (env := (Demo.env.define c!"a" (.int (.lit 3))).define c!"b" (.int (.lit 5)))
  (std_define (std_define demo_std (by decide) (by decide) (by decide)) (by decide) (by decide) (by decide))
  demo_console (by simp [Env.get_define]) (by simp [Env.get_define]) (by decide)

end Dune.Props
