import Verif.Proof.Program
import Verif.Props.Grammar
import Mathlib.Tactic.Ring

/-! Whole programs, from the text to what they print. -/

namespace Dune.Props

open Spec Spec.Calc Calc

section

variable {W : Type} {P : Plat} {H : Host W} {L : Lib} {Γ : Funs} {shown : W → Str}

theorem tracks_of_known {env : Env} {σ : Vars} (h : ∀ x, Known H P L Γ env σ x) : Tracks env σ := by
  intro x z hx hz
  have := (h x hx).2
  rwa [hz] at this

theorem known_of_tracks {env : Env} {σ : Vars} (hs : Std env) (hσ : Tracks env σ) (hf : NoFns σ)
    (x : Str) : Known H P L Γ env σ x := by
  refine fun hx => ⟨tool_of_std hs x, ?_⟩
  split
  · trivial
  · rename_i z hz
    exact hσ x z hx hz
  · rename_i m F hz
    exact absurd hz (hf x m F)

theorem ended_of_finishes {t : Str} {r : Ans Unit × State} {res : Outcome Expr × Env × W}
    (h : Finishes H P L Γ shown t r res) : Ended shown t r res := by
  obtain ⟨r, s⟩ := r
  cases r with
  | ok u =>
    obtain ⟨v, env', w', rfl, hi⟩ := h
    exact ⟨⟨v, rfl⟩, tracks_of_known hi.known, hi.out⟩
  | error =>
    obtain ⟨msg, env', w', rfl, hi⟩ := h
    exact ⟨⟨msg, rfl⟩, tracks_of_known hi.known, hi.out⟩
  | crash =>
    obtain ⟨env', w', rfl, hi⟩ := h
    exact ⟨rfl, tracks_of_known hi.known, hi.out⟩
  | open_ => exact ⟨trivial, trivial⟩

/-- C91: a text that writes down a program of assignments, functions, conditionals, counting loops and
`println` is read, and the shell does what the program says: it prints these numbers line by line, leaves these
variables, and ends with success, an error message or a crash as the program says. -/
theorem C91_program {env : Env} {w : W} {σ : Vars} {src : Str} {ws : List Word} {d n : Nat} {p : Block}
    (hs : Std env) (hσ : Tracks env σ) (hf : NoFns σ) (hc : Console H shown) (hw : Words src ws)
    (h : Code Γ .block d ws p) (hd : d ≤ 266) (hn : d ≤ n) :
    ∃ e, parseText P src = .ok e ∧
      Ended shown (shown w) (p.run ⟨σ, []⟩) (evalN P H (stdB P L) (n + 1) e env w) := by
  obtain ⟨l, hg, hr, _⟩ : ∃ l, _ := code_ok (P := P) (L := L) (t := shown w) hc h
  refine ⟨.do_ l, C67_grammar hw hg, ?_⟩
  have h1 := hr n 801 env w ⟨σ, []⟩ hn (by omega) (by omega)
    ⟨known_of_tracks hs hσ hf, by simp [printed]⟩
  have e : evalN P H (stdB P L) (n + 1) (.do_ l) env w =
      evalD P H (bodyRun P H (stdB P L) n) 801 (.do_ l) env w := by rw [evalN]; rfl
  rw [e]
  exact ended_of_finishes h1

/-- C91: a text that is a formula has the value of the formula, exactly; where that does not fit into
64 bits, or a divisor is zero, it is an error (or a crash). Nothing is set or printed. -/
theorem C91_formula {env : Env} {w : W} {σ : Vars} {src : Str} {ws : List Word} {d n : Nat} {a : Arith}
    (hs : Std env) (hσ : Tracks env σ) (hf : NoFns σ) (hw : Words src ws)
    (h : Formula Γ .whole d ws a) (hd : d ≤ 265) (hn : d ≤ n) :
    ∃ e, parseText P src = .ok e ∧
      match a.eval σ with
      | .ok z => ∃ i : I64, i.val = z ∧ evalN P H (stdB P L) (n + 1) e env w = (.ok (.int i), env, w)
      | .error => ∃ msg, evalN P H (stdB P L) (n + 1) e env w = (.err (.customError msg), env, w)
      | .crash => evalN P H (stdB P L) (n + 1) e env w = (.panic, env, w)
      | .open_ => True := by
  obtain ⟨e, hg, hr⟩ : ∃ e : Expr, _ := formula_ok (P := P) (lvl := .whole) H L h
  refine ⟨.do_ [e], C67_grammar hw (.last (.seven hg)), ?_⟩
  have h1 : Gives isInt (a.eval σ) (evalD P H (bodyRun P H (stdB P L) n) 800 e) env w :=
    hr n 800 env w σ hn (by omega) (by omega) fun x _ => known_of_tracks hs hσ hf x
  rw [evalN, evalDo_cons, if_pos rfl]
  generalize a.eval σ = r at h1
  cases r with
  | ok z =>
    obtain ⟨v, ⟨i, hi, rfl⟩, he⟩ := h1
    exact ⟨i, hi, he⟩
  | error => exact h1
  | crash => exact h1
  | open_ => trivial

/-- The text of a program that adds the numbers up to `n`. -/
def sumText : Str := c!"let s = 0; for i in 1 to n + 1 { let s = s + i } println s"

def sumBody : Block := .cons (.set c!"s" (.bin .add (.var c!"s") (.var c!"i"))) .nil

def sumProgram : Block :=
  .cons (.set c!"s" (.lit 0)) <|
  .cons (.loop c!"i" (.lit 1) (.bin .add (.var c!"n") (.lit 1)) sumBody) <|
  .cons (.print (.var c!"s")) .nil

def sumWords : List Word :=
  [kw c!"let", (.symbol, c!"s"), pw c!"=", (.integerLiteral, c!"0"), pw c!";",
   kw c!"for", (.symbol, c!"i"), kw c!"in", (.integerLiteral, c!"1"), ow c!"to",
   (.symbol, c!"n"), ow c!"+", (.integerLiteral, c!"1"), pw c!"{",
   kw c!"let", (.symbol, c!"s"), pw c!"=", (.symbol, c!"s"), ow c!"+", (.symbol, c!"i"), pw c!"}",
   (.symbol, c!"println"), (.symbol, c!"s")]

set_option maxRecDepth 100000 in
theorem sum_words : Words sumText sumWords :=
  words_of_attach (ts := _) (ds := _) rfl (by simp) rfl rfl rfl

set_option maxRecDepth 100000 in
theorem sum_code : Code Γ .block 5 sumWords sumProgram := by
  have zero : Formula Γ .sum 3 [(.integerLiteral, c!"0")] (.lit 0) :=
    .prod (.atom (.lit (n := ⟨0, by decide, by decide⟩) (by decide +kernel)))
  have one : ∀ d, Formula Γ .prod d [(.integerLiteral, c!"1")] (.lit 1) := fun d =>
    .atom (.lit (n := ⟨1, by decide, by decide⟩) (by decide +kernel))
  have var : ∀ d x, x ∉ reserved → x ≠ c!"CWD" → Formula Γ .prod d [(.symbol, x)] (.var x) :=
    fun _ _ h h' => .atom (.var h h')
  have body : Code Γ .block 3 [kw c!"let", (.symbol, c!"s"), pw c!"=", (.symbol, c!"s"), ow c!"+", (.symbol, c!"i")]
      (.cons (.set c!"s" (.bin .add (.var c!"s") (.var c!"i"))) .nil) :=
    .last (.set (by decide) (.sum (.add (.prod (var 0 c!"s" (by decide) (by decide))) (o := .add) (by simp)
      (var 0 c!"i" (by decide) (by decide)))))
  exact Code.simple (.set (x := c!"s") (by decide) (.sum zero)) <|
    .braced (.loop (x := c!"i") (by decide) (.prod (one 3))
      (.add (.prod (var 2 c!"n" (by decide) (by decide))) (o := .add) (by simp) (one 2)) body) <|
    .last (.print (.prod (var 3 c!"s" (by decide) (by decide))))

theorem sum_loop (N : Nat) (hN : N * (N + 1) / 2 < 2 ^ 63) : ∀ (m k : Nat) (s : State), m + k = N →
    s.vars c!"s" = some (.int ((m * (m + 1) / 2 : Nat) : Int)) →
    ∃ s' : State, count sumBody.run c!"i"
        ((m + 1 : Nat) : Int) k s = (.ok (), s') ∧
      s'.out = s.out ∧ s'.vars c!"s" = some (.int ((N * (N + 1) / 2 : Nat) : Int))
  | m, 0, s, h, hs => ⟨s, rfl, rfl, by rw [hs, ← h]; simp⟩
  | m, k + 1, s, h, hs => by
    have e1 : (m + 1) * (m + 1 + 1) / 2 = m * (m + 1) / 2 + (m + 1) := by
      rw [show (m + 1) * (m + 1 + 1) = m * (m + 1) + (m + 1) * 2 by ring,
        Nat.add_mul_div_right _ _ (by decide)]
    have e2 : (m + 1) * (m + 1 + 1) / 2 ≤ N * (N + 1) / 2 :=
      Nat.div_le_div_right (Nat.mul_le_mul (by omega) (by omega))
    have hsmall : Small (((m * (m + 1) / 2 : Nat) : Int) + ((m + 1 : Nat) : Int)) := by
      unfold Small
      constructor <;> omega
    rw [count]
    simp only [sumBody, Block.run, Stmt.run, Arith.eval, Vars.set, Op.apply, exact, hs,
      show (c!"s" = c!"i") = False from by simp, if_false, if_true, if_pos hsmall]
    obtain ⟨s', h1, h2, h3⟩ := sum_loop N hN (m + 1) k
      ⟨fun y => if y = c!"s" then some (.int (((m * (m + 1) / 2 : Nat) : Int) + ((m + 1 : Nat) : Int)))
        else if y = c!"i" then some (.int ((m + 1 : Nat) : Int)) else s.vars y, s.out⟩ (by omega)
      (by simp only [if_true]; rw [e1]; simp)
    exact ⟨s', h1, h2, h3⟩

theorem run_cons {s : Stmt} {r : Block} {st st' : State} (h : s.run st = (.ok (), st')) :
    (Block.cons s r).run st = r.run st' := by
  rw [Block.run, h]

theorem run_set {x : Str} {a : Arith} {st : State} {z : Int} (h : a.eval st.vars = .ok z) :
    (Stmt.set x a).run st = (.ok (), ⟨st.vars.set x (.int z), st.out⟩) := by
  rw [Stmt.run, h]

theorem run_print {a : Arith} {st : State} {z : Int} (h : a.eval st.vars = .ok z) :
    (Stmt.print a).run st = (.ok (), ⟨st.vars, st.out ++ [z]⟩) := by
  rw [Stmt.run, h]

theorem run_loop {x : Str} {a b : Arith} {p : Block} {st : State} {y z : Int}
    (ha : a.eval st.vars = .ok y) (hb : b.eval st.vars = .ok z) :
    (Stmt.loop x a b p).run st = count p.run x y (z - y).toNat st := by
  rw [Stmt.run, ha, hb]

theorem eval_var {σ : Vars} {x : Str} {z : Int} (h : σ x = some (.int z)) : (Arith.var x).eval σ = .ok z := by
  rw [Arith.eval, h]

theorem eval_add {σ : Vars} {a b : Arith} {x y : Int} (ha : a.eval σ = .ok x) (hb : b.eval σ = .ok y)
    (h : Small (x + y)) : (Arith.bin .add a b).eval σ = .ok (x + y) := by
  rw [Arith.eval, ha, hb]
  exact if_pos h

theorem sum_run {N : Nat} (hN : N * (N + 1) / 2 < 2 ^ 63) (hN' : N + 1 < 2 ^ 63) :
    ∃ σ, sumProgram.run ⟨fun x => if x = c!"n" then some (.int (N : Int)) else none, []⟩ =
      (.ok (), ⟨σ, [((N * (N + 1) / 2 : Nat) : Int)]⟩) := by
  obtain ⟨s', h1, h2, h3⟩ := sum_loop N hN 0 N
    ⟨Vars.set (fun x => if x = c!"n" then some (.int (N : Int)) else none) c!"s" (.int 0), []⟩ (by omega) rfl
  have hsmall : Small ((N : Int) + 1) := by unfold Small; omega
  have e1 : ((N : Int) + 1 - 1).toNat = N := by omega
  refine ⟨s'.vars, ?_⟩
  have h4 := run_loop (x := c!"i") (a := .lit 1) (b := .bin .add (.var c!"n") (.lit 1)) (p := sumBody)
    (st := ⟨Vars.set (fun x => if x = c!"n" then some (.int (N : Int)) else none) c!"s" (.int 0), []⟩)
    (y := 1) (z := N + 1) rfl (eval_add (eval_var rfl) rfl hsmall)
  rw [e1] at h4
  rw [sumProgram, run_cons (run_set (z := 0) rfl), run_cons (h4.trans h1), run_cons (run_print (eval_var h3)),
    Block.run, h2]
  rfl

/-- C91: for every number `N`, the text of `sumText` prints the sum of the numbers up to `N` when `n`
is `N`. -/
theorem C91_sum {env : Env} {w : W} {N : Nat} {i : I64} {n : Nat} (hs : Std env)
    (hc : Console H shown) (hg : env.get c!"n" = some (.int i)) (hi : i.val = N)
    (hN : N * (N + 1) / 2 < 2 ^ 63) (hN' : N + 1 < 2 ^ 63) (hn : 5 ≤ n) :
    ∃ e v env' w', parseText P sumText = .ok e ∧
      evalN P H (stdB P L) (n + 1) e env w = (.ok v, env', w') ∧
      shown w' = shown w ++ ((toString (N * (N + 1) / 2)).toList ++ c!"\n") := by
  have hσ : Tracks env (fun x => if x = c!"n" then some (.int (N : Int)) else none) := by
    intro x z _ hx
    dsimp only at hx
    by_cases h : x = c!"n"
    · subst h
      rw [if_pos rfl, Option.some.injEq, Val.int.injEq] at hx
      exact ⟨i, by rw [hi, hx], hg⟩
    · rw [if_neg h] at hx
      cases hx
  have hf : NoFns (fun x => if x = c!"n" then some (.int (N : Int)) else none) := by
    intro x m F
    dsimp only
    split <;> simp
  obtain ⟨e, hp, hr⟩ := C91_program (P := P) (L := L) (w := w) hs hσ hf hc sum_words (sum_code (Γ := fun _ => none))
    (by decide) hn
  obtain ⟨σ', hrun⟩ := sum_run hN hN'
  rw [hrun] at hr
  obtain ⟨⟨v, hv⟩, _, ho⟩ := hr
  generalize hres : evalN P H (stdB P L) (n + 1) e env w = res at hv ho
  obtain ⟨r, env', w'⟩ := res
  refine ⟨e, v, env', w', hp, by rw [hres, show r = .ok v from hv], ?_⟩
  rw [show shown w' = _ from ho]
  simp only [printed, List.map_cons, List.map_nil, List.flatten_cons, List.flatten_nil, List.append_nil]
  congr 2

theorem std_define {env : Env} (hs : Std env) {x : Str} {v : Expr} (h1 : ∀ p ∈ Init.ops, ¬ x = p.1)
    (h2 : ∀ p ∈ Init.top, ¬ x = p.1) (h3 : ∀ p ∈ Init.modules, ¬ x = p.1) : Std (env.define x v) where
  op p hp := by rw [Env.get_define, if_neg (h1 p hp)]; exact hs.op p hp
  top p hp := by rw [Env.get_define, if_neg (h2 p hp)]; exact hs.top p hp
  mod p hp := by rw [Env.get_define, if_neg (h3 p hp)]; exact hs.mod p hp

/-- there are such environments, for every number -/
example (i : I64) : Std (Demo.env.define c!"n" (.int i)) ∧
    (Demo.env.define c!"n" (.int i)).get c!"n" = some (.int i) :=
  ⟨std_define demo_std (by decide) (by decide) (by decide), by rw [Env.get_define, if_pos rfl]⟩

/-- A program with all kinds of statements: it prints `0` and `10`, and then fails, for it divides by
zero. -/
def stepsText : Str :=
  c!"for i in 0 to 3 { if i == 0 || i > 5 { println i } else if i * 2 == 2 { println 10 // i; } else { println 10 // (i - 2) } }"

def stepsProgram : Block :=
  let i := Arith.var c!"i"
  .cons (.loop c!"i" (.lit 0) (.lit 3)
    (.cons (.ite (.or (.cmp .eq i (.lit 0)) (.cmp .gt i (.lit 5)))
      (.cons (.print i) .nil)
      (.cons (.ite (.cmp .eq (.bin .mul i (.lit 2)) (.lit 2))
        (.cons (.print (.bin .div (.lit 10) i)) .nil)
        (.cons (.print (.bin .div (.lit 10) (.bin .sub i (.lit 2)))) .nil)) .nil)) .nil)) .nil

example : (stepsProgram.run ⟨fun _ => none, []⟩).1 = .error ∧
    (stepsProgram.run ⟨fun _ => none, []⟩).2.out = [0, 10] := by
  simp [stepsProgram, Block.run, Stmt.run, Cond.eval, Arith.eval, count, Vars.set, Rel.holds, Op.apply, exact, Small]

set_option maxRecDepth 100000 in
example : ∃ ws d, d ≤ 266 ∧ Words stepsText ws ∧ Code Γ .block d ws stepsProgram := by
  refine ⟨_, 10, by decide, words_of_attach (ts := _) (ds := _) rfl (by simp) rfl rfl rfl, ?_⟩
  have l0 : ∀ d, Formula Γ .atom d [(.integerLiteral, c!"0")] (.lit 0) := fun _ =>
    .lit (n := ⟨0, by decide, by decide⟩) (by decide +kernel)
  have l2 : ∀ d, Formula Γ .atom d [(.integerLiteral, c!"2")] (.lit 2) := fun _ =>
    .lit (n := ⟨2, by decide, by decide⟩) (by decide +kernel)
  have l3 : ∀ d, Formula Γ .atom d [(.integerLiteral, c!"3")] (.lit 3) := fun _ =>
    .lit (n := ⟨3, by decide, by decide⟩) (by decide +kernel)
  have l5 : ∀ d, Formula Γ .atom d [(.integerLiteral, c!"5")] (.lit 5) := fun _ =>
    .lit (n := ⟨5, by decide, by decide⟩) (by decide +kernel)
  have l10 : ∀ d, Formula Γ .atom d [(.integerLiteral, c!"10")] (.lit 10) := fun _ =>
    .lit (n := ⟨10, by decide, by decide⟩) (by decide +kernel)
  have i : ∀ d, Formula Γ .atom d [(.symbol, c!"i")] (.var c!"i") := fun _ => .var (by decide) (by decide)
  have t1 : Test Γ true 6 _ (.or (.cmp .eq (.var c!"i") (.lit 0)) (.cmp .gt (.var c!"i") (.lit 5))) :=
    .or (.one (.cmp (.prod (.atom (i 4))) (.prod (.atom (l0 4)))))
      (.cmp (.prod (.atom (i 4))) (.prod (.atom (l5 4))))
  have t2 : Test Γ true 5 _ (.cmp .eq (.bin .mul (.var c!"i") (.lit 2)) (.lit 2)) :=
    .one (.cmp (.prod (.mul (.atom (i 3)) (by simp) (l2 3))) (.prod (.atom (l2 4))))
  have b2 : Code Γ .block 5 _ (Block.cons (.print (.bin .div (.lit 10) (.var c!"i"))) .nil) :=
    .simple (.print (.prod (.mul (.atom (l10 2)) (by simp) (i 2)))) .done
  have b3 : Code Γ .block 5 _
      (Block.cons (.print (.bin .div (.lit 10) (.bin .sub (.var c!"i") (.lit 2)))) .nil) :=
    .last (.print (.prod (.mul (.atom (l10 2)) (by simp)
      (.paren (.sum (.add (.prod (.atom (i 0))) (by simp) (.atom (l2 0))))))))
  have b1 : Code Γ .block 6 _ (Block.cons (.print (.var c!"i")) .nil) := .last (.print (.prod (.atom (i 4))))
  exact Code.braced (.loop (by decide) (.prod (.atom (l0 8))) (.prod (.atom (l3 8)))
    (.braced (.cond (.elif t1 b1 (by simp) (.ite t2 b2 (by simp) b3 (by simp)))) .done)) .done

set_option maxRecDepth 100000 in
example : ∃ ws a, Words c!"(x + 3) * 4 - 7 // 2" ws ∧ Formula Γ .sum 4 ws a ∧
    a.eval (fun _ => some (.int 2)) = .ok 17 := by
  have lit : ∀ (d : Nat) (t : Str) (i : I64), parseI64 t = some i →
      Formula Γ .atom d [(.integerLiteral, t)] (.lit i.val) := fun _ _ _ h => .lit h
  refine ⟨_, _, words_of_attach (ts := _) (ds := _) rfl (by simp) rfl rfl rfl,
    Formula.add (.prod (.mul (o := .mul) (.atom (.paren (.sum (.add (o := .add) (.prod (.atom (.var (x := c!"x")
      (by decide) (by decide)))) (by simp)
      (.atom (lit 0 c!"3" ⟨3, by decide, by decide⟩ (by decide +kernel)))))))
      (by simp) (lit 2 c!"4" ⟨4, by decide, by decide⟩ (by decide +kernel)))) (o := .sub) (by simp) (.mul (o := .div)
      (.atom (lit 2 c!"7" ⟨7, by decide, by decide⟩ (by decide +kernel))) (by simp)
      (lit 2 c!"2" ⟨2, by decide, by decide⟩ (by decide +kernel))), ?_⟩
  simp [Arith.eval, Op.apply, exact, Small]

end

end Dune.Props
