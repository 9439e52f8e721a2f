import Verif.Model.Parser
import Verif.Proof.Start
import Verif.Props.Combinators
import Verif.Props.Compare
import Verif.Props.Startup

/-!
C99: `math@max` and `math@min`.

`evalD P H (bodyRun P H (stdB P L) n) d e` is the evaluation of `e` with `801 - d` levels of nesting
above it.
-/

namespace Dune.Props

open Spec M

section

variable {W : Type} {P : Plat} {H : Host W} {L : Lib} {n : Nat} {env env1 env2 : Env} {w w1 w2 : W}
  {X : Init.Machine}

/-- `if (x > y) { x } else { y }` -/
abbrev chooseBody (op : Str) : Expr :=
  .ite (.group (.group (.apply (.symbol op) [.symbol c!"x", .symbol c!"y"])))
    (.do_ [.symbol c!"x"]) (.group (.do_ [.symbol c!"y"]))

theorem extreme_group {B : BId → List Expr → M W Expr} {k : Nat} {e : Expr} :
    evalD P H B (k + 1) (.group e) env w = evalD P H B k e env w := rfl

theorem extreme_do {B : BId → List Expr → M W Expr} {k : Nat} {e : Expr} :
    evalD P H B (k + 1) (.do_ [e]) env w = evalD P H B k e env w := rfl

/-- a variable a closure already has keeps its value when the closure is evaluated again -/
theorem extreme_reclose {e0 captured : Env} {p x cwd : Str} {body v y : Expr}
    (h1 : x ≠ p) (h2 : x ≠ c!"CWD") (hy : captured.bindings.get? x = some y) :
    (callEnv p ⟨(closeLambda e0 p body captured).bindings,
      (closeLambda e0 p body captured).parents⟩ cwd v).get x = some y := by
  have hd : captured.isDefined x = true := by
    rw [Env.isDefined, BMap.contains, hy]; rfl
  have h : (closeLambda e0 p body captured).bindings.get? x = some y := by
    rw [closeLambda, capture_get, if_neg (by simp [hd])]
    simp only [Env.setCwd, Env.define]
    rw [BMap.get?_insert, if_neg (by exact Ne.symm h2), BMap.get?_insert, if_neg (Ne.symm h1), hy]
  rw [callEnv, Env.get_define, if_neg (Ne.symm h1), Env.setCwd, Env.get_define,
    if_neg (by exact Ne.symm h2), Env.get]
  simp only [h]

theorem extreme_close {e0 : Env} {p x : Str} {body y : Expr} (hx : x ∈ body.usedSymbols)
    (h1 : x ≠ p) (hy : e0.get x = some y) :
    (closeLambda e0 p body ⟨[], []⟩).bindings.get? x = some y := by
  rw [closeLambda, capture_get, if_pos ⟨hx, h1, rfl, by rw [hy]; rfl⟩, hy]

/-- the function called with two arguments compares their values -/
theorem eval_extreme {e0 : Env} {op nm hlp : Str} {id : BId} {f : Expr → Expr → Bool}
    {g a b va vb : Expr} (hop : op = c!">" ∨ op = c!"<")
    (hid : ∀ args, stdB P L id args = Builtins.cmpB f args)
    (h0 : e0.get op = some (.builtin nm id hlp))
    (hg : evalD P H (bodyRun P H (stdB P L) (n + 1)) 800 g env w =
      (.ok (Init.closureIn e0 c!"x" (Init.extremeBody op)), env, w))
    (ha : evalD P H (bodyRun P H (stdB P L) (n + 1)) 800 a env w = (.ok va, env1, w1))
    (hb : evalD P H (bodyRun P H (stdB P L) (n + 1)) 799 b env1 w1 = (.ok vb, env2, w2)) :
    evalN P H (stdB P L) (n + 2) (.apply g [a, b]) env w =
      (.ok (if f va vb then va else vb), env2, w2) := by
  have hox : op ≠ c!"x" := by rcases hop with rfl | rfl <;> decide
  have hoy : op ≠ c!"y" := by rcases hop with rfl | rfl <;> decide
  have hoc : op ≠ c!"CWD" := by rcases hop with rfl | rfl <;> decide
  have hu : (Init.extremeBody op).usedSymbols = [op, c!"x", c!"y", c!"x", c!"y"] := rfl
  have hu2 : (chooseBody op).usedSymbols = [op, c!"x", c!"y", c!"x", c!"y"] := rfl
  rw [Init.closureIn] at hg
  generalize he1 : callEnv c!"x" ⟨(closeLambda e0 c!"x" (Init.extremeBody op) Env.empty).bindings,
    (closeLambda e0 c!"x" (Init.extremeBody op) Env.empty).parents⟩ env.getCwd va = e1
  have hop1 : e1.get op = some (.builtin nm id hlp) := by
    rw [← he1, ← h0]
    exact callEnv_get (by rw [hu]; simp) hox hoc (by rw [h0]; rfl)
  have hx1 : e1.get c!"x" = some va := by rw [← he1, callEnv, Env.get_define, if_pos rfl]
  have hl : evalD P H (bodyRun P H (stdB P L) (n + 1)) 800 (Init.extremeBody op) e1 w1 =
      (.ok (.lambda c!"y" (chooseBody op)
        (closeLambda e1 c!"y" (chooseBody op) ⟨[], []⟩).bindings
        (closeLambda e1 c!"y" (chooseBody op) ⟨[], []⟩).parents), e1, w1) := rfl
  show evalD P H (bodyRun P H (stdB P L) (n + 1)) 801 _ env w = _
  rw [evalD_callMore hg ha (by rw [he1]; exact hl)]
  rw [evalD_call1 (evalD_lambda _ _ _ _ _ _) hb]
  generalize he2 : callEnv c!"y" ⟨(closeLambda env1 c!"y" (chooseBody op) _).bindings, _⟩ _ vb = e2
  have hop2 : e2.get op = some (.builtin nm id hlp) := by
    rw [← he2]
    exact extreme_reclose hoy hoc (extreme_close (by rw [hu2]; simp) hoy hop1)
  have hx2 : e2.get c!"x" = some va := by
    rw [← he2]
    exact extreme_reclose (by decide) (by decide) (extreme_close (by rw [hu2]; simp) (by decide) hx1)
  have hy2 : e2.get c!"y" = some vb := by rw [← he2, callEnv, Env.get_define, if_pos rfl]
  have hc : evalD P H (bodyRun P H (stdB P L) (n + 1)) 798
      (.group (.group (.apply (.symbol op) [.symbol c!"x", .symbol c!"y"]))) e2 w2 =
      (.ok (.bool (f va vb)), e2, w2) := by
    rw [extreme_group, extreme_group]
    rw [evalD]
    simp only [evalStep]
    rw [M.bind_ok (evalD_symbol hop2)]
    simp only [applyValue, bodyRun, hid]
    brun [Builtins.cmpB, evalN_sym hx2, evalN_sym hy2]
  have hbody : evalD P H (bodyRun P H (stdB P L) (n + 1)) 799 (chooseBody op) e2 w2 =
      (.ok (if f va vb then va else vb), e2, w2) := by
    rw [evalD]
    simp only [evalStep]
    rw [M.bind_ok hc]
    cases f va vb
    · show evalD P H (bodyRun P H (stdB P L) (n + 1)) 798 _ e2 w2 = _
      rw [extreme_group, extreme_do]
      exact evalD_symbol hy2
    · show evalD P H (bodyRun P H (stdB P L) (n + 1)) 798 _ e2 w2 = _
      rw [extreme_do]
      exact evalD_symbol hx2
  rw [hbody]

theorem eval_mathExtreme (hs : Fresh X env) {m op nm hlp : Str} {id : BId}
    {f : Expr → Expr → Bool} {a b va vb : Expr} (hop : op = c!">" ∨ op = c!"<")
    (hid : ∀ args, stdB P L id args = Builtins.cmpB f args)
    (hm : (m, Init.closureIn (Init.defineAll (Init.startFs X) (Init.startOps X)) c!"x"
      (Init.extremeBody op)) ∈ Init.extremes (Init.defineAll (Init.startFs X) (Init.startOps X)))
    (h0 : (Init.defineAll (Init.startFs X) (Init.startOps X)).get op = some (.builtin nm id hlp))
    (ha : evalD P H (bodyRun P H (stdB P L) (n + 1)) 800 a env w = (.ok va, env1, w1))
    (hb : evalD P H (bodyRun P H (stdB P L) (n + 1)) 799 b env1 w1 = (.ok vb, env2, w2)) :
    evalN P H (stdB P L) (n + 2) (call c!"math" m [a, b]) env w =
      (.ok (if f va vb then va else vb), env2, w2) := by
  obtain ⟨tbl, htbl, hx⟩ := start_math (X := X)
  have hmath : env.get c!"math" = some (.map tbl) := by rw [hs c!"math" (by decide), htbl]
  exact eval_extreme hop hid h0
    (evalD_member (k := 798) (hs.std.op (Init.b c!"@" .index) (by mem_tac)) hmath (hx _ hm)) ha hb

theorem std_cmp (hs : Std env) : StdCmp env where
  lt := ⟨_, _, hs.op (Init.b c!"<" .lt) (by mem_tac)⟩
  le := ⟨_, _, hs.op (Init.b c!"<=" .le) (by mem_tac)⟩
  gt := ⟨_, _, hs.op (Init.b c!">" .gt) (by mem_tac)⟩
  ge := ⟨_, _, hs.op (Init.b c!">=" .ge) (by mem_tac)⟩
  eq := ⟨_, _, hs.op (Init.b c!"==" .eq) (by mem_tac)⟩
  ne := ⟨_, _, hs.op (Init.b c!"!=" .ne) (by mem_tac)⟩

theorem eval_max (hs : Fresh X env) {a b va vb : Expr}
    (ha : evalD P H (bodyRun P H (stdB P L) (n + 1)) 800 a env w = (.ok va, env1, w1))
    (hb : evalD P H (bodyRun P H (stdB P L) (n + 1)) 799 b env1 w1 = (.ok vb, env2, w2)) :
    evalN P H (stdB P L) (n + 2) (call c!"math" c!"max" [a, b]) env w =
      (.ok (if Builtins.gtE va vb then va else vb), env2, w2) :=
  eval_mathExtreme hs (op := c!">") (id := .gt) (.inl rfl) (fun _ => rfl)
    (by simp [Init.extremes])
    (by rw [defineAll_get]; rfl) ha hb

theorem eval_min (hs : Fresh X env) {a b va vb : Expr}
    (ha : evalD P H (bodyRun P H (stdB P L) (n + 1)) 800 a env w = (.ok va, env1, w1))
    (hb : evalD P H (bodyRun P H (stdB P L) (n + 1)) 799 b env1 w1 = (.ok vb, env2, w2)) :
    evalN P H (stdB P L) (n + 2) (call c!"math" c!"min" [a, b]) env w =
      (.ok (if Builtins.ltE va vb then va else vb), env2, w2) :=
  eval_mathExtreme hs (op := c!"<") (id := .lt) (.inr rfl) (fun _ => rfl)
    (by simp [Init.extremes])
    (by rw [defineAll_get]; rfl) ha hb

/-- C99, `math@max a b` evaluates `a` and then `b`, once each and with their effects, and returns one
of the two values: `a`'s if it is greater, and otherwise `b`'s.  Neither value is greater than the
one returned. -/
theorem C99_max (hs : Fresh X env) {a b va vb : Expr}
    (ha : evalD P H (bodyRun P H (stdB P L) (n + 1)) 800 a env w = (.ok va, env1, w1))
    (hb : evalD P H (bodyRun P H (stdB P L) (n + 1)) 799 b env1 w1 = (.ok vb, env2, w2)) :
    ∃ v, evalN P H (stdB P L) (n + 2) (call c!"math" c!"max" [a, b]) env w = (.ok v, env2, w2) ∧
      (Holds P H L n env w c!">" va vb → v = va) ∧ (¬ Holds P H L n env w c!">" va vb → v = vb) ∧
      ¬ Holds P H L n env w c!">" va v ∧ ¬ Holds P H L n env w c!">" vb v := by
  have hc := std_cmp hs.std
  refine ⟨_, eval_max hs ha hb, ?_⟩
  simp only [(C36_converse hc _ _).1]
  have hg : (Builtins.gtE va vb = true) ↔ Holds P H L n env w c!"<" vb va := by
    rw [← (C36_converse hc _ _).1, holds_gt hc]; simp [Builtins.gtE]
  by_cases h : Holds P H L n env w c!"<" vb va
  · rw [if_pos (hg.2 h)]
    exact ⟨fun _ => rfl, fun h' => absurd h h', C36_irreflexive hc _, C36_asymmetric hc h⟩
  · rw [if_neg (fun h' => h (hg.1 h'))]
    exact ⟨fun h' => absurd h' h, fun _ => rfl, h, C36_irreflexive hc _⟩

/-- C99, the same for `math@min`. -/
theorem C99_min (hs : Fresh X env) {a b va vb : Expr}
    (ha : evalD P H (bodyRun P H (stdB P L) (n + 1)) 800 a env w = (.ok va, env1, w1))
    (hb : evalD P H (bodyRun P H (stdB P L) (n + 1)) 799 b env1 w1 = (.ok vb, env2, w2)) :
    ∃ v, evalN P H (stdB P L) (n + 2) (call c!"math" c!"min" [a, b]) env w = (.ok v, env2, w2) ∧
      (Holds P H L n env w c!"<" va vb → v = va) ∧ (¬ Holds P H L n env w c!"<" va vb → v = vb) ∧
      ¬ Holds P H L n env w c!"<" va v ∧ ¬ Holds P H L n env w c!"<" vb v := by
  have hc := std_cmp hs.std
  refine ⟨_, eval_min hs ha hb, ?_⟩
  have hg : (Builtins.ltE va vb = true) ↔ Holds P H L n env w c!"<" va vb := by
    rw [holds_lt hc]; simp [Builtins.ltE]
  by_cases h : Holds P H L n env w c!"<" va vb
  · rw [if_pos (hg.2 h)]
    exact ⟨fun _ => rfl, fun h' => absurd h h', C36_irreflexive hc _, C36_asymmetric hc h⟩
  · rw [if_neg (fun h' => h (hg.1 h'))]
    exact ⟨fun h' => absurd h' h, fun _ => rfl, h, C36_irreflexive hc _⟩

/-- C99, of integers they return the larger and the smaller number. -/
theorem C99_int (hs : Fresh X env) {a b : Expr} {i j : I64}
    (ha : evalD P H (bodyRun P H (stdB P L) (n + 1)) 800 a env w = (.ok (.int i), env1, w1))
    (hb : evalD P H (bodyRun P H (stdB P L) (n + 1)) 799 b env1 w1 = (.ok (.int j), env2, w2)) :
    (∃ r : I64, r.val = max i.val j.val ∧
      evalN P H (stdB P L) (n + 2) (call c!"math" c!"max" [a, b]) env w =
        (.ok (.int r), env2, w2)) ∧
    ∃ r : I64, r.val = min i.val j.val ∧
      evalN P H (stdB P L) (n + 2) (call c!"math" c!"min" [a, b]) env w =
        (.ok (.int r), env2, w2) := by
  have hc := std_cmp hs.std
  obtain ⟨v, hv, h1, h2, -⟩ := C99_max hs ha hb
  obtain ⟨u, hu, h3, h4, -⟩ := C99_min hs ha hb
  rw [(C36_converse hc _ _).1, C36_int hc] at h1 h2
  rw [C36_int hc] at h3 h4
  constructor
  · by_cases h : j.val < i.val
    · exact ⟨i, by omega, by rw [hv, h1 h]⟩
    · exact ⟨j, by omega, by rw [hv, h2 h]⟩
  · by_cases h : i.val < j.val
    · exact ⟨i, by omega, by rw [hu, h3 h]⟩
    · exact ⟨j, by omega, by rw [hu, h4 h]⟩

/-- C99, of values that cannot be compared, such as an integer and a text, or anything and NaN, both
return the second: the order of the arguments matters, and the greater of an integer and a
floating-point number is not found. -/
theorem C99_unrelated (hs : Fresh X env) {a b va vb : Expr}
    (ha : evalD P H (bodyRun P H (stdB P L) (n + 1)) 800 a env w = (.ok va, env1, w1))
    (hb : evalD P H (bodyRun P H (stdB P L) (n + 1)) 799 b env1 w1 = (.ok vb, env2, w2))
    (h : (∃ f, IsNaN f ∧ (va = .float f ∨ vb = .float f)) ∨
      orderKind va = none ∨ orderKind va ≠ orderKind vb) :
    evalN P H (stdB P L) (n + 2) (call c!"math" c!"max" [a, b]) env w = (.ok vb, env2, w2) ∧
    evalN P H (stdB P L) (n + 2) (call c!"math" c!"min" [a, b]) env w = (.ok vb, env2, w2) := by
  have hc := std_cmp hs.std
  have hn : ¬ Holds P H L n env w c!"<" va vb ∧ ¬ Holds P H L n env w c!"<" vb va := by
    have hf : ∀ x y, Fails P H L n env w c!"<" x y → ¬ Holds P H L n env w c!"<" x y := by
      intro x y h1 h2
      rw [Fails] at h1
      rw [Holds, h1] at h2
      cases h2
    by_cases hk : orderKind va ≠ orderKind vb ∨ orderKind va = none
    · have hk' : orderKind vb ≠ orderKind va ∨ orderKind vb = none := by
        by_cases h : orderKind va = orderKind vb
        · exact .inr (h ▸ hk.resolve_left (fun h' => h' h))
        · exact .inl (Ne.symm h)
      exact ⟨hf _ _ (C36_unrelated hc (by simp) _ _ hk), hf _ _ (C36_unrelated hc (by simp) _ _ hk')⟩
    · obtain ⟨f, hnan, hv⟩ := h.resolve_right (fun h => hk (Or.comm.1 h))
      have hs' : orderKind va = orderKind vb := by
        by_cases h : orderKind va = orderKind vb
        · exact h
        · exact absurd (.inl h) hk
      have key : ∀ e, orderKind (.float f) = orderKind e → ∃ g, e = .float g := by
        intro e he
        cases e <;> first | exact ⟨_, rfl⟩ | cases he
      rcases hv with rfl | rfl
      · obtain ⟨g, rfl⟩ := key _ hs'
        rw [(C36_float hc _ _).1, (C36_float hc _ _).1]
        exact ⟨fun h => h.1 hnan, fun h => h.2.1 hnan⟩
      · obtain ⟨g, rfl⟩ := key _ hs'.symm
        rw [(C36_float hc _ _).1, (C36_float hc _ _).1]
        exact ⟨fun h => h.2.1 hnan, fun h => h.1 hnan⟩
  obtain ⟨v, hv, -, h2, -⟩ := C99_max hs ha hb
  obtain ⟨u, hu, -, h4, -⟩ := C99_min hs ha hb
  rw [(C36_converse hc _ _).1] at h2
  exact ⟨by rw [hv, h2 hn.2], by rw [hu, h4 hn.1]⟩

end

/-- The environment after the shell started on a machine without special directories. -/
def extremeEnv : Env := Init.start ⟨none, none, none, none, none, fun _ => [], .none, .none⟩

def runExtreme (m : Str) (a b : Expr) : Outcome Expr :=
  (evalN Demo.plat Demo.host (stdB Demo.plat Demo.lib) 3 (call c!"math" m [a, b]) extremeEnv []).1

example : Fresh ⟨none, none, none, none, none, fun _ => [], .none, .none⟩ extremeEnv := start_fresh

example : runExtreme c!"max" (.int (I64.lit 3)) (.int (I64.lit 7)) = .ok (.int (I64.lit 7)) := rfl

example : runExtreme c!"max" (.int (I64.lit 7)) (.int (I64.lit 3)) = .ok (.int (I64.lit 7)) := rfl

example : runExtreme c!"min" (.int (I64.lit 7)) (.int (I64.lit 3)) = .ok (.int (I64.lit 3)) := rfl

example : runExtreme c!"min" (.int (I64.lit 7)) (.str c!"a") = .ok (.str c!"a") := rfl

example : runExtreme c!"min" (.str c!"a") (.int (I64.lit 7)) = .ok (.int (I64.lit 7)) := rfl

/-! The functions are what their sources in the code are read as. -/

set_option maxRecDepth 100000 in
set_option maxHeartbeats 4000000 in
set_option cbv.maxSteps 10000000 in
example (P : Plat) : parseScript P c!"x -> y -> if (x > y) { x } else { y }" =
    .ok (.do_ [.lambda c!"x" (Init.extremeBody c!">") [] []]) := by cbv

set_option maxRecDepth 100000 in
set_option maxHeartbeats 4000000 in
set_option cbv.maxSteps 10000000 in
example (P : Plat) : parseScript P c!"x -> y -> if (x < y) { x } else { y }" =
    .ok (.do_ [.lambda c!"x" (Init.extremeBody c!"<") [] []]) := by cbv

/-! ### Instances: the hypotheses can be met -/

example := C99_max (P := Demo.plat) (H := Demo.host) (L := Demo.lib) (n := 0) (w := []) (env := extremeEnv)
  start_fresh (a := .str c!"a") (b := .int (.lit 7)) rfl rfl

example := C99_min (P := Demo.plat) (H := Demo.host) (L := Demo.lib) (n := 0) (w := []) (env := extremeEnv)
  start_fresh (a := .str c!"a") (b := .int (.lit 7)) rfl rfl

example := C99_int (P := Demo.plat) (H := Demo.host) (L := Demo.lib) (n := 0) (w := []) (env := extremeEnv)
  start_fresh (a := .int .min) (b := .int (.lit 7)) rfl rfl

end Dune.Props
