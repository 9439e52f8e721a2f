import Verif.Proof.Printed
import Verif.Props.Grammar
import Verif.Props.Waiting

/-! Property C92: printed code reads back. -/

namespace Dune.Props

open Spec

/-- C92: the printed form of code is accepted, and is read as the same code, except that functions
forget the variables they have captured and `else` branches get parentheses. -/
theorem C92_reads_back {P : Plat} {e : Expr} (h : ShownCode P .stmt e) :
    parseText P (debug P e) = .ok (.do_ [reread e]) := by
  obtain ⟨u, h1, h2⟩ := reads_printable h
  exact C67_grammar h1.reads (.last h2)

private theorem nm {x : Str} {c : Char} {s : Str} (hx : x = c :: s)
    (h : (∀ y ∈ c :: s, y ∈ nameChars) ∧ c :: s ∉ reserved ∧ c :: s ∉ [c!"True", c!"False"] ∧ c ≠ '#' ∧
      c ∉ digitChars ∧ c ≠ '-') : Lexeme (.symbol, x) := by
  subst hx
  exact .name h.1 h.2.1 h.2.2.1 h.2.2.2.1 h.2.2.2.2.1 fun _ _ hc => absurd hc h.2.2.2.2.2

/-- `x -> { let z = x + -5; if (z < 3) { "small" } else [z] }` -/
private def demoCode : Expr :=
  .lambda c!"x" (.do_ [.assign c!"z" (infix_ c!"+" (.symbol c!"x") (.int ⟨-5, by decide, by decide⟩)),
    .ite (infix_ c!"<" (.symbol c!"z") (.int (.lit 3))) (.do_ [.str c!"small"])
      (.list [.symbol c!"z"])]) [] []

private theorem demoCode_printable : ShownCode Demo.plat .stmt demoCode := by
  have hx : Lexeme (.symbol, c!"x") := nm rfl (by decide)
  have hz : Lexeme (.symbol, c!"z") := nm rfl (by decide)
  refine .lambda hx (.operand (.block (by simp) ?_))
  simp only [List.forall_mem_cons, List.not_mem_nil, false_implies, implies_true, and_true]
  refine ⟨.let_ hz (.operand (.group (.opCall (by decide) (by simp) ?_))),
    .ite (.group (.opCall (by decide) (by simp) ?_)) (.block (by simp) ?_) (.list ?_)⟩ <;>
  simp only [List.forall_mem_cons, List.not_mem_nil, false_implies, implies_true, and_true]
  · exact ⟨.name hx, .int _⟩
  · exact ⟨.name hz, .int _⟩
  · exact .operand (.str (by
      simp only [List.forall_mem_cons, List.not_mem_nil, false_implies, implies_true, and_true]
      exact ⟨⟨by decide, by simp [Demo.plat]⟩, ⟨by decide, by simp [Demo.plat]⟩,
        ⟨by decide, by simp [Demo.plat]⟩, ⟨by decide, by simp [Demo.plat]⟩, by decide,
        by simp [Demo.plat]⟩))
  · exact .operand (.name hz)

/-- its printed form -/
example : debug Demo.plat demoCode =
    c!"x -> { let z = (+ x -5); if (< z 3) { \"small\" } else [z] }" := by decide

example : parseText Demo.plat (debug Demo.plat demoCode) = .ok (.do_ [reread demoCode]) :=
  C92_reads_back demoCode_printable

mutual

/-- no conditionals, and no function that has captured variables -/
def plain : Expr → Bool
  | .group e | .quote e | .macro_ _ e | .assign _ e => plain e
  | .list l | .do_ l => plains l
  | .apply f l => plain f && plains l
  | .lambda _ b bs ps => plain b && bs.isEmpty && ps.isEmpty
  | .ite _ _ _ => false
  | .for_ _ l b => plain l && plain b
  | _ => true

def plains : List Expr → Bool
  | [] => true
  | e :: l => plain e && plains l

end

mutual

theorem reread_plain : ∀ {e : Expr}, plain e = true → reread e = e
  | .group e, h | .quote e, h | .macro_ _ e, h | .assign _ e, h => by
    rw [plain] at h; rw [reread, reread_plain h]
  | .list l, h | .do_ l, h => by
    rw [plain] at h; rw [reread, rereads_plain h]
  | .apply f l, h => by
    rw [plain, Bool.and_eq_true] at h
    rw [reread, reread_plain h.1, rereads_plain h.2]
  | .lambda _ b bs ps, h => by
    simp only [plain, Bool.and_eq_true, List.isEmpty_iff] at h
    rw [reread, reread_plain h.1.1, h.1.2, h.2]
  | .for_ _ l b, h => by
    rw [plain, Bool.and_eq_true] at h
    rw [reread, reread_plain h.1, reread_plain h.2]
  | .ite _ _ _, h => by simp [plain] at h
  | .symbol _, _ | .int _, _ | .float _, _ | .bytes _, _ | .str _, _ | .bool _, _ | .map _, _
  | .none, _ | .builtin _ _ _, _ => rfl

theorem rereads_plain : ∀ {l : List Expr}, plains l = true → rereads l = l
  | [], _ => rfl
  | e :: l, h => by
    rw [plains, Bool.and_eq_true] at h
    rw [rereads, reread_plain h.1, rereads_plain h.2]

end

/-- C92: code without conditionals reads back as exactly itself. -/
theorem C92_exact {P : Plat} {e : Expr} (h : ShownCode P .stmt e) (hp : plain e = true) :
    parseText P (debug P e) = .ok (.do_ [e]) := by
  rw [C92_reads_back h, reread_plain hp]

/-- C92: a function that was made here, printed (this is what `echo` shows) and pasted at the prompt,
is the same function again. -/
theorem C92_paste {W : Type} {P : Plat} {H : Host W} {L : Lib} {n : Nat} {p : Str} {body v : Expr}
    {env env' : Env} {w w' : W}
    (hv : evalN P H (stdB P L) (n + 1) (.lambda p body [] []) env w = (.ok v, env', w'))
    (h : ShownCode P .stmt (.lambda p body [] [])) (hp : plain body = true) :
    ∃ e, parseText P (display P v) = .ok e ∧
      evalN P H (stdB P L) (n + 1) e env w = (.ok v, env, w) := by
  have hd : evalN P H (stdB P L) (n + 1) (.lambda p body [] []) env w =
      (.ok (closure env p body), env, w) := by
    rw [evalN]
    rfl
  rw [hd] at hv
  obtain ⟨rfl, rfl, rfl⟩ : closure env p body = v ∧ env = env' ∧ w = w' := by simpa using hv
  refine ⟨.do_ [.lambda p body [] []], ?_, ?_⟩
  · have := C92_exact h (by simp [plain, hp])
    rw [← this]
    rfl
  · rw [evalN, evalD_do1]
    rfl

/-- `x -> { let z = x + 1; [z, x] }` -/
private def demoFn : Expr :=
  .do_ [.assign c!"z" (infix_ c!"+" (.symbol c!"x") (.int (.lit 1))),
    .list [.symbol c!"z", .symbol c!"x"]]

private theorem demoFn_printable : ShownCode Demo.plat .stmt (.lambda c!"x" demoFn [] []) := by
  have hx : Lexeme (.symbol, c!"x") := nm rfl (by decide)
  have hz : Lexeme (.symbol, c!"z") := nm rfl (by decide)
  refine .lambda hx (.operand (.block (by simp) ?_))
  simp only [List.forall_mem_cons, List.not_mem_nil, false_implies, implies_true, and_true]
  refine ⟨.let_ hz (.operand (.group (.opCall (by decide) (by simp) ?_))), .operand (.list ?_)⟩ <;>
  simp only [List.forall_mem_cons, List.not_mem_nil, false_implies, implies_true, and_true]
  · exact ⟨.name hx, .int _⟩
  · exact ⟨.operand (.name hz), .operand (.name hx)⟩

example : parseText Demo.plat c!"x -> { let z = (+ x 1); [z, x] }" =
    .ok (.do_ [.lambda c!"x" demoFn [] []]) :=
  C92_exact demoFn_printable (by decide)

/-- pasted in an environment where `+` is captured -/
example : ∃ e, parseText Demo.plat (display Demo.plat (closure Demo.env c!"x" demoFn)) = .ok e ∧
    evalN Demo.plat Demo.host (stdB Demo.plat Demo.lib) 1 e Demo.env [] =
      (.ok (closure Demo.env c!"x" demoFn), Demo.env, []) :=
  C92_paste (n := 0) (env' := Demo.env) (w' := []) (by rw [evalN]; rfl) demoFn_printable (by decide)

set_option maxRecDepth 100000
set_option maxHeartbeats 4000000
set_option cbv.maxSteps 10000000

/-- C92: library functions in code do not read back: `list@len x` is printed `@ list len x`, and this
is read as `list@len@x`. -/
theorem C92_member_refuted (P : Plat) : ∃ e, parseText P c!"list@len x" = .ok (.do_ [e]) ∧
    parseText P (debug P e) = .ok (.do_ [.apply (.symbol c!"@")
      [.symbol c!"list", .symbol c!"len", .symbol c!"x"]]) ∧
    parseText P c!"list@len@x" = .ok (.do_ [.apply (.symbol c!"@")
      [.symbol c!"list", .symbol c!"len", .symbol c!"x"]]) := by
  refine ⟨.apply (.apply (.symbol c!"@") [.symbol c!"list", .symbol c!"len"]) [.symbol c!"x"],
    by cbv, ?_, by cbv⟩
  have h : debug P (.apply (.apply (.symbol c!"@") [.symbol c!"list", .symbol c!"len"])
      [.symbol c!"x"]) = c!"@ list len x" := rfl
  rw [h]
  cbv

/-- C92: a pipeline to a command with an argument is read as a pipeline of three commands. -/
theorem C92_pipe_refuted (P : Plat) : ∃ e, parseText P c!"a | b c" = .ok (.do_ [e]) ∧
    parseText P (debug P e) = .ok (.do_ [.group (.apply (.symbol c!"|")
      [.symbol c!"a", .symbol c!"b", .symbol c!"c"])]) := by
  refine ⟨.group (.apply (.symbol c!"|") [.symbol c!"a", .apply (.symbol c!"b") [.symbol c!"c"]]),
    by cbv, ?_⟩
  have h : debug P (.group (.apply (.symbol c!"|")
      [.symbol c!"a", .apply (.symbol c!"b") [.symbol c!"c"]])) = c!"(| a b c)" := rfl
  rw [h]
  cbv

/-- C92: a loop over a range does not read back at all. -/
theorem C92_range_refuted (P : Plat) : ∃ e err, parseText P c!"for i in a to b { i }" = .ok (.do_ [e]) ∧
    parseText P (debug P e) = .err err := by
  refine ⟨.for_ c!"i" (.apply (.symbol c!"to") [.symbol c!"a", .symbol c!"b"]) (.do_ [.symbol c!"i"]),
    ?_, by cbv, ?_⟩
  rotate_left
  · have h : debug P (.for_ c!"i" (.apply (.symbol c!"to") [.symbol c!"a", .symbol c!"b"])
      (.do_ [.symbol c!"i"])) = c!"for i in to a b { i }" := rfl
    rw [h]
    cbv
    rfl

end Dune.Props
