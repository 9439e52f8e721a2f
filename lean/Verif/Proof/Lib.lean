import Verif.Proof.Builtins
import Verif.Spec.Std

/-! Calls of library functions by name. -/

namespace Dune

open Spec

/-- Find an entry in a literal table. -/
macro "mem_tac" : tactic => `(tactic|
  repeat (first | exact List.Mem.head _ | apply List.Mem.tail))

section

variable {W : Type} {P : Plat} {H : Host W} {L : Lib} {n : Nat} {nm hlp : Str} {id : BId}
  {env : Env} {w : W} {args : List Expr}

theorem evalD_mem {k : Nat} {m f : Str} {tbl : List (Str × Expr)} {v : Expr} (hs : Std env)
    (hm : (m, tbl) ∈ Init.modules) (hf : (f, v) ∈ tbl) :
    evalD P H (bodyRun P H (stdB P L) n) (k + 2) (member m f) env w = (.ok v, env, w) := by
  obtain ⟨t, ht, h⟩ := hs.mod _ hm
  have hat := hs.op (Init.b c!"@" .index) (by mem_tac)
  exact evalD_member hat ht (h _ hf)

/-- `m@f args`, for a builtin `f`. -/
theorem eval_lib {m f : Str} {tbl : List (Str × Expr)} (hs : Std env)
    (hm : (m, tbl) ∈ Init.modules) (hf : (f, .builtin nm id hlp) ∈ tbl) :
    evalN P H (stdB P L) (n + 1) (call m f args) env w =
      evalN P H (stdB P L) (n + 1) (.apply (.builtin nm id hlp) args) env w :=
  evalN_call n (evalD_mem (k := 798) hs hm hf)

/-- `m@f args` below the top of an expression -/
theorem evalD_lib {k : Nat} {m f : Str}
    {tbl : List (Str × Expr)} (hs : Std env)
    (hm : (m, tbl) ∈ Init.modules) (hf : (f, .builtin nm id hlp) ∈ tbl) :
    evalD P H (bodyRun P H (stdB P L) n) (k + 3) (call m f args) env w =
      (stdB P L id args).run H (evalN P H (stdB P L) n) env w := by
  rw [evalD]
  simp only [evalStep]
  rw [M.bind_ok (evalD_mem hs hm hf)]
  rfl

/-- `f args`, for a top-level builtin `f`. -/
theorem eval_top {f : Str} (hs : Std env) (hf : (f, .builtin nm id hlp) ∈ Init.top) :
    evalN P H (stdB P L) (n + 1) (.apply (.symbol f) args) env w =
      evalN P H (stdB P L) (n + 1) (.apply (.builtin nm id hlp) args) env w :=
  evalN_symbol (hs.top _ hf)

end

/-- Replace a call by name by the call of the builtin. -/
macro "lib" hs:term "," t:term : tactic => `(tactic|
  rw [eval_lib $hs (tbl := $t) (by mem_tac) (by mem_tac)])

theorem demo_std : Std Demo.env where
  op := by
    simp only [Init.ops, List.forall_mem_cons, List.not_mem_nil, false_imp_iff, implies_true,
      and_true]
    repeat (first | refine ⟨rfl, ?_⟩ | rfl)
  top := by
    simp only [Init.top, List.forall_mem_cons, List.not_mem_nil, false_imp_iff, implies_true,
      and_true]
    repeat (first | refine ⟨rfl, ?_⟩ | rfl)
  mod := by
    simp only [Init.modules, List.forall_mem_cons, List.not_mem_nil, false_imp_iff, implies_true,
      and_true]
    refine ⟨?_, ?_, ?_, ?_, ?_, ?_, ?_, ?_, ?_, ?_, ?_, ?_, ?_, ?_, ?_, ?_, ?_⟩ <;>
    · refine ⟨_, rfl, ?_⟩
      simp only [Init.logM, Init.mathM, Init.dictM, Init.errM, Init.osM, Init.fnM, Init.parseM,
        Init.fsM, Init.ops, Init.stringM, Init.listM, Init.sysM, Init.fmtM, Init.randM,
        Init.widgetM, Init.consoleM, Init.timeM, List.forall_mem_cons, List.not_mem_nil,
        false_imp_iff, implies_true, and_true]
      repeat (first | refine ⟨rfl, ?_⟩ | rfl)

end Dune
