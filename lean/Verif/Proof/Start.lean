import Verif.Proof.Lib
import Verif.Spec.Start

/-! The starting environment has the standard library. -/

namespace Dune

open Spec Init

theorem defineAll_get (env : Env) (l : List (Str × Expr)) (x : Str) :
    (defineAll env l).get x = (BMap.get? l.reverse x).or (env.get x) := by
  rw [defineAll, Env.get, BMap.get?_extend, Env.get]
  cases BMap.get? l.reverse x <;> rfl

section

variable {X : Machine}

theorem start_get (x : Str) : (start X).get x =
    (BMap.get? ((c!"help", X.help) :: top).reverse x).or
      ((BMap.get? (startModules X).reverse x).or
        (if c!"std" = x then some (.map (BMap.ofList (startModules X))) else
          (BMap.get? (startOps X).reverse x).or ((startFs X).get x))) := by
  rw [start, defineAll_get, defineAll_get, Env.defineModule, Env.get_define, defineAll_get]

theorem ofList_append {a b : List (Str × Expr)} {x : Str} {v : Expr}
    (h : BMap.get? b.reverse x = some v) : BMap.get? (BMap.ofList (a ++ b)) x = some v := by
  rw [BMap.ofList, BMap.get?_extend, List.reverse_append, BMap.get?_extend.get?_append, h]
  rfl

theorem start_op : ∀ p ∈ startOps X, (start X).get p.1 = some p.2 := by
  simp only [startOps, ops, redirects, List.cons_append, List.nil_append, List.forall_mem_cons,
    List.not_mem_nil, false_imp_iff, implies_true, and_true]
  repeat (first | refine ⟨(start_get _).trans rfl, ?_⟩ | exact (start_get _).trans rfl)

theorem start_top : ∀ p ∈ top, (start X).get p.1 = some p.2 := by
  simp only [top, List.forall_mem_cons, List.not_mem_nil, false_imp_iff, implies_true, and_true]
  repeat (first | refine ⟨(start_get _).trans rfl, ?_⟩ | exact (start_get _).trans rfl)

/-- the members of the modules -/
theorem start_mod : ∀ m ∈ modules, ∃ tbl : BMap Expr, (start X).get m.1 = some (.map tbl) ∧
    ∀ p ∈ m.2, tbl.get? p.1 = some p.2 := by
  simp only [modules, List.forall_mem_cons, List.not_mem_nil, false_imp_iff, implies_true,
    and_true]
  refine ⟨?_, ?_, ?_, ?_, ?_, ?_, ?_, ?_, ?_, ?_, ?_, ?_, ?_, ?_, ?_, ?_, ?_⟩ <;>
  · refine ⟨_, (start_get _).trans rfl, ?_⟩
    simp only [logM, mathM, dictM, errM, osM, fnM, parseM, fsM, ops, stringM, listM, sysM, fmtM,
      randM, widgetM, consoleM, timeM, List.forall_mem_cons, List.not_mem_nil, false_imp_iff,
      implies_true, and_true]
    repeat (first | refine ⟨ofList_append rfl, ?_⟩ | exact ofList_append rfl)

theorem start_fs : ∃ tbl : BMap Expr, (startFs X).get c!"fs" = some (.map tbl) ∧
    ∀ p ∈ fsM, tbl.get? p.1 = some p.2 := by
  refine ⟨_, by rw [startFs, Env.defineModule, Env.get_define, if_pos rfl], ?_⟩
  simp only [fsM, List.forall_mem_cons, List.not_mem_nil, false_imp_iff, implies_true, and_true]
  repeat (first | refine ⟨ofList_append rfl, ?_⟩ | exact ofList_append rfl)

theorem start_math : ∃ tbl : BMap Expr, (start X).get c!"math" = some (.map tbl) ∧
    ∀ p ∈ extremes (defineAll (startFs X) (startOps X)), tbl.get? p.1 = some p.2 := by
  refine ⟨_, (start_get _).trans rfl, ?_⟩
  simp only [extremes, List.forall_mem_cons, List.not_mem_nil, false_imp_iff, implies_true,
    and_true]
  exact ⟨ofList_append rfl, ofList_append rfl⟩

variable {env : Env}

theorem Spec.Fresh.op (h : Fresh X env) {p : Str × Expr} (hp : p ∈ startOps X) :
    env.get p.1 = some p.2 := by
  rw [h p.1 ?_, start_op p hp]
  have h2 : (startOps X).map Prod.fst = ops.map Prod.fst ++ [c!"<<", c!">>", c!">>>"] := rfl
  have := List.mem_map_of_mem (f := Prod.fst) hp
  rw [h2] at this
  exact List.mem_append_left _ (List.mem_append_left _ this)

theorem Spec.Fresh.std (h : Fresh X env) : Std env where
  op p hp := h.op (List.mem_append_left _ hp)
  top p hp := by
    rw [h p.1 (List.mem_append_right _ (List.mem_map_of_mem hp)), start_top p hp]
  mod m hm := by
    rw [h m.1 (List.mem_append_left _ (List.mem_append_right _ (List.mem_map_of_mem hm)))]
    exact start_mod m hm

/-- The shell starts with the standard library. -/
theorem start_fresh : Fresh X (start X) := fun _ _ => rfl

theorem start_std : Std (start X) := start_fresh.std

end

end Dune
