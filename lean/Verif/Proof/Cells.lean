import Verif.Spec.Cells
import Verif.Proof.BMap
import Verif.Proof.Env
import Mathlib.Data.List.Perm.Basic
import Mathlib.Data.List.Nodup

/-! Sizes of captured environments. -/

namespace Dune.Spec

theorem cells_pos (e : Expr) : 1 ≤ cells e := by cases e <;> simp only [cells] <;> omega

theorem cellsMap_eq (m : List (Str × Expr)) :
    cellsMap m = (m.map fun p => p.1.length + cells p.2).sum := by
  induction m with
  | nil => rfl
  | cons p m ih => obtain ⟨x, e⟩ := p; simp [cellsMap, ih]

theorem cellsMap_perm {m n : List (Str × Expr)} (h : m.Perm n) : cellsMap m = cellsMap n := by
  rw [cellsMap_eq, cellsMap_eq]
  exact (h.map _).sum_nat

theorem cellsMap_append (m n : List (Str × Expr)) : cellsMap (m ++ n) = cellsMap m + cellsMap n := by
  simp [cellsMap_eq]

theorem cellsMap_get {m : List (Str × Expr)} {x : Str} {v : Expr} (h : BMap.get? m x = some v) :
    cells v ≤ cellsMap m := by
  induction m with
  | nil => simp at h
  | cons p m ih =>
    obtain ⟨y, e⟩ := p
    simp only [BMap.get?] at h
    simp only [cellsMap]
    split at h
    · simp only [Option.some.injEq] at h; subst h; omega
    · have := ih h; omega

theorem capture_sorted (env captured : Env) (p : Str) : ∀ ss tmp, BMap.Sorted tmp.bindings →
    BMap.Sorted (capture env captured p ss tmp).bindings
  | [], _, h => h
  | s :: ss, tmp, h => by
    rw [capture]
    split
    · split
      · exact capture_sorted env captured p ss _ (h.insert _ _)
      · exact capture_sorted env captured p ss _ h
    · exact capture_sorted env captured p ss _ h

theorem closeLambda_sorted (env : Env) (p : Str) (body : Expr) :
    BMap.Sorted (closeLambda env p body Env.empty).bindings :=
  capture_sorted _ _ _ _ _ ((BMap.sorted_nil.insert _ _).insert _ _)

theorem sorted_nodup {m : BMap Expr} (h : BMap.Sorted m) : m.Nodup :=
  h.imp fun hab e => cmpStr_ne_of_lt hab (congrArg Prod.fst e)

end Dune.Spec
