import Verif.Spec.Grammar
import Verif.Model.Parser

/-! The stages of a pipeline as the parser collects them. -/

namespace Dune.Parse

open Spec

theorem pipeArgs_stages : ∀ (L : List (Tok × Expr)) (done : List Expr) (cur : Expr),
    pipeArgs (done ++ [cur]) L = pipeStages done cur (L.map fun p => (p.1.text, p.2))
  | [], done, cur => by simp [pipeArgs, pipeStages]
  | (t, item) :: L, done, cur => by
    rw [pipeArgs, List.map_cons, pipeStages]
    split
    · rw [List.getLast?_concat]
      simp only
      rw [List.dropLast_concat]
      have := pipeArgs_stages L (done ++ [Expr.apply (.symbol c!"<<") [item]]) cur
      simpa using this
    · split
      · exact pipeArgs_stages L (done ++ [cur]) item
      · exact pipeArgs_stages L (done ++ [cur]) _

theorem stages_two : ∀ (m : List (Str × Expr)) (done : List Expr) (cur : Expr),
    m ≠ [] ∨ done ≠ [] → ∃ a b r, pipeStages done cur m = a :: b :: r
  | [], done, cur, h => by
    cases done with
    | nil => simp at h
    | cons a r =>
      cases r with
      | nil => exact ⟨a, cur, [], rfl⟩
      | cons b r => exact ⟨a, b, r ++ [cur], rfl⟩
  | (op, y) :: m, done, cur, h => by
    rw [pipeStages]
    split
    · exact stages_two m _ _ (.inr (by simp))
    · split <;> exact stages_two m _ _ (.inr (by simp))

end Dune.Parse
