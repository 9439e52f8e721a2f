import Verif.Model.Eval
import Verif.Proof.BMap

/-! Lemmas about environments and closures. -/

namespace Dune

namespace Env

theorem get_define (env : Env) (x y : Str) (v : Expr) :
    (env.define x v).get y = if x = y then some v else env.get y := by
  simp only [get, define, BMap.get?_insert]
  by_cases h : x = y <;> simp [h]

theorem get_undefine (env : Env) (x y : Str) :
    (env.undefine x).get y = if x = y then get.getParents env.parents y else env.get y := by
  simp only [get, undefine, BMap.get?_remove]
  by_cases h : x = y <;> simp [h]

@[simp] theorem define_parents (env : Env) (x : Str) (v : Expr) :
    (env.define x v).parents = env.parents := rfl
@[simp] theorem undefine_parents (env : Env) (x : Str) :
    (env.undefine x).parents = env.parents := rfl
@[simp] theorem setCwd_parents (env : Env) (c : Str) : (env.setCwd c).parents = env.parents := rfl

theorem getParents_isSome (fs : List (BMap Expr)) (x : Str) :
    (get.getParents fs x).isSome = fs.any fun f => f.contains x := by
  induction fs with
  | nil => rfl
  | cons f fs ih =>
    simp only [get.getParents, List.any_cons, BMap.contains]
    cases f.get? x <;> simp [ih, BMap.contains]

theorem isDefined_eq (env : Env) (x : Str) : env.isDefined x = (env.get x).isSome := by
  simp only [isDefined, get, BMap.contains]
  cases env.bindings.get? x with
  | none => simp [getParents_isSome, BMap.contains]
  | some v => simp

end Env

theorem capture_parents (env captured : Env) (p : Str) : ∀ ss tmp,
    (capture env captured p ss tmp).parents = tmp.parents
  | [], _ => rfl
  | s :: ss, tmp => by
    simp only [capture]
    split
    · split
      · rw [capture_parents]; rfl
      · exact capture_parents ..
    · exact capture_parents ..

theorem capture_get (env captured : Env) (p s : Str) : ∀ ss tmp,
    (capture env captured p ss tmp).bindings.get? s =
      if s ∈ ss ∧ s ≠ p ∧ captured.isDefined s = false ∧ (env.get s).isSome = true
      then env.get s else tmp.bindings.get? s
  | [], tmp => by simp [capture]
  | t :: ss, tmp => by
    simp only [capture]
    by_cases h1 : t ≠ p ∧ captured.isDefined t = false
    · rw [if_pos h1]
      cases hg : env.get t with
      | none =>
        simp only []
        rw [capture_get env captured p s ss]
        by_cases hst : s = t
        · subst hst; simp [hg]
        · simp [hst]
      | some v =>
        simp only []
        rw [capture_get env captured p s ss]
        simp only [Env.define, BMap.get?_insert]
        by_cases hst : s = t
        · subst hst; simp [hg, h1.1, h1.2]
        · simp [hst, Ne.symm hst]
    · rw [if_neg h1, capture_get env captured p s ss]
      by_cases hst : s = t
      · subst hst
        have : ¬ (s ≠ p ∧ captured.isDefined s = false ∧ (env.get s).isSome = true) :=
          fun h => h1 ⟨h.1, h.2.1⟩
        simp [this]
      · simp [hst]

theorem closeLambda_parents (env : Env) (p : Str) (body : Expr) (captured : Env) :
    (closeLambda env p body captured).parents = captured.parents := by
  simp [closeLambda, capture_parents]

end Dune
