import Verif.Spec.Demo

/-! The standard library as a user sees it: names, not builtins. -/

namespace Dune.Spec

/-- `m@f`: the member `f` of the module `m`. -/
abbrev member (m f : Str) : Expr := .apply (.symbol c!"@") [.symbol m, .symbol f]

/-- `m@f args` -/
abbrev call (m f : Str) (args : List Expr) : Expr := .apply (member m f) args

/-- The names of the standard library still have their initial meaning in the environment. -/
structure Std (env : Env) : Prop where
  op : ∀ p ∈ Init.ops, env.get p.1 = some p.2
  top : ∀ p ∈ Init.top, env.get p.1 = some p.2
  mod : ∀ m ∈ Init.modules, ∃ tbl : BMap Expr,
    env.get m.1 = some (.map tbl) ∧ ∀ p ∈ m.2, tbl.get? p.1 = some p.2

end Dune.Spec
