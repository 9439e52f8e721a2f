import Verif.Model.Eval
import Verif.Proof.BMap

/-! Small specifications used by the evaluator properties. -/

namespace Dune.Spec

/-- Plain data nested less than `n` levels deep: atoms, lists, and maps with ascending keys (the
only maps a `BTreeMap` can hold). -/
inductive Data : Nat → Expr → Prop
  | none {n} : Data (n + 1) .none
  | int {n} (i) : Data (n + 1) (.int i)
  | float {n} (f) : Data (n + 1) (.float f)
  | bytes {n} (b) : Data (n + 1) (.bytes b)
  | str {n} (s) : Data (n + 1) (.str s)
  | bool {n} (b) : Data (n + 1) (.bool b)
  | macro_ {n} (p b) : Data (n + 1) (.macro_ p b)
  | builtin {n} (m i h) : Data (n + 1) (.builtin m i h)
  | list {n} {l : List Expr} : (∀ e ∈ l, Data n e) → Data (n + 1) (.list l)
  | map {n} {m : List (Str × Expr)} : BMap.Sorted m → (∀ p ∈ m, Data n p.2) → Data (n + 1) (.map m)

/-- `Iterates step items vs s s'`: running `step` once per item, threading the state, yields the
values `vs` in order. -/
inductive Iterates {S A V : Type} (step : A → S → Option V × S) :
    List A → List V → S → S → Prop
  | nil (s) : Iterates step [] [] s s
  | cons {a as v vs s s1 s2} : step a s = (some v, s1) → Iterates step as vs s1 s2 →
      Iterates step (a :: as) (v :: vs) s s2

/-- One operation on an environment. -/
inductive EnvOp
  | define (x : Str) (v : Expr)
  | undefine (x : Str)

/-- The value of the last operation on `x` in a history (oldest first): `none` if there was no
operation on `x`, `some none` if the last one removed it. -/
def lastWrite (x : Str) : List EnvOp → Option (Option Expr)
  | [] => Option.none
  | op :: ops =>
    match lastWrite x ops with
    | some r => some r
    | Option.none =>
      match op with
      | .define y v => if y = x then some (some v) else Option.none
      | .undefine y => if y = x then some Option.none else Option.none

/-- The variable is visible in the environment. -/
def Visible (env : Env) (x : Str) : Prop := ∃ v, env.get x = some v

/-- The leaves of a value passed to a program: lists and groups are opened, in order. -/
inductive Leaves : Expr → List Expr → Prop
  | nil : Leaves (.list []) []
  | cons {e l ls ms} : Leaves e ls → Leaves (.list l) ms → Leaves (.list (e :: l)) (ls ++ ms)
  | group {e ls} : Leaves e ls → Leaves (.group e) ls
  | atom {e} : (∀ l, e ≠ .list l) → (∀ g, e ≠ .group g) → Leaves e [e]

end Dune.Spec
