import Verif.Model.Builtins
import Verif.Spec.Truth

/-! Specifications for arithmetic, comparison and indexing. -/

namespace Dune.Spec

/-- The integer is representable in 64 bits. -/
def Fits (z : Int) : Prop := -2 ^ 63 ≤ z ∧ z < 2 ^ 63

/-- The result of an integer operation whose mathematical result is `z` (`none`: undefined): the
exact result when it is representable, and an error (not a crash) otherwise. -/
def ExactOrError (z : Option Int) (o : Outcome Expr) : Prop :=
  (∃ i : I64, z = some i.val ∧ o = .ok (.int i)) ∨
  ((∀ x, z = some x → ¬ Fits x) ∧ ∃ msg, o = .err (.customError msg))

/-- Quotient rounded toward zero: the `q` with `m = q * n + r`, `|r| < |n|` and `r` zero or of the
sign of `m`. -/
def IsTruncDiv (m n q r : Int) : Prop :=
  m = q * n + r ∧ r.natAbs < n.natAbs ∧ (0 ≤ m → 0 ≤ r) ∧ (m ≤ 0 → r ≤ 0)

/-- All floats in the expression satisfy `F`, and all builtins satisfy `B`; code and captured
environments included. -/
inductive Atoms (F : F64 → Prop) (B : Str → Prop) : Expr → Prop
  | none : Atoms F B .none
  | symbol (s) : Atoms F B (.symbol s)
  | int (i) : Atoms F B (.int i)
  | float {f} : F f → Atoms F B (.float f)
  | bytes (b) : Atoms F B (.bytes b)
  | str (s) : Atoms F B (.str s)
  | bool (b) : Atoms F B (.bool b)
  | group {e} : Atoms F B e → Atoms F B (.group e)
  | quote {e} : Atoms F B e → Atoms F B (.quote e)
  | list {l : List Expr} : (∀ e ∈ l, Atoms F B e) → Atoms F B (.list l)
  | do_ {l : List Expr} : (∀ e ∈ l, Atoms F B e) → Atoms F B (.do_ l)
  | map {m : List (Str × Expr)} : (∀ p ∈ m, Atoms F B p.2) → Atoms F B (.map m)
  | assign {x e} : Atoms F B e → Atoms F B (.assign x e)
  | for_ {x a b} : Atoms F B a → Atoms F B b → Atoms F B (.for_ x a b)
  | ite {a b c} : Atoms F B a → Atoms F B b → Atoms F B c → Atoms F B (.ite a b c)
  | apply {f} {l : List Expr} : Atoms F B f → (∀ e ∈ l, Atoms F B e) → Atoms F B (.apply f l)
  | lambda {x b} {m : List (Str × Expr)} {ps : List (List (Str × Expr))} : Atoms F B b →
      (∀ p ∈ m, Atoms F B p.2) → (∀ q ∈ ps, ∀ p ∈ q, Atoms F B p.2) → Atoms F B (.lambda x b m ps)
  | macro_ {x b} : Atoms F B b → Atoms F B (.macro_ x b)
  | builtin {n i h} : B n → Atoms F B (.builtin n i h)

/-- No float in the expression is a NaN. -/
def NaNFree : Expr → Prop := Atoms (fun f => ¬ IsNaN f) (fun _ => True)

/-- The expression contains neither floats nor builtins. -/
def Exact : Expr → Prop := Atoms (fun _ => False) (fun _ => False)

end Dune.Spec
