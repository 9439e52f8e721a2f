import Verif.Model.Eval

/-!
How much memory a value takes.  Nothing is shared: a function owns a copy of everything it captured
(`Environment` and `Expression` derive `Clone`, src/env.rs:6, src/expr.rs:92, and hold their parts
in `Box`, `Vec` and `BTreeMap`).  A cell is a node of the tree, or a character or byte of its texts.
The names and help texts of builtins are not counted.
-/

namespace Dune.Spec

mutual

def cells : Expr → Nat
  | .group e => 1 + cells e
  | .symbol x => 1 + x.length
  | .int _ => 1
  | .float _ => 1
  | .bytes b => 1 + b.length
  | .str s => 1 + s.length
  | .bool _ => 1
  | .list l => 1 + cellsList l
  | .map m => 1 + cellsMap m
  | .none => 1
  | .assign x e => 1 + x.length + cells e
  | .for_ x l b => 1 + x.length + cells l + cells b
  | .ite c t e => 1 + cells c + cells t + cells e
  | .apply f args => 1 + cells f + cellsList args
  | .lambda p b binds parents => 1 + p.length + cells b + cellsMap binds + cellsMaps parents
  | .macro_ p b => 1 + p.length + cells b
  | .do_ l => 1 + cellsList l
  | .builtin _ _ _ => 1
  | .quote e => 1 + cells e

def cellsList : List Expr → Nat
  | [] => 0
  | e :: l => cells e + cellsList l

def cellsMap : List (Str × Expr) → Nat
  | [] => 0
  | (x, e) :: m => x.length + cells e + cellsMap m

def cellsMaps : List (List (Str × Expr)) → Nat
  | [] => 0
  | m :: l => cellsMap m + cellsMaps l

end

/-- The cells of the current value of a variable, with its name. -/
def cellsOf (env : Env) (x : Str) : Nat :=
  match env.get x with
  | some v => x.length + cells v
  | none => 0

end Dune.Spec
