import Verif.Model.Start
import Verif.Spec.Std

/-! The names the shell starts with. -/

namespace Dune.Spec

/-- The names of the operators, modules and top-level functions. -/
def libNames : List Str :=
  Init.ops.map Prod.fst ++ [c!"<<", c!">>", c!">>>"] ++ Init.modules.map Prod.fst ++
    Init.top.map Prod.fst

/-- The names of the library still mean what they meant when the shell started on the machine. -/
def Fresh (X : Init.Machine) (env : Env) : Prop :=
  ∀ x ∈ libNames, env.get x = (Init.start X).get x

end Dune.Spec
