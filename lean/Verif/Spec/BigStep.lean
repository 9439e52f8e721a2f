import Verif.Model.Eval
import Verif.Spec.Truth

/-!
An independent big-step semantics of the expression language, as an inductive relation with an
explicit depth counter and no bound on the size of derivations.  It says which derivations exist;
that one exists for every expression (termination) and that it is unique is proved in
`Verif/Props/Termination.lean`.
-/

namespace Dune.Spec

/-- Is it a value (and not an error, panic, ...)? -/
def IsValue : Outcome Expr → Prop
  | .ok _ => True
  | _ => False

section

variable {W : Type} (P : Plat) (H : Host W) (B : BId → List Expr → M W Expr)

/-- The strings handed to an external program for a list of evaluated arguments. -/
def argStrings (vs : List Expr) : List Str :=
  vs.flatMap fun v => (Expr.flatten [v]).filterMap fun e =>
    match e with
    | .none => Option.none
    | .str s => some s
    | .bytes b => some (P.utf8Lossy b)
    | e => some (display P e)

/-- The variables exported to an external program. -/
def exported (env : Env) : BMap Str :=
  (env.bindings.map fun p => (p.1, display P p.2)).filter fun p => decide (utf8Len p.2 ≤ 1024)

/-- The result of trying to run an external program. -/
inductive ProgramResult (name : Str) (self_ : Expr) (args : List Expr) :
    IORes → Outcome Expr → Prop
  | notFound : ProgramResult name self_ args (.err .notFound) (.err (.programNotFound name))
  | denied : ProgramResult name self_ args (.err .permissionDenied) (.err (.permissionDenied self_))
  | failed (m) : ProgramResult name self_ args (.err (.other m)) (.err (.commandFailed name args))
  | done {r} : (∀ e, r ≠ .err e) → ProgramResult name self_ args r (.ok .none)

/-- A value that can be applied as an external program. -/
inductive NameOf : Expr → Str → Prop
  | symbol (n) : NameOf (.symbol n) n
  | str (n) : NameOf (.str n) n

/-- Values that are neither names, functions, macros nor builtins cannot be applied. -/
def NotApplicable : Expr → Prop
  | .symbol _ | .str _ | .lambda .. | .macro_ .. | .builtin .. => False
  | _ => True

/-- Self-evaluating expressions. -/
def SelfEval : Expr → Prop
  | .none | .int _ | .float _ | .bool _ | .bytes _ | .str _ | .macro_ .. | .builtin .. => True
  | _ => False

mutual

/-- `Ev d env w e o env' w'`: evaluating `e` at nesting depth `d` in environment `env` and world
`w` ends with `o`, leaving `env'` and `w'`. -/
inductive Ev : Nat → Env → W → Expr → Outcome Expr → Env → W → Prop
  | limit {d env w e} : 800 < d → Ev d env w e (.err (.recursionDepth e)) env w
  | self_ {d env w e} : d ≤ 800 → SelfEval e → Ev d env w e (.ok e) env w
  | quote {d env w e} : d ≤ 800 → Ev d env w (.quote e) (.ok e) env w
  | group {d env w e o env' w'} : d ≤ 800 → Ev (d + 1) env w e o env' w' →
      Ev d env w (.group e) o env' w'
  | bound {d env w n v} : d ≤ 800 → env.get n = some v → Ev d env w (.symbol n) (.ok v) env w
  | free {d env w n} : d ≤ 800 → env.get n = Option.none →
      Ev d env w (.symbol n) (.ok (.symbol n)) env w
  | assign {d env w n e v env' w'} : d ≤ 800 → Ev (d + 1) env w e (.ok v) env' w' →
      Ev d env w (.assign n e) (.ok .none) (env'.define n v) w'
  | assignStop {d env w n e o env' w'} : d ≤ 800 → Ev (d + 1) env w e o env' w' → ¬ IsValue o →
      Ev d env w (.assign n e) o env' w'
  | for_ {d env w n l body items env1 w1 vs env' w'} : d ≤ 800 →
      Ev (d + 1) env w l (.ok (.list items)) env1 w1 →
      For (d + 1) env1 w1 n body items vs env' w' →
      Ev d env w (.for_ n l body) (.ok (.list vs)) env' w'
  | forBody {d env w n l body items env1 w1 o env' w'} : d ≤ 800 →
      Ev (d + 1) env w l (.ok (.list items)) env1 w1 →
      ForStop (d + 1) env1 w1 n body items o env' w' →
      Ev d env w (.for_ n l body) o env' w'
  | forNonList {d env w n l body v env1 w1} : d ≤ 800 →
      Ev (d + 1) env w l (.ok v) env1 w1 → (∀ items, v ≠ .list items) →
      Ev d env w (.for_ n l body) (.err (.forNonList l)) env1 w1
  | forStop {d env w n l body o env1 w1} : d ≤ 800 →
      Ev (d + 1) env w l o env1 w1 → ¬ IsValue o → Ev d env w (.for_ n l body) o env1 w1
  | iteTrue {d env w c t e v env1 w1 o env' w'} : d ≤ 800 →
      Ev (d + 1) env w c (.ok v) env1 w1 → Truthy v →
      Ev (d + 1) env1 w1 t o env' w' → Ev d env w (.ite c t e) o env' w'
  | iteFalse {d env w c t e v env1 w1 o env' w'} : d ≤ 800 →
      Ev (d + 1) env w c (.ok v) env1 w1 → ¬ Truthy v →
      Ev (d + 1) env1 w1 e o env' w' → Ev d env w (.ite c t e) o env' w'
  | iteStop {d env w c t e o env1 w1} : d ≤ 800 →
      Ev (d + 1) env w c o env1 w1 → ¬ IsValue o → Ev d env w (.ite c t e) o env1 w1
  | lambda {d env w p body bs ps} : d ≤ 800 →
      Ev d env w (.lambda p body bs ps)
        (.ok (.lambda p body (closeLambda env p body ⟨bs, ps⟩).bindings
          (closeLambda env p body ⟨bs, ps⟩).parents)) env w
  | list {d env w es vs env' w'} : d ≤ 800 → All (d + 1) env w es vs env' w' →
      Ev d env w (.list es) (.ok (.list vs)) env' w'
  | listStop {d env w es o env' w'} : d ≤ 800 → AllStop (d + 1) env w es o env' w' →
      Ev d env w (.list es) o env' w'
  | map {d env w es vs env' w'} : d ≤ 800 →
      All (d + 1) env w (es.map Prod.snd) vs env' w' →
      Ev d env w (.map es) (.ok (.map (BMap.ofList ((es.map Prod.fst).zip vs)))) env' w'
  | mapStop {d env w es o env' w'} : d ≤ 800 →
      AllStop (d + 1) env w (es.map Prod.snd) o env' w' → Ev d env w (.map es) o env' w'
  | doNil {d env w} : d ≤ 800 → Ev d env w (.do_ []) (.ok .none) env w
  | do_ {d env w es e vs env1 w1 o env' w'} : d ≤ 800 → All (d + 1) env w es vs env1 w1 →
      Ev (d + 1) env1 w1 e o env' w' → Ev d env w (.do_ (es ++ [e])) o env' w'
  | doStop {d env w es e o env' w'} : d ≤ 800 → AllStop (d + 1) env w es o env' w' →
      Ev d env w (.do_ (es ++ [e])) o env' w'
  | applyStop {d env w f args o env1 w1} : d ≤ 800 → Ev (d + 1) env w f o env1 w1 →
      ¬ IsValue o → Ev d env w (.apply f args) o env1 w1
  | command {d env w f args g name env1 w1 vs env' w' o} : d ≤ 800 →
      Ev (d + 1) env w f (.ok g) env1 w1 → NameOf g name →
      All (d + 1) env1 w1 args vs env' w' →
      ProgramResult name (.apply f args) args
        (H.io (.status name env'.getCwd (argStrings P vs) (exported P env1)) w').1 o →
      Ev d env w (.apply f args) o env'
        (H.io (.status name env'.getCwd (argStrings P vs) (exported P env1)) w').2
  | commandStop {d env w f args g name env1 w1 o env' w'} : d ≤ 800 →
      Ev (d + 1) env w f (.ok g) env1 w1 → NameOf g name →
      AllStop (d + 1) env1 w1 args o env' w' → Ev d env w (.apply f args) o env' w'
  | cannot {d env w f args g env1 w1} : d ≤ 800 →
      Ev (d + 1) env w f (.ok g) env1 w1 → NotApplicable g →
      Ev d env w (.apply f args) (.err (.cannotApply f args)) env1 w1
  | lambdaNoArg {d env w f p body bs ps env1 w1} : d ≤ 800 →
      Ev (d + 1) env w f (.ok (.lambda p body bs ps)) env1 w1 →
      Ev d env w (.apply f []) (.err (.cannotApply f [])) env1 w1
  | macroNoArg {d env w f p body env1 w1} : d ≤ 800 →
      Ev (d + 1) env w f (.ok (.macro_ p body)) env1 w1 →
      Ev d env w (.apply f []) (.err (.cannotApply f [])) env1 w1
  | lambdaArg {d env w f args a p body bs ps env1 w1 o env2 w2} : d ≤ 800 →
      Ev (d + 1) env w f (.ok (.lambda p body bs ps)) env1 w1 →
      Ev (d + 1) env1 w1 a o env2 w2 → ¬ IsValue o →
      Ev d env w (.apply f (a :: args)) o env2 w2
  | call {d env w f a p body bs ps env1 w1 v env2 w2 o env3 w3} : d ≤ 800 →
      Ev (d + 1) env w f (.ok (.lambda p body bs ps)) env1 w1 →
      Ev (d + 1) env1 w1 a (.ok v) env2 w2 →
      Ev (d + 1) (callEnv p ⟨bs, ps⟩ env1.getCwd v) w2 body o env3 w3 →
      Ev d env w (.apply f [a]) o env2 w3
  | callMore {d env w f a b args p body bs ps env1 w1 v env2 w2 g env3 w3 o env4 w4} : d ≤ 800 →
      Ev (d + 1) env w f (.ok (.lambda p body bs ps)) env1 w1 →
      Ev (d + 1) env1 w1 a (.ok v) env2 w2 →
      Ev (d + 1) (callEnv p ⟨bs, ps⟩ env1.getCwd v) w2 body (.ok g) env3 w3 →
      Ev (d + 1) env2 w3 (.apply g (b :: args)) o env4 w4 →
      Ev d env w (.apply f (a :: b :: args)) o env4 w4
  | callMoreStop {d env w f a b args p body bs ps env1 w1 v env2 w2 o env3 w3} : d ≤ 800 →
      Ev (d + 1) env w f (.ok (.lambda p body bs ps)) env1 w1 →
      Ev (d + 1) env1 w1 a (.ok v) env2 w2 →
      Ev (d + 1) (callEnv p ⟨bs, ps⟩ env1.getCwd v) w2 body o env3 w3 → ¬ IsValue o →
      Ev d env w (.apply f (a :: b :: args)) o env2 w3
  | macroArg {d env w f args a p body env1 w1 o env2 w2} : d ≤ 800 →
      Ev (d + 1) env w f (.ok (.macro_ p body)) env1 w1 →
      Ev (d + 1) env1 w1 a o env2 w2 → ¬ IsValue o →
      Ev d env w (.apply f (a :: args)) o env2 w2
  | expand {d env w f a p body env1 w1 v env2 w2 o env3 w3} : d ≤ 800 →
      Ev (d + 1) env w f (.ok (.macro_ p body)) env1 w1 →
      Ev (d + 1) env1 w1 a (.ok v) env2 w2 →
      Ev (d + 1) (env2.define p v) w2 body o env3 w3 →
      Ev d env w (.apply f [a]) o env3 w3
  | expandMore {d env w f a b args p body env1 w1 v env2 w2 g env3 w3 o env4 w4} : d ≤ 800 →
      Ev (d + 1) env w f (.ok (.macro_ p body)) env1 w1 →
      Ev (d + 1) env1 w1 a (.ok v) env2 w2 →
      Ev (d + 1) (env2.define p v) w2 body (.ok g) env3 w3 →
      Ev (d + 1) env3 w3 (.apply g (b :: args)) o env4 w4 →
      Ev d env w (.apply f (a :: b :: args)) o env4 w4
  | expandMoreStop {d env w f a b args p body env1 w1 v env2 w2 o env3 w3} : d ≤ 800 →
      Ev (d + 1) env w f (.ok (.macro_ p body)) env1 w1 →
      Ev (d + 1) env1 w1 a (.ok v) env2 w2 →
      Ev (d + 1) (env2.define p v) w2 body o env3 w3 → ¬ IsValue o →
      Ev d env w (.apply f (a :: b :: args)) o env3 w3
  | builtin {d env w f args n id h env1 w1 o env' w'} : d ≤ 800 →
      Ev (d + 1) env w f (.ok (.builtin n id h)) env1 w1 →
      B id args env1 w1 = (o, env', w') → Ev d env w (.apply f args) o env' w'

/-- All expressions evaluate, from left to right, to the given values. -/
inductive All : Nat → Env → W → List Expr → List Expr → Env → W → Prop
  | nil {d env w} : All d env w [] [] env w
  | cons {d env w e es v vs env1 w1 env' w'} : Ev d env w e (.ok v) env1 w1 →
      All d env1 w1 es vs env' w' → All d env w (e :: es) (v :: vs) env' w'

/-- Some expression of the list stops evaluation. -/
inductive AllStop : Nat → Env → W → List Expr → Outcome Expr → Env → W → Prop
  | here {d env w e es o env' w'} : Ev d env w e o env' w' → ¬ IsValue o →
      AllStop d env w (e :: es) o env' w'
  | there {d env w e es v env1 w1 o env' w'} : Ev d env w e (.ok v) env1 w1 →
      AllStop d env1 w1 es o env' w' → AllStop d env w (e :: es) o env' w'

/-- The body evaluates to the given values, once per item, with the loop variable set. -/
inductive For : Nat → Env → W → Str → Expr → List Expr → List Expr → Env → W → Prop
  | nil {d env w n body} : For d env w n body [] [] env w
  | cons {d env w n body i is v vs env1 w1 env' w'} :
      Ev d (env.define n i) w body (.ok v) env1 w1 →
      For d env1 w1 n body is vs env' w' → For d env w n body (i :: is) (v :: vs) env' w'

/-- Some iteration stops evaluation. -/
inductive ForStop : Nat → Env → W → Str → Expr → List Expr → Outcome Expr → Env → W → Prop
  | here {d env w n body i is o env' w'} : Ev d (env.define n i) w body o env' w' → ¬ IsValue o →
      ForStop d env w n body (i :: is) o env' w'
  | there {d env w n body i is v env1 w1 o env' w'} :
      Ev d (env.define n i) w body (.ok v) env1 w1 →
      ForStop d env1 w1 n body is o env' w' → ForStop d env w n body (i :: is) o env' w'

end

end

end Dune.Spec
