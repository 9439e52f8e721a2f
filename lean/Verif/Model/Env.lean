import Verif.Model.Syntax

/-! `Environment` (src/env.rs). -/

namespace Dune

/-- `CWD_ENV_VAR` (src/env.rs:4). -/
def cwdVar : Str := c!"CWD"

namespace Env

/-- `Environment::new` (src/env.rs:19-24). -/
def empty : Env := ⟨[], []⟩

/-- `Environment::get` (src/env.rs:49-57); the chain of parents is walked as a list. -/
def get (env : Env) (x : Str) : Option Expr :=
  match env.bindings.get? x with
  | some e => some e
  | none => getParents env.parents x
where
  /-- the recursive calls `parent.get(name)` -/
  getParents : List (BMap Expr) → Str → Option Expr
    | [], _ => none
    | f :: fs, x =>
      match f.get? x with
      | some e => some e
      | none => getParents fs x

/-- `Environment::is_defined` (src/env.rs:59-66). -/
def isDefined (env : Env) (x : Str) : Bool :=
  env.bindings.contains x || env.parents.any fun f => f.contains x

/-- `Environment::undefine` (src/env.rs:68-70). -/
def undefine (env : Env) (x : Str) : Env := { env with bindings := env.bindings.remove x }

/-- `Environment::define` (src/env.rs:72-74). -/
def define (env : Env) (x : Str) (e : Expr) : Env :=
  { env with bindings := env.bindings.insert x e }

/-- `Environment::get_cwd` (src/env.rs:38-43). -/
def getCwd (env : Env) : Str :=
  match env.get cwdVar with
  | some (.str path) => path
  | _ => c!"/"

/-- `Environment::set_cwd` (src/env.rs:45-47). -/
def setCwd (env : Env) (cwd : Str) : Env := env.define cwdVar (.str cwd)

/-- `Environment::set_parent` (src/env.rs:88-90). -/
def setParent (env parent : Env) : Env :=
  { env with parents := parent.bindings :: parent.parents }

/-- `Environment::define_module` (src/env.rs:26-36). -/
def defineModule (env : Env) (name : Str) (module_ : List (Str × Expr)) : Env :=
  env.define name (.map (BMap.ofList module_))

end Env

end Dune
