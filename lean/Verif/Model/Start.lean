import Verif.Model.Init

/-!
The environment the shell starts with: `binary::init` (src/binary/init/mod.rs:28-438) with the
parts of the modules that depend on it (src/binary/init/fs_module.rs:42-75, 350-351,
src/binary/init/operator_module.rs:266-297, src/binary/init/math_module.rs:11-12).
-/

namespace Dune.Init

/-- What the starting environment depends on: the directories of the user, the members of modules
that are not modelled (by module), the module `shell` and the builtin `help`. -/
structure Machine where
  home : Option Str
  cwd : Option Str
  desktop : Option Str
  documents : Option Str
  downloads : Option Str
  more : Str → List (Str × Expr)
  shell : Expr
  help : Expr

/-- define the entries one after the other -/
def defineAll (env : Env) (l : List (Str × Expr)) : Env :=
  { env with bindings := BMap.extend env.bindings l }

/-- `if let Some(path) = .. { env.define(name, path) }` -/
def defineDir (name : Str) (path : Option Str) : List (Str × Expr) :=
  match path with
  | some p => [(name, .str p)]
  | none => []

/-- The variables for directories (src/binary/init/fs_module.rs:45-73): the working directory is
set to the home directory first, then to the current directory. -/
def dirVars (X : Machine) : List (Str × Expr) :=
  defineDir c!"CWD" X.home ++ defineDir c!"HOME" X.home ++ defineDir c!"CWD" X.cwd ++
    defineDir c!"DESK" X.desktop ++ defineDir c!"DOCS" X.documents ++
    defineDir c!"DOWN" X.downloads

/-- the members of a module: those not modelled first, then the others (their names differ) -/
def members (X : Machine) (name : Str) (tbl : List (Str × Expr)) : List (Str × Expr) :=
  X.more name ++ tbl

/-- the closure a function literal without captured variables evaluates to in `env` -/
def closureIn (env : Env) (p : Str) (body : Expr) : Expr :=
  let tmp := closeLambda env p body Env.empty
  .lambda p body tmp.bindings tmp.parents

/-- `contents -> fs@write file contents` and the same with `append` -/
def redirectBody (member : Str) : Expr :=
  .lambda c!"contents" (.apply (.apply (.symbol c!"@") [.symbol c!"fs", .symbol member])
    [.symbol c!"file", .symbol c!"contents"]) [] []

/-- `<<`, `>>`, `>>>` (src/binary/init/operator_module.rs:271-290), evaluated in the environment
with the core operators. -/
def redirects (env : Env) : List (Str × Expr) := [
  (c!"<<", .builtin c!"read" .fsRead []),
  (c!">>", closureIn env c!"file" (redirectBody c!"write")),
  (c!">>>", closureIn env c!"file" (redirectBody c!"append"))]

/-- `y -> if (x > y) { x } else { y }` (the operator is a parameter) -/
def extremeBody (op : Str) : Expr :=
  .lambda c!"y" (.ite (.group (.group (.apply (.symbol op) [.symbol c!"x", .symbol c!"y"])))
    (.do_ [.symbol c!"x"]) (.group (.do_ [.symbol c!"y"]))) [] []

/-- `math@max`, `math@min` (src/binary/init/math_module.rs:11-12). -/
def extremes (env : Env) : List (Str × Expr) := [
  (c!"max", closureIn env c!"x" (extremeBody c!">")),
  (c!"min", closureIn env c!"x" (extremeBody c!"<"))]

/-- after `fs_module::get` -/
def startFs (X : Machine) : Env :=
  (defineAll Env.empty (dirVars X)).defineModule c!"fs" (members X c!"fs" fsM)

/-- the operators -/
def startOps (X : Machine) : List (Str × Expr) :=
  ops ++ redirects (defineAll (startFs X) ops)

/-- the standard modules -/
def startModules (X : Machine) : List (Str × Expr) :=
  let env := defineAll (startFs X) (startOps X)
  (c!"shell", X.shell) :: modules.map fun m =>
    (m.1, .map (BMap.ofList (members X m.1 (m.2 ++
      (if m.1 = c!"ops" then redirects (defineAll (startFs X) ops)
      else if m.1 = c!"math" then extremes env else [])))))

/-- `init` (src/binary/init/mod.rs:28-438) in the empty environment. -/
def start (X : Machine) : Env :=
  let env := defineAll (startFs X) (startOps X)
  let env := env.defineModule c!"std" (startModules X)
  let env := defineAll env (startModules X)
  defineAll env ((c!"help", X.help) :: top)

end Dune.Init
