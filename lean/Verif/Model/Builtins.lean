import Verif.Model.Eval
import Verif.Model.Text
import Verif.Model.ErrorFmt
import Verif.Model.Highlight

/-!
The builtin functions, one definition per Rust function or closure.  The help texts of builtins
are omitted (empty).
-/

namespace Dune

/-- `json::JsonValue`; `Short` is `String`.  The entries of an object in the order of `iter()`. -/
inductive Json
  | null
  | bool (b : Bool)
  | num (neg : Bool) (digits : Nat) (exp : Int)
  | str (s : Str)
  | arr (l : List Json)
  | obj (m : List (Str × Json))

/-- `toml::Value`; a date and time is given by its text. -/
inductive Toml
  | bool (b : Bool)
  | int (i : I64)
  | float (f : F64)
  | datetime (s : Str)
  | str (s : Str)
  | arr (l : List Toml)
  | table (m : List (Str × Toml))

/-- The parts of the library given from outside: the parser (`crate::parse_script`, modelled in
`Verif/Model/Parser.lean`), the parsers for JSON and TOML texts, and the behaviour of builtins that
are not modelled. -/
structure Lib where
  parse : Str → Outcome Expr
  json : Str → Option Json
  toml : Str → Option Toml
  other : Nat → List Expr → BProg Expr

namespace Builtins

open BProg

/-! ### Helpers -/

/-- `args[i]`: out of range is a panic. -/
def arg (args : List Expr) (i : Nat) : BProg Expr :=
  match args[i]? with
  | some e => .ret e
  | none => .panic

/-- `args[i].eval(env)?` -/
def evArg (args : List Expr) (i : Nat) : BProg Expr := do
  let e ← arg args i
  ev e

/-- `args.into_iter().map(|x| x.eval(env)).collect::<Result<Vec<_>, _>>()?` -/
def evAll : List Expr → BProg (List Expr)
  | [] => .ret []
  | e :: es => do
    let v ← ev e
    let vs ← evAll es
    .ret (v :: vs)

/-- `check_args_len` (src/binary/init/mod.rs:441-454) for the range `lo..=hi`. -/
def checkArgs (name : Str) (args : List Expr) (lo hi : Nat) : BProg Unit :=
  if lo ≤ args.length ∧ args.length ≤ hi then .ret ()
  else fail (c!"too few arguments to function " ++ name)

/-- `check_exact_args_len` (src/binary/init/mod.rs:456-470). -/
def checkExact (name : Str) (args : List Expr) (n : Nat) : BProg Unit :=
  if args.length = n then .ret ()
  else if n < args.length then fail (c!"too many arguments to function " ++ name)
  else fail (c!"too few arguments to function " ++ name)

/-- the check `if args.len() != n { return Err(..) }` of the list module -/
def needArgs (msg : Str) (args : List Expr) (n : Nat) : BProg Unit :=
  if args.length = n then .ret () else fail msg

/-- `print!`: a failing standard output is a panic. -/
def out (s : Str) : BProg Unit := do
  match ← ask (.print s) with
  | .err _ => .panic
  | _ => .ret ()

/-- `Expression::Symbol(x) | Expression::String(x)` -/
def strOrSym : Expr → Option Str
  | .symbol s => some s
  | .str s => some s
  | _ => none

/-- `format!("arg{}", i)` -/
def argName (i : Nat) : Str := c!"arg" ++ natToStr i

/-- the loop of `curry_env` (src/binary/init/fn_module.rs:15-22) -/
def curryLoop : Nat → Expr → BProg Expr
  | 0, r => .ret r
  | i + 1, r => do
    let r' ← ev (.lambda (argName i) r [] [])
    curryLoop i r'

/-- `curry_env` (src/binary/init/fn_module.rs:4-24). -/
def curryEnv (f : Expr) (n : Nat) : BProg Expr :=
  curryLoop n (.apply f ((List.range n).map fun i => .symbol (argName i)))

/-- The closure a function literal without captured variables evaluates to in the empty
environment. -/
def closed (p : Str) (body : Expr) : Expr :=
  let tmp := closeLambda Env.empty p body Env.empty
  .lambda p body tmp.bindings tmp.parents

/-- `curry(f, 2)` (src/binary/init/fn_module.rs:54-57): `curry_env` in an empty environment, where
evaluating the function literals cannot fail. -/
def curry2 (f : Expr) : Expr :=
  closed (argName 0) (closed (argName 1) (.apply f [.symbol (argName 0), .symbol (argName 1)]))

/-- `reverse_curry(f, 2)` (src/binary/init/fn_module.rs:49-52, 26-47). -/
def reverseCurry2 (f : Expr) : Expr :=
  closed (argName 0) (closed (argName 1) (.apply f [.symbol (argName 1), .symbol (argName 0)]))

/-! ### src/binary/init/operator_module.rs -/

/-- the accumulating loops of `+ - * // %` (e.g. 21-31): the accumulator is evaluated again, then
the next argument. -/
def opLoop (P : Plat) (verb : Str) (f : Expr → Expr → Outcome Expr) : Expr → List Expr → BProg Expr
  | r, [] => .ret r
  | r, a :: as => do
    let r' ← ev r
    let v ← ev a
    match ← lift (f r' v) with
    | .none => fail (c!"cannot " ++ verb ++ c!" " ++ debug P r ++ c!" and " ++ debug P a)
    | s => opLoop P verb f s as

/-- `add_builtin` (8-33). -/
def addB (P : Plat) (args : List Expr) : BProg Expr := do
  let r ← evArg args 0
  match args.tail with
  | [] => ev (.apply (reverseCurry2 (.builtin c!"+" .add [])) [r])
  | rest => opLoop P c!"add" (fun a b => .ok (Expr.add P a b)) r rest

/-- `-` (45-69). -/
def subB (P : Plat) (args : List Expr) : BProg Expr := do
  let r ← evArg args 0
  match args.tail with
  | [] => lift (Expr.neg P r)
  | rest => opLoop P c!"subtract" (fun a b => .ok (Expr.sub P a b)) r rest

/-- `*` (74-92). -/
def mulB (P : Plat) (args : List Expr) : BProg Expr := do
  let r ← evArg args 0
  opLoop P c!"multiply" (Expr.mul P) r args.tail

/-- `//` (100-118). -/
def divB (P : Plat) (args : List Expr) : BProg Expr := do
  let r ← evArg args 0
  opLoop P c!"divide" (fun a b => .ok (Expr.div P a b)) r args.tail

/-- `%` (126-144). -/
def remB (P : Plat) (args : List Expr) : BProg Expr := do
  let r ← evArg args 0
  opLoop P c!"remainder" Expr.rem r args.tail

/-- `&&` (149-161). -/
def andB (args : List Expr) : BProg Expr := do
  let vs ← evAll args
  .ret (.bool (vs.all Expr.isTruthy))

/-- `||` (163-175). -/
def orB (args : List Expr) : BProg Expr := do
  let vs ← evAll args
  .ret (.bool (vs.any Expr.isTruthy))

/-- `!` (177-189). -/
def notB (args : List Expr) : BProg Expr := do
  let vs ← evAll args
  .ret (.bool (vs.all fun v => !v.isTruthy))

/-- `==` (191-199), `!=` (201-209), `<` (211-219), `<=`, `>`, `>=` (221-249). -/
def cmpB (f : Expr → Expr → Bool) (args : List Expr) : BProg Expr := do
  let a ← evArg args 0
  let b ← evArg args 1
  .ret (.bool (f a b))

/-- `a < b` from `partial_cmp` -/
def ltE (a b : Expr) : Bool := decide (Expr.partialCmp a b = some .lt)
/-- `a <= b` from `partial_cmp` -/
def leE (a b : Expr) : Bool :=
  decide (Expr.partialCmp a b = some .lt ∨ Expr.partialCmp a b = some .eq)
/-- `a > b` from `partial_cmp` -/
def gtE (a b : Expr) : Bool := decide (Expr.partialCmp a b = some .gt)
/-- `a >= b` from `partial_cmp` -/
def geE (a b : Expr) : Bool :=
  decide (Expr.partialCmp a b = some .gt ∨ Expr.partialCmp a b = some .eq)

/-- the loop of `@` (255-261): integer and symbol indices are taken literally. -/
def indexLoop : Expr → List Expr → BProg Expr
  | val, [] => .ret val
  | val, a :: as => do
    let i ← (match a with
      | .int i => .ret (.int i)
      | .symbol s => .ret (.symbol s)
      | e => ev e)
    indexLoop (Expr.index val i) as

/-- `@` (251-265). -/
def indexB (args : List Expr) : BProg Expr := do
  let v ← evArg args 0
  indexLoop v args.tail

/-- The program, directory, arguments and variables of a `std::process::Command`. -/
structure Cmd where
  prog : Str
  cwd : Str
  args : List Str
  envs : BMap Str

/-- the arguments of a pipeline stage (490-493): literal `None`s are skipped, the others evaluated
and rendered. -/
def cmdArgs (P : Plat) : List Expr → BProg (List Str)
  | [] => .ret []
  | .none :: as => cmdArgs P as
  | a :: as => do
    let v ← ev a
    let rest ← cmdArgs P as
    .ret (display P v :: rest)

/-- `expr_to_command` (457-533). -/
def exprToCommand (P : Plat) : Expr → BProg (Option Cmd)
  | .group e => exprToCommand P e
  | .quote e => exprToCommand P e
  | .apply (.symbol name) args => named name args
  | .apply (.str name) args => named name args
  | .apply (.quote (.str name)) args => command name args
  | .apply (.quote (.symbol name)) args => command name args
  | .symbol name => do
    let env ← env
    match env.get name with
    | some (.symbol alias) => .ret (some ⟨alias, env.getCwd, [], exportBindings P env.bindings⟩)
    | some _ => .ret none
    | Option.none => .ret (some ⟨name, env.getCwd, [], exportBindings P env.bindings⟩)
  | _ => .ret none
where
  /-- 487-495 and 499-507 -/
  command (name : Str) (args : List Expr) : BProg (Option Cmd) := do
    let env ← env
    let as ← cmdArgs P args
    .ret (some ⟨name, env.getCwd, as, exportBindings P env.bindings⟩)
  /-- 478-486 -/
  named (name : Str) (args : List Expr) : BProg (Option Cmd) := do
    let env ← env
    match env.get name with
    | some (.symbol alias) => command alias args
    | some _ => .ret none
    | Option.none => command name args

/-- `Expression::String` for valid UTF-8, else `Expression::Bytes` (398-406). -/
def textOrBytes (b : List UInt8) : Expr :=
  match utf8Decode b with
  | some s => .str s
  | none => .bytes b

/-- the bytes handed to the next stage (435-443) -/
def bytesOf (P : Plat) : Expr → List UInt8
  | .bytes b => b
  | v => utf8Encode (display P v)

/-- the loop of `pipe_builtin` (320-446); `first` is `is_first`, the last element is `is_last`,
`res` is `result_of_last_cmd`. -/
def pipeLoop (P : Plat) : Bool → List Expr → Expr → List UInt8 → BProg Expr
  | _, [], res, _ => .ret res
  | first, e :: es, res, buf => do
    match ← exprToCommand P e with
    | some c =>
      let r ← ask (.stage c.prog c.cwd c.args c.envs (if first then none else some buf)
        (if es.isEmpty then .inherit else .piped))
      match r with
      | .stageErr .spawn => fail (c!"could not spawn process `" ++ display P e ++ c!"`")
      | .stageErr .pipe => fail (c!"error when piping into process `" ++ display P e ++ c!"`")
      | .stageErr .wait => fail (c!"error when waiting for process `" ++ display P e ++ c!"`")
      | .bytes b =>
        if es.isEmpty then pipeLoop P false es (if first then res else .none) []
        else pipeLoop P false es (textOrBytes b) b
      | _ =>
        if es.isEmpty then pipeLoop P false es (if first then res else .none) []
        else fail (c!"error when waiting for process `" ++ display P e ++ c!"`")
    | none =>
      let v ← ev (if first then e else .apply e [res])
      pipeLoop P false es v (bytesOf P v)

/-- `pipe_builtin` (300-449). -/
def pipeB (P : Plat) (args : List Expr) : BProg Expr :=
  if args.length ≤ 1 then fail c!"pipe requires at least two arguments"
  else pipeLoop P true args .none []

/-! ### src/binary/init/mod.rs -/

/-- `print` (101-116), `debug` (118-133), `println` (135-150), `log@echo`
(src/binary/init/log_module.rs:252-264): all but the last argument are followed by a space, the
last one by `ending`. -/
def printLoop (fmt : Expr → Str) (ending : Str) : List Expr → BProg Expr
  | [] => .ret .none
  | [a] => do
    let v ← ev a
    out (fmt v ++ ending)
    .ret .none
  | a :: b :: as => do
    let v ← ev a
    out (fmt v ++ c!" ")
    printLoop fmt ending (b :: as)

/-- the integers `m, m + 1, ..` (`n` of them), for `(m..n).map(Expression::Integer)` -/
def intsFrom (m : Int) : Nat → List Expr
  | 0 => []
  | n + 1 => .int (I64.wrap m) :: intsFrom (m + 1) n

/-- `to` (171-190). -/
def toB (args : List Expr) : BProg Expr :=
  match args with
  | [a, b] => do
    let x ← ev a
    let y ← ev b
    match x, y with
    | .int m, .int n => .ret (.list (intsFrom m.val (n.val - m.val).toNat))
    | _, _ => fail c!"Arguments to range must be integers"
  | _ => fail c!"Must supply 2 arguments to range"

/-- `str` (192-196). -/
def strB (P : Plat) (args : List Expr) : BProg Expr := do
  let v ← evArg args 0
  .ret (.str (display P v))

/-- `int` (198-219). -/
def intB (P : Plat) (args : List Expr) : BProg Expr := do
  match ← evArg args 0 with
  | .int x => .ret (.int x)
  | .float x => .ret (.int (P.fToInt x))
  | .str x =>
    match parseI64 x with
    | some n => .ret (.int n)
    | none => fail (c!"could not convert " ++ debugStr P x ++ c!" to an integer")
  | v => fail (c!"could not convert " ++ debug P v ++ c!" to an integer")

/-- `insert` (221-263). -/
def insertB (P : Plat) (args : List Expr) : BProg Expr := do
  checkExact c!"insert" args 3
  let arr ← evArg args 0
  let idx ← evArg args 1
  let val ← evArg args 2
  match arr, idx with
  | .map m, .str key => .ret (.map (BMap.insert m key val))
  | .list l, .int i =>
    if i.asUsize ≤ l.length then .ret (.list (l.take i.asUsize ++ val :: l.drop i.asUsize))
    else fail (c!"index " ++ display P idx ++ c!" out of bounds for " ++ debug P arr)
  | .str s, .int i =>
    if i.asUsize ≤ utf8Len s then
      match splitBytes s i.asUsize with
      | some (a, b) => .ret (.str (a ++ display P val ++ b))
      | none => .panic
    else fail (c!"index " ++ display P idx ++ c!" out of bounds for " ++ debug P arr)
  | _, _ =>
    fail (c!"cannot insert " ++ debug P val ++ c!" into " ++ debug P arr ++ c!" with index " ++
      debug P idx)

/-- `keys` (265-275). -/
def keysB (P : Plat) (args : List Expr) : BProg Expr := do
  match ← evArg args 0 with
  | .map m => .ret (.list (m.map fun p => .str p.1))
  | v => fail (c!"cannot get the keys of " ++ display P v)

/-- `vals` (277-287). -/
def valsB (P : Plat) (args : List Expr) : BProg Expr := do
  match ← evArg args 0 with
  | .map m => .ret (.list (m.map fun p => p.2))
  | v => fail (c!"cannot get the values of " ++ display P v)

/-- `vars` (289-293). -/
def varsB : BProg Expr := do
  let env ← env
  .ret (.map env.bindings)

/-- `usize as i64` -/
def lenInt (n : Nat) : Expr := .int (I64.wrap n)

/-- `len` (295-309). -/
def lenB (P : Plat) (args : List Expr) : BProg Expr := do
  match ← evArg args 0 with
  | .map m => .ret (lenInt m.length)
  | .list l => .ret (lenInt l.length)
  | .symbol s => .ret (lenInt s.length)
  | .str s => .ret (lenInt s.length)
  | v => fail (c!"cannot get length of " ++ display P v)

/-- `lines` (372-386). -/
def linesB (P : Plat) (args : List Expr) : BProg Expr := do
  match ← evArg args 0 with
  | .str s => .ret (.list ((linesOf s).map .str))
  | v => fail (c!"cannot get lines of non-string " ++ display P v)

/-- `eval` (388-395): the environment is copied before the argument is evaluated. -/
def evalB (args : List Expr) : BProg Expr := do
  let newEnv ← env
  let v ← evArg args 0
  evIn newEnv v

/-- `exec` (397-401). -/
def execB (args : List Expr) : BProg Expr := do
  let v ← evArg args 0
  ev v

/-- `unbind` (403-419). -/
def unbindB (P : Plat) (args : List Expr) : BProg Expr := do
  checkExact c!"unbind" args 1
  let a ← arg args 0
  match a with
  | .symbol x => do undef x; .ret .none
  | .str x => do undef x; .ret .none
  | _ => fail (c!"expected string or symbol, but got " ++ debug P a)

/-- `report` (424-438). -/
def reportB (P : Plat) (args : List Expr) : BProg Expr := do
  match ← evArg args 0 with
  | .none => .ret .none
  | v => do
    out (display P v ++ c!"\n")
    .ret .none

/-! ### src/binary/init/os_module.rs -/

/-- `exit` (13-28); `n as i32` keeps the low 32 bits. -/
def exitB (P : Plat) (args : List Expr) : BProg Expr :=
  match args with
  | [] => .exit 0
  | a :: _ => do
    match ← ev a with
    | .int n => .exit (Int.bmod n.val 4294967296)
    | _ => fail (c!"expected integer but got `" ++ debug P a ++ c!"`")

/-- `cd` (34-81); the reason of a failure is abbreviated. -/
def cdB (P : Plat) (args : List Expr) : BProg Expr := do
  checkExact c!"cd" args 1
  let v ← evArg args 0
  let path := (strOrSym v).getD (display P v)
  let env ← env
  let absPath := pathJoin env.getCwd path
  match ← ask (.canonicalize absPath) with
  | .str newCwd =>
    match ← ask (.setCurrentDir newCwd) with
    | .err e => fail (c!"could not change directory to " ++ debugStr P newCwd ++ P.fmtIOErr e)
    | _ => do
      def_ cwdVar (.str newCwd)
      .ret .none
  | .err e => fail (c!"could not change to directory " ++ debugStr P absPath ++ P.fmtIOErr e)
  | _ => .panic

/-! ### src/binary/init/list_module.rs -/

/-- `tail` (50-64). -/
def tailB (args : List Expr) : BProg Expr := do
  needArgs c!"tail requires exactly one argument" args 1
  match ← evArg args 0 with
  | .list l => .ret (.list (l.drop 1))
  | _ => fail c!"tail requires a list as its argument"

/-- `head` (66-84). -/
def headB (args : List Expr) : BProg Expr := do
  needArgs c!"head requires exactly one argument" args 1
  match ← evArg args 0 with
  | .list l => .ret (if l.isEmpty then .list l else .none)
  | _ => fail c!"head requires a list as its argument"

/-- the loop of `chunk` (96-107); `cur` is the current chunk. -/
def chunkLoop (n : Nat) : List Expr → List Expr → List Expr
  | [], cur => if cur.isEmpty then [] else [.list cur]
  | x :: xs, cur =>
    let cur' := cur ++ [x]
    if cur'.length = n then .list cur' :: chunkLoop n xs [] else chunkLoop n xs cur'

/-- `chunk` (86-119). -/
def chunkB (args : List Expr) : BProg Expr := do
  needArgs c!"chunk requires exactly two arguments" args 2
  let n ← evArg args 0
  let l ← evArg args 1
  match n, l with
  | .int n, .list l => .ret (.list (chunkLoop n.asUsize l []))
  | .int _, _ => fail c!"chunk requires a list as its second argument"
  | _, _ => fail c!"chunk requires an integer as its first argument"

/-- `cons` (121-136): the list is evaluated first. -/
def consB (args : List Expr) : BProg Expr := do
  needArgs c!"cons requires exactly two arguments" args 2
  match ← evArg args 1 with
  | .list l => do
    let v ← evArg args 0
    .ret (.list (v :: l))
  | _ => fail c!"cons requires a list as its second argument"

/-- `append` (138-153). -/
def appendB (args : List Expr) : BProg Expr := do
  needArgs c!"append requires exactly two arguments" args 2
  match ← evArg args 0 with
  | .list l => do
    let v ← evArg args 1
    .ret (.list (l ++ [v]))
  | _ => fail c!"append requires a list as its first argument"

/-- `len` of the list and string modules (155-171): bytes of a string. -/
def listLenB (args : List Expr) : BProg Expr := do
  needArgs c!"len requires exactly one argument" args 1
  match ← evArg args 0 with
  | .list l => .ret (lenInt l.length)
  | .str s => .ret (lenInt (utf8Len s))
  | .bytes b => .ret (lenInt b.length)
  | .map m => .ret (lenInt m.length)
  | _ => fail c!"len requires a list or string as its argument"

/-- `rev` of the list and string modules (173-189). -/
def revB (args : List Expr) : BProg Expr := do
  needArgs c!"rev requires exactly one argument" args 1
  match ← evArg args 0 with
  | .list l => .ret (.list l.reverse)
  | .str s => .ret (.str s.reverse)
  | .symbol s => .ret (.symbol s.reverse)
  | .bytes b => .ret (.bytes b.reverse)
  | _ => fail c!"rev requires a list or string as its argument"

/-- `range` (191-206): `a..=b`. -/
def rangeB (args : List Expr) : BProg Expr := do
  needArgs c!"range requires exactly two arguments" args 2
  let a ← evArg args 0
  let b ← evArg args 1
  match a, b with
  | .int a, .int b => .ret (.list (intsFrom a.val (b.val + 1 - a.val).toNat))
  | _, _ => fail c!"range requires two integers as its arguments"

/-- `for item in list { acc = Apply(f, [acc, item]).eval(env)? }` (218-220, and
src/binary/init/fn_module.rs:230-232) -/
def foldLoop (mk : Expr → Expr → List Expr) (f : Expr) : Expr → List Expr → BProg Expr
  | acc, [] => .ret acc
  | acc, x :: xs => do
    let acc' ← ev (.apply f (mk acc x))
    foldLoop mk f acc' xs

/-- `foldl` (208-227). -/
def foldlB (args : List Expr) : BProg Expr := do
  needArgs c!"foldl requires exactly three arguments" args 3
  let f ← evArg args 0
  let acc ← evArg args 1
  match ← evArg args 2 with
  | .list l => foldLoop (fun acc x => [acc, x]) f acc l
  | _ => fail c!"foldl requires a list as its third argument"

/-- `foldr` (229-248). -/
def foldrB (args : List Expr) : BProg Expr := do
  needArgs c!"foldr requires exactly three arguments" args 3
  let f ← evArg args 0
  let acc ← evArg args 1
  match ← evArg args 2 with
  | .list l => foldLoop (fun acc x => [x, acc]) f acc l.reverse
  | _ => fail c!"foldr requires a list as its third argument"

/-- the loop of `zip` (259-262) -/
def zipLists : List Expr → List Expr → List Expr
  | a :: as, b :: bs => .list [a, b] :: zipLists as bs
  | _, _ => []

/-- `zip` (250-269). -/
def zipB (args : List Expr) : BProg Expr := do
  needArgs c!"zip requires exactly two arguments" args 2
  let a ← evArg args 0
  let b ← evArg args 1
  match a, b with
  | .list a, .list b => .ret (.list (zipLists a b))
  | _, _ => fail c!"zip requires two lists as its arguments"

/-- the loop of `unzip` (279-295) -/
def unzipLoop : List Expr → List Expr → List Expr → Option (List Expr × List Expr)
  | [], l1, l2 => some (l1, l2)
  | .list [a, b] :: xs, l1, l2 => unzipLoop xs (l1 ++ [a]) (l2 ++ [b])
  | _ :: _, _, _ => none

/-- `unzip` (271-305). -/
def unzipB (args : List Expr) : BProg Expr := do
  needArgs c!"unzip requires exactly one argument" args 1
  match ← evArg args 0 with
  | .list l =>
    match unzipLoop l [] [] with
    | some (a, b) => .ret (.list [.list a, .list b])
    | none => fail c!"unzip requires a list of pairs as its argument"
  | _ => fail c!"unzip requires a list of pairs as its argument"

/-- `take` (307-330), `drop` (332-355), `split-at` (357-383): an integer and a list. -/
def intListB (name : Str) (k : Nat → List Expr → Expr) (args : List Expr) : BProg Expr := do
  needArgs (name ++ c!" requires exactly two arguments") args 2
  let n ← evArg args 0
  let l ← evArg args 1
  match n, l with
  | .int n, .list l => .ret (k n.asUsize l)
  | .int _, _ => fail (name ++ c!" requires a list as its second argument")
  | _, _ => fail (name ++ c!" requires an integer as its first argument")

/-- `nth` (385-410); an index out of range panics in every build mode (the subtraction either
panics itself or wraps to an index that is out of range). -/
def nthB (args : List Expr) : BProg Expr := do
  needArgs c!"nth requires exactly two arguments" args 2
  let n ← evArg args 0
  let l ← evArg args 1
  match n, l with
  | .int n, .list l =>
    if n.val < 0 then
      if (-n.val).toNat ≤ l.length then
        match l[l.length - (-n.val).toNat]? with
        | some v => .ret v
        | none => .panic
      else .panic
    else
      match l[n.asUsize]? with
      | some v => .ret v
      | none => .panic
  | .int _, _ => fail c!"nth requires a list as its second argument"
  | _, _ => fail c!"nth requires an integer as its first argument"

/-! ### src/binary/init/fn_module.rs -/

/-- `apply` (80-96). -/
def applyB (P : Plat) (args : List Expr) : BProg Expr := do
  needArgs c!"apply requires exactly two arguments" args 2
  let f ← evArg args 0
  match ← evArg args 1 with
  | .list l => ev (.apply f l)
  | v => fail (c!"invalid arguments to apply: " ++ display P v)

/-- `curry_builtin` (59-71). -/
def curryB (args : List Expr) : BProg Expr :=
  if args.length < 2 then fail c!"curry requires at least two arguments"
  else do
    let f ← evArg args 0
    match ← evArg args 1 with
    | .int n => curryEnv f n.asUsize
    | _ => .ret f

/-- `conditional` (111-123). -/
def conditionalB (args : List Expr) : BProg Expr := do
  needArgs c!"conditional requires exactly three arguments" args 3
  let c ← evArg args 0
  if c.isTruthy then evArg args 1 else evArg args 2

/-- the argument-count check of `map`, `filter` and `reduce` (126-135, 159-168, 207-216) -/
def countCheck (name : Str) (args : List Expr) (hi : Nat) : BProg Unit :=
  if 1 ≤ args.length ∧ args.length ≤ hi then .ret ()
  else if hi < args.length then fail (c!"too many arguments to function " ++ name)
  else fail (c!"too few arguments to function " ++ name)

/-- `crate::parse("f -> list -> for item in list {f item}")` (139) -/
def mapSrc : Expr :=
  .do_ [.lambda c!"f" (.lambda c!"list" (.for_ c!"item" (.symbol c!"list")
    (.do_ [.apply (.symbol c!"f") [.symbol c!"item"]])) [] []) [] []]

/-- the loop of `map` (146-148) -/
def mapLoop (f : Expr) : List Expr → BProg (List Expr)
  | [] => .ret []
  | x :: xs => do
    let v ← ev (.apply f [x])
    let vs ← mapLoop f xs
    .ret (v :: vs)

/-- `map` (125-156). -/
def mapB (P : Plat) (args : List Expr) : BProg Expr := do
  countCheck c!"map" args 2
  if args.length = 1 then ev (.apply mapSrc args)
  else
    match ← evArg args 1 with
    | .list l => do
      let f ← evArg args 0
      let vs ← mapLoop f l
      .ret (.list vs)
    | _ => fail (c!"invalid arguments to map: " ++ display P (.list args))

/-- the script parsed by `filter` (172-182) -/
def filterSrc : Expr :=
  .do_ [.lambda c!"f" (.lambda c!"list" (.do_ [
    .assign c!"result" (.list []),
    .for_ c!"item" (.symbol c!"list") (.do_ [
      .ite (.group (.apply (.symbol c!"f") [.symbol c!"item"]))
        (.do_ [.assign c!"result"
          (.group (.apply (.symbol c!"+") [.symbol c!"result", .list [.symbol c!"item"]]))])
        .none]),
    .symbol c!"result"]) [] []) [] []]

/-- the loop of `filter` (189-196) -/
def filterLoop (f : Expr) : List Expr → BProg (List Expr)
  | [] => .ret []
  | x :: xs => do
    let v ← ev (.apply f [x])
    let vs ← filterLoop f xs
    .ret (if v.isTruthy then x :: vs else vs)

/-- `filter` (158-204). -/
def filterB (P : Plat) (args : List Expr) : BProg Expr := do
  countCheck c!"filter" args 2
  if args.length = 1 then ev (.apply filterSrc args)
  else
    match ← evArg args 1 with
    | .list l => do
      let f ← evArg args 0
      let vs ← filterLoop f l
      .ret (.list vs)
    | _ => fail (c!"invalid arguments to filter: " ++ display P (.list args))

/-- the script parsed by `reduce` (220-223) -/
def reduceSrc : Expr :=
  .do_ [.lambda c!"f" (.lambda c!"acc" (.lambda c!"list" (.do_ [
    .for_ c!"item" (.symbol c!"list") (.do_ [
      .assign c!"acc" (.apply (.symbol c!"f") [.symbol c!"acc", .symbol c!"item"])]),
    .symbol c!"acc"]) [] []) [] []) [] []]

/-- `reduce` (206-240). -/
def reduceB (P : Plat) (args : List Expr) : BProg Expr := do
  countCheck c!"reduce" args 3
  if args.length < 3 then ev (.apply reduceSrc args)
  else
    match ← evArg args 2 with
    | .list l => do
      let f ← evArg args 0
      let acc ← evArg args 1
      foldLoop (fun acc x => [acc, x]) f acc l
    | _ => fail (c!"invalid arguments to reduce: " ++ display P (.list args))

/-! ### src/binary/init/dict_module.rs -/

mutual

/-- `flatten` (5-23). -/
def flattenD : Expr → List Expr
  | .list l => flattenDList l
  | .map m => flattenDMap m
  | e => [e]

/-- 9-11 -/
def flattenDList : List Expr → List Expr
  | [] => []
  | e :: es => flattenD e ++ flattenDList es

/-- 16-18 -/
def flattenDMap : List (Str × Expr) → List Expr
  | [] => []
  | (_, e) :: es => flattenD e ++ flattenDMap es

end

/-- `flatten` (27-31). -/
def dFlattenB (args : List Expr) : BProg Expr := do
  checkExact c!"flatten" args 1
  let v ← evArg args 0
  .ret (.list (flattenD v))

/-- `list.into_iter().enumerate()` as pairs (38) -/
def enumPairs (i : Nat) : List Expr → List Expr
  | [] => []
  | v :: vs => .list [lenInt i, v] :: enumPairs (i + 1) vs

/-- `items` (33-41). -/
def dItemsB (args : List Expr) : BProg Expr := do
  checkExact c!"items" args 1
  match ← evArg args 0 with
  | .map m => .ret (.list (m.map fun p => .list [.str p.1, p.2]))
  | .list l => .ret (.list (enumPairs 0 l))
  | _ => .ret .none

/-- `keys` (43-50). -/
def dKeysB (args : List Expr) : BProg Expr := do
  checkExact c!"keys" args 1
  match ← evArg args 0 with
  | .map m => .ret (.list (m.map fun p => .str p.1))
  | _ => .ret .none

/-- `values` (52-59). -/
def dValuesB (args : List Expr) : BProg Expr := do
  checkExact c!"values" args 1
  match ← evArg args 0 with
  | .map m => .ret (.list (m.map fun p => p.2))
  | _ => .ret .none

/-- `insert` (61-73): the key is rendered. -/
def dInsertB (P : Plat) (args : List Expr) : BProg Expr := do
  checkExact c!"insert" args 3
  let m ← evArg args 0
  let k ← evArg args 1
  let v ← evArg args 2
  match m with
  | .map m => .ret (.map (BMap.insert m (display P k) v))
  | _ => .ret .none

/-- `remove` (75-86). -/
def dRemoveB (P : Plat) (args : List Expr) : BProg Expr := do
  checkExact c!"remove" args 2
  let m ← evArg args 0
  let k ← evArg args 1
  match m with
  | .map m => .ret (.map (BMap.remove m (display P k)))
  | _ => .ret .none

/-- `has?` (88-96). -/
def dHasB (P : Plat) (args : List Expr) : BProg Expr := do
  checkExact c!"has?" args 2
  let m ← evArg args 0
  let k ← evArg args 1
  match m with
  | .map m => .ret (.bool (BMap.contains m (display P k)))
  | _ => .ret .none

/-- `len` (98-108). -/
def dLenB (args : List Expr) : BProg Expr := do
  checkExact c!"len" args 1
  match ← evArg args 0 with
  | .map m => .ret (lenInt m.length)
  | .list l => .ret (lenInt l.length)
  | .str s => .ret (lenInt (utf8Len s))
  | .bytes b => .ret (lenInt b.length)
  | _ => .ret .none

/-- the loop of `from-items` (115-122): items that are not pairs are skipped. -/
def fromItems (P : Plat) (m : BMap Expr) : List Expr → BMap Expr
  | [] => m
  | .list [k, v] :: l => fromItems P (BMap.insert m (display P k) v) l
  | _ :: l => fromItems P m l

/-- `from-items` (110-127). -/
def dFromItemsB (P : Plat) (args : List Expr) : BProg Expr := do
  checkExact c!"from-items" args 1
  match ← evArg args 0 with
  | .list l => .ret (.map (fromItems P [] l))
  | _ => .ret .none

/-- two maps, otherwise `None` (129-177) -/
def dTwoB (name : Str) (f : BMap Expr → BMap Expr → BMap Expr) (args : List Expr) :
    BProg Expr := do
  checkExact name args 2
  let a ← evArg args 0
  let b ← evArg args 1
  match a, b with
  | .map a, .map b => .ret (.map (f a b))
  | _, _ => .ret .none

/-- `union` (135-138). -/
def dUnion (a b : BMap Expr) : BMap Expr := BMap.extend a b

/-- `intersect` (151-156). -/
def dIntersect (a b : BMap Expr) : BMap Expr :=
  BMap.ofList (a.filter fun p => BMap.contains b p.1)

/-- `difference` (169-172). -/
def dDifference (a : BMap Expr) : BMap Expr → BMap Expr
  | [] => a
  | (k, _) :: b => dDifference (BMap.remove a k) b

/-! ### src/binary/init/err_module.rs -/

/-- the map handed to an error handler (28-32) -/
def errorMap (msg : Str) (e : Error) (tried : Expr) : Expr :=
  .map (BMap.ofList [
    (c!"message", .str msg),
    (c!"code", .int e.code),
    (c!"expression", .quote tried)])

/-- `try_builtin` (13-38). -/
def tryB (P : Plat) (args : List Expr) : BProg Expr :=
  match args with
  | [a, handler] => do
    match ← evTry a with
    | .error e =>
      match displayError P e with
      | some msg => ev (.apply handler [errorMap msg e a])
      | none => .panic
    | .ok v => .ret v
  | _ => fail c!"try requires exactly two arguments: an expression to try to evaluate, and an error handler that takes an error as an argument"

/-! ### src/binary/init/string_module.rs -/

/-- one argument that must be a symbol or string, else the error "expected string" -/
def onStr (P : Plat) (k : Str → Expr) (args : List Expr) : BProg Expr := do
  let v ← evArg args 0
  match strOrSym v with
  | some s => .ret (k s)
  | none => fail (c!"expected string, got value " ++ display P v)

/-- exactly one argument; other values than symbols and strings give `None` -/
def onStr1 (name : Str) (k : Str → Expr) (args : List Expr) : BProg Expr := do
  checkExact name args 1
  let v ← evArg args 0
  match strOrSym v with
  | some s => .ret (k s)
  | none => .ret .none

/-- `to-string` (32-35). -/
def toStringB (P : Plat) (args : List Expr) : BProg Expr := do
  checkExact c!"to-string" args 1
  let v ← evArg args 0
  .ret (.str (display P v))

/-- the shift of one letter (51-68); `i as u8` keeps the low 8 bits, and the addition of two `u8`
panics with overflow checks and wraps without them. -/
def caesarChar (P : Plat) (i : I64) (c : Char) : Outcome Char :=
  let n := c.toNat
  let lower := decide (97 ≤ n ∧ n ≤ 122)
  if lower ∨ (65 ≤ n ∧ n ≤ 90) then
    let base := if lower then 97 else 65
    let sum := (n - base) + (i.val % 256).toNat
    if P.overflowChecks ∧ 256 ≤ sum then .panic
    else .ok (Char.ofNat (sum % 256 % 26 + base))
  else .ok c

/-- the loop over the characters (49-70) -/
def caesarStr (P : Plat) (i : I64) : Str → Outcome Str
  | [] => .ok []
  | c :: cs =>
    match caesarChar P i c with
    | .ok d =>
      match caesarStr P i cs with
      | .ok ds => .ok (d :: ds)
      | o => o
    | _ => .panic

/-- `caesar` (37-75). -/
def caesarB (P : Plat) (args : List Expr) : BProg Expr := do
  checkArgs c!"caesar-cipher" args 1 2
  let v ← evArg args 0
  let shift ← (if 1 < args.length then evArg args 1 else .ret (.int (.lit 13)))
  match strOrSym v, shift with
  | some s, .int i => do
    let r ← lift (caesarStr P i s)
    .ret (.str r)
  | _, _ => .ret .none

/-- the loop of `get-width` (84-101) -/
def widthLoop : Str → Nat → Nat → Nat
  | [], w, m => if m < w then w else m
  | c :: cs, w, m =>
    if c = '\n' then widthLoop cs 0 (if m < w then w else m) else widthLoop cs (w + 1) m

/-- `get-width` (79-105). -/
def getWidthB (args : List Expr) : BProg Expr := do
  checkExact c!"get-width" args 1
  let v ← evArg args 0
  match strOrSym v with
  | some s => .ret (lenInt (widthLoop s 0 0))
  | none => .ret (.int (.lit 0))

/-- `split` (5-28). -/
def split2B (P : Plat) (args : List Expr) : BProg Expr :=
  match args with
  | [a, b] => do
    let x ← ev a
    let y ← ev b
    match strOrSym x, strOrSym y with
    | some x, some y => .ret (.list ((splitStr x y).map .str))
    | _, _ => fail (c!"expected string, got values " ++ display P x ++ c!" and " ++ display P y)
  | _ => fail (c!"expected 2 arguments, got " ++ natToStr args.length)

/-- `string@split` (155-160): the two-argument function is curried in the caller's environment on
every call, evaluated once more, and applied. -/
def splitB (args : List Expr) : BProg Expr := do
  let c ← curryEnv (.builtin [] .sSplit2 []) 2
  let f ← ev c
  ev (.apply f args)

/-- `join` (262-279). -/
def joinB (P : Plat) (args : List Expr) : BProg Expr := do
  checkExact c!"join" args 2
  let l ← evArg args 0
  let sep ← evArg args 1
  match l with
  | .list l => .ret (.str (joinStr (display P sep) (l.map (display P))))
  | _ => .ret .none

/-- `chars` (294-316). -/
def charsB (P : Plat) (args : List Expr) : BProg Expr := do
  checkExact c!"chars" args 1
  let v ← evArg args 0
  match strOrSym v with
  | some s => .ret (.list (s.map fun c => .str [c]))
  | none => fail (c!"cannot get characters of non-string " ++ display P v)

/-- `split-at` (344-357): byte index; past the end or inside a character it panics. -/
def strSplitAtB (args : List Expr) : BProg Expr := do
  checkExact c!"split-at" args 2
  let v ← evArg args 0
  let i ← evArg args 1
  match strOrSym v, i with
  | some s, .int i =>
    match splitBytes s i.asUsize with
    | some (a, b) => .ret (.list [.str a, .str b])
    | none => .panic
  | _, _ => .ret .none

/-- `replace` (395-406). -/
def replaceB (P : Plat) (args : List Expr) : BProg Expr := do
  checkExact c!"replace" args 3
  let v ← evArg args 0
  let old ← evArg args 1
  let new ← evArg args 2
  match strOrSym v with
  | some s => .ret (.str (replaceStr s (display P old) (display P new)))
  | none => .ret .none

/-- `starts-with?` (408-418), `ends-with?` (420-430), `contains?` (432-442). -/
def strTestB (P : Plat) (name : Str) (test : Str → Str → Bool) (args : List Expr) :
    BProg Expr := do
  checkExact name args 2
  let v ← evArg args 0
  let x ← evArg args 1
  match strOrSym v with
  | some s => .ret (.bool (test s (display P x)))
  | none => .ret .none

/-! #### characters (119-258); ASCII here, the rest from the platform -/

/-- `char::is_alphabetic`, `is_alphanumeric`, `is_numeric`, `is_lowercase`, `is_uppercase` -/
def charAlpha (P : Plat) (c : Char) : Bool :=
  if isAscii c then asciiLower c || asciiUpper c else P.alphaNonAscii c
def charAlnum (P : Plat) (c : Char) : Bool :=
  if isAscii c then asciiLower c || asciiUpper c || isDigit c else P.alnumNonAscii c
def charNumeric (P : Plat) (c : Char) : Bool :=
  if isAscii c then isDigit c else P.numericNonAscii c
def charLower (P : Plat) (c : Char) : Bool :=
  if isAscii c then asciiLower c else P.lowerNonAscii c
def charUpper (P : Plat) (c : Char) : Bool :=
  if isAscii c then asciiUpper c else P.upperNonAscii c

/-- `c.to_uppercase().next().unwrap()`, `c.to_lowercase().next().unwrap()` -/
def charToUpper (P : Plat) (c : Char) : Char :=
  if isAscii c then asciiUp c else P.toUpperNonAscii c
def charToLower (P : Plat) (c : Char) : Char :=
  if isAscii c then asciiDown c else P.toLowerNonAscii c

/-- the loop of `to-title` (189-202) and `is-title` (238-251) -/
def titleLoop (P : Plat) : Bool → Str → Str
  | _, [] => []
  | cap, c :: cs =>
    (if cap then charToUpper P c else charToLower P c) :: titleLoop P (isWhitespace c) cs

/-! ### src/binary/init/math_module.rs -/

/-- the result of `i64` arithmetic outside the checked operations: overflow panics with overflow
checks and wraps without -/
def arith (P : Plat) (z : Int) : Outcome I64 :=
  match I64.ofInt? z with
  | some i => .ok i
  | none => if P.overflowChecks then .panic else .ok (I64.wrap z)

/-- two integer arguments, evaluated one after the other (14-76) -/
def twoInts (P : Plat) (name : Str) (k : I64 → I64 → Outcome I64) (args : List Expr) :
    BProg Expr := do
  checkExact name args 2
  match ← evArg args 0 with
  | .int a => do
    match ← evArg args 1 with
    | .int b => do
      let r ← lift (k a b)
      .ret (.int r)
    | v => fail (c!"invalid " ++ name ++ c!" argument " ++ display P v)
  | v => fail (c!"invalid " ++ name ++ c!" argument " ++ display P v)

/-- the shift amount: 64 or more (or negative) panics with overflow checks, else it is taken
modulo 64 -/
def shiftBy (P : Plat) (b : I64) (k : Nat → I64) : Outcome I64 :=
  if 0 ≤ b.val ∧ b.val < 64 then .ok (k b.val.toNat)
  else if P.overflowChecks then .panic
  else .ok (k (b.val % 64).toNat)

/-- `l-rsh` (14-31): shift of the bits as `u64`. -/
def lRsh (P : Plat) (a b : I64) : Outcome I64 :=
  shiftBy P b fun k => I64.wrap ((a.val % 18446744073709551616) / (2 ^ k : Nat))

/-- `a-rsh`, `rsh` (33-61). -/
def aRsh (P : Plat) (a b : I64) : Outcome I64 := shiftBy P b fun k => I64.wrap (a.val / (2 ^ k : Nat))

/-- `lsh` (63-76). -/
def lShift (P : Plat) (a b : I64) : Outcome I64 :=
  shiftBy P b fun k => I64.wrap (a.val * (2 ^ k : Nat))

/-- one number added to the accumulators of `sum` and `product` (83-96, 111-124) -/
def accNum (P : Plat) (name : Str) (fi : Int → Int → Int) (ff : F64 → F64 → F64) (v : Expr)
    (i : I64) (f : F64) : BProg (I64 × F64) :=
  match v with
  | .int n => do
    let r ← lift (arith P (fi i.val n.val))
    .ret (r, f)
  | .float x => .ret (i, ff f x)
  | v => fail (c!"invalid " ++ name ++ c!" argument " ++ debug P v)

/-- the inner loop over a list argument (87-93); items are evaluated -/
def accList (P : Plat) (name : Str) (fi : Int → Int → Int) (ff : F64 → F64 → F64) :
    List Expr → I64 → F64 → BProg (I64 × F64)
  | [], i, f => .ret (i, f)
  | e :: es, i, f => do
    let v ← ev e
    let r ← accNum P name fi ff v i f
    accList P name fi ff es r.1 r.2

/-- the outer loop over the arguments (82-97) -/
def accArgs (P : Plat) (name : Str) (fi : Int → Int → Int) (ff : F64 → F64 → F64) :
    List Expr → I64 → F64 → BProg (I64 × F64)
  | [], i, f => .ret (i, f)
  | e :: es, i, f => do
    let v ← ev e
    let r ← (match v with
      | .list l => accList P name fi ff l i f
      | v => accNum P name fi ff v i f)
    accArgs P name fi ff es r.1 r.2

/-- the bits of 1.0 -/
def fOne : F64 := ⟨0x3FF0000000000000#64⟩

/-- `sum` (79-104). -/
def sumB (P : Plat) (args : List Expr) : BProg Expr := do
  let r ← accArgs P c!"sum" (· + ·) P.fAdd args (.lit 0) F64.zero
  if F64.eq r.2 F64.zero then .ret (.int r.1)
  else .ret (.float (P.fAdd (P.fOfInt r.1) r.2))

/-- `product` (106-132). -/
def productB (P : Plat) (args : List Expr) : BProg Expr := do
  let r ← accArgs P c!"product" (· * ·) P.fMul args (.lit 1) fOne
  if F64.eq r.2 fOne then .ret (.int r.1)
  else .ret (.float (P.fMul (P.fOfInt r.1) r.2))

/-- the loop of `fact` (141-144): multiply by `n`, `n + 1`, .. (`k` factors) -/
def factLoop (P : Plat) : Nat → Nat → I64 → Outcome I64
  | 0, _, r => .ok r
  | k + 1, n, r =>
    match arith P (r.val * n) with
    | .ok r' => factLoop P k (n + 1) r'
    | o => o

/-- the formula for floats (152); the constants are 1, 2, pi, 12, 288, 139, 51840, 571 and 2488320 -/
def floatFact (P : Plat) (f : F64) : F64 :=
  let l := P.fFun c!"ln" f
  let s := P.fAdd fOne (P.fDiv fOne (P.fMul ⟨0x4028000000000000#64⟩ f))
  let s := P.fAdd s (P.fDiv fOne (P.fMul (P.fMul ⟨0x4072000000000000#64⟩ f) f))
  let s := P.fSub s (P.fDiv ⟨0x4061600000000000#64⟩ (P.fMul (P.fMul (P.fMul ⟨0x40E9500000000000#64⟩ f) f) f))
  let s := P.fSub s (P.fDiv ⟨0x4081D80000000000#64⟩
    (P.fMul (P.fMul (P.fMul (P.fMul ⟨0x4142FC0000000000#64⟩ f) f) f) f))
  P.fFun c!"round" (P.fMul (P.fMul (P.fFun c!"exp" (P.fMul l l))
    (P.fFun c!"sqrt" (P.fMul (P.fMul ⟨0x4000000000000000#64⟩ ⟨0x400921FB54442D18#64⟩) f))) s)

/-- `fact` (134-157). -/
def factB (P : Plat) (args : List Expr) : BProg Expr := do
  checkExact c!"fact" args 1
  match ← evArg args 0 with
  | .int i =>
    if i.val < 0 then fail c!"cannot take the factorial of a negative number"
    else do
      let r ← lift (factLoop P i.val.toNat 1 (.lit 1))
      .ret (.int r)
  | .float f =>
    if F64.partialCmp f F64.zero = some .lt then
      fail c!"cannot take the factorial of a negative number"
    else .ret (.float (floatFact P f))
  | v => fail (c!"invalid fact argument " ++ debug P v)

/-- `f64::abs` clears the sign bit. -/
def fAbs (f : F64) : F64 := ⟨f.bits &&& 0x7FFFFFFFFFFFFFFF#64⟩

/-- `abs` (159-166). -/
def absB (P : Plat) (args : List Expr) : BProg Expr := do
  checkExact c!"abs" args 1
  match ← evArg args 0 with
  | .int i => do
    let r ← lift (arith P (if i.val < 0 then -i.val else i.val))
    .ret (.int r)
  | .float f => .ret (.float (fAbs f))
  | v => fail (c!"invalid abs argument " ++ debug P v)

/-- `isodd` (285-292), `iseven` (294-301): `i % 2 == r` with Rust's truncating remainder. -/
def parityB (P : Plat) (name : Str) (r : Int) (args : List Expr) : BProg Expr := do
  checkExact name args 1
  match ← evArg args 0 with
  | .int i => .ret (.bool (decide (Int.tmod i.val 2 = r)))
  | .float f => .ret (.bool (decide (Int.tmod (P.fToInt f).val 2 = r)))
  | v => fail (c!"invalid is" ++ name ++ c!" argument " ++ display P v)

/-- `base.checked_pow(exponent as u32)`; `as u32` keeps the low 32 bits. -/
def checkedPow (b e : I64) : Option I64 := I64.ofInt? (b.val ^ (e.val % 4294967296).toNat)

/-- `pow` (303-315). -/
def powB (P : Plat) (args : List Expr) : BProg Expr := do
  checkExact c!"pow" args 2
  let a ← evArg args 0
  let b ← evArg args 1
  match a, b with
  | .float a, .float b => .ret (.float (P.fPow a b))
  | .float a, .int b => .ret (.float (P.fPow a (P.fOfInt b)))
  | .int a, .float b => .ret (.float (P.fPow (P.fOfInt a) b))
  | .int a, .int b =>
    match checkedPow a b with
    | some n => .ret (.int n)
    | none =>
      fail (c!"overflow when raising int " ++ intToStr a.val ++ c!" to the power " ++
        intToStr b.val)
  | a, b => fail (c!"cannot raise " ++ display P a ++ c!" to the power " ++ display P b)

/-- `floor`, `ceil`, `round`, `trunc` (168-202). -/
def roundB (P : Plat) (name : Str) (args : List Expr) : BProg Expr := do
  checkExact name args 1
  match ← evArg args 0 with
  | .int i => .ret (.int i)
  | .float f => .ret (.float (P.fFun name f))
  | v => fail (c!"invalid " ++ name ++ c!" argument " ++ debug P v)

/-- `sinh` … `tanpi` (204-283): a bad argument is shown with `{:?}`. -/
def funDB (P : Plat) (name : Str) (args : List Expr) : BProg Expr := do
  checkExact name args 1
  match ← evArg args 0 with
  | .int i => .ret (.float (P.fFun name (P.fOfInt i)))
  | .float f => .ret (.float (P.fFun name f))
  | v => fail (c!"invalid " ++ name ++ c!" argument " ++ debug P v)

/-- `ln`, `log2` … `atan` (318-476): a bad argument is shown with `{}`; `what` is its name in the
message. -/
def funB (P : Plat) (name what : Str) (args : List Expr) : BProg Expr := do
  checkExact name args 1
  match ← evArg args 0 with
  | .int i => .ret (.float (P.fFun name (P.fOfInt i)))
  | .float f => .ret (.float (P.fFun name f))
  | v => fail (c!"invalid " ++ what ++ c!" argument " ++ display P v)

/-- a number as `f64` -/
def asFloat (P : Plat) : Expr → Option F64
  | .float f => some f
  | .int i => some (P.fOfInt i)
  | _ => none

/-- `log` (331-348). -/
def logFunB (P : Plat) (args : List Expr) : BProg Expr := do
  checkExact c!"log" args 2
  let b ← evArg args 0
  match asFloat P b with
  | some base => do
    let x ← evArg args 1
    match asFloat P x with
    | some x => .ret (.float (P.fLog x base))
    | none => fail (c!"invalid log argument " ++ display P x)
  | none => fail (c!"invalid log base " ++ display P b)

/-! ### src/binary/init/log_module.rs -/

/-- `*LOG_LEVEL.read().unwrap()`; the static is kept by the host. -/
def logLevel : BProg I64 := do
  match ← ask .getLogLevel with
  | .int i => .ret i
  | _ => .ret (.lit 0)

/-- `is_log_level_enabled` (17-22). -/
def logEnabled (level : I64) : BProg Bool :=
  if level.val ≤ 0 then .ret true
  else do
    let cur ← logLevel
    .ret (decide (level.val ≤ cur.val))

/-- the lines of one argument with more than one line (80-86) -/
def logLines (pre : Str) : List Str → BProg Unit
  | [] => .ret ()
  | [l] => if l.isEmpty then .ret () else out (pre ++ l)
  | l :: m :: ls => do
    out (pre ++ l ++ c!"\n")
    logLines pre (m :: ls)

/-- the loop over the arguments (75-99); `nl` is `last_was_newline`. -/
def logLoop (P : Plat) (pre : Str) : Bool → List Expr → BProg Expr
  | _, [] => .ret .none
  | nl, a :: as => do
    let v ← ev a
    let x := display P v
    let lines := splitStr c!"\n" x
    if 1 < lines.length then logLines pre lines
    else do
      if nl then out pre else .ret ()
      out (x ++ if as.isEmpty then c!"\n" else c!" ")
    logLoop P pre (decide (x.getLast? = some '\n')) as

/-- `info` (67-102), `warn` (104-139), `debug` (141-177), `error` (179-213), `trace` (215-250);
the colour sequence of the prefix is given by `color`. -/
def logB (P : Plat) (level : I64) (color name : Str) (args : List Expr) : BProg Expr := do
  if ← logEnabled level then
    logLoop P (c!"\x1b[" ++ color ++ c!"m[" ++ name ++ c!"]\x1b[m ") true args
  else .ret .none

/-- `set-level` (35-44). -/
def setLevelB (P : Plat) (args : List Expr) : BProg Expr := do
  checkExact c!"set-level" args 1
  match ← evArg args 0 with
  | .int l => do
    let _ ← ask (.setLogLevel l)
    .ret .none
  | v => fail (c!"expected an integer, found " ++ display P v)

/-- `get-level` (46-49). -/
def getLevelB (args : List Expr) : BProg Expr := do
  checkExact c!"get-level" args 0
  let l ← logLevel
  .ret (.int l)

/-- `disable` (51-55). -/
def disableB (args : List Expr) : BProg Expr := do
  checkExact c!"disable" args 0
  let _ ← ask (.setLogLevel (.lit 0))
  .ret .none

/-- `enabled?` (57-65). -/
def enabledB (P : Plat) (args : List Expr) : BProg Expr := do
  checkExact c!"enabled?" args 1
  match ← evArg args 0 with
  | .int l => do
    let b ← logEnabled l
    .ret (.bool b)
  | v => fail (c!"expected an integer, found " ++ display P v)

/-! ### src/binary/init/fs_module.rs -/

/-- `std::fs::read_to_string(path).ok()` -/
def readText (path : Str) : BProg (Option Str) := do
  match ← ask (.readFile path) with
  | .bytes b => .ret (utf8Decode b)
  | _ => .ret none

/-- `head` (113-138) and `tail` (139-164); `order` is the identity or reversal of the lines. -/
def headTailB (P : Plat) (name : Str) (order : List Str → List Str) (args : List Expr) :
    BProg Expr := do
  checkExact name args 2
  let env ← env
  let file ← evArg args 0
  let path := pathJoin env.getCwd (display P file)
  match ← evArg args 1 with
  | .int n => do
    match ← readText path with
    | some s => .ret (.str (((order (linesOf s)).take n.val.toNat).flatMap fun l => l ++ c!"\n"))
    | none => fail (c!"could not read file " ++ display P file)
  | _ => fail (c!"second argument to " ++ name ++ c!" must be an integer")

/-- `cwd.join(args[i].eval(env)?.to_string())`, where `cwd` was read before -/
def pathArg (P : Plat) (cwd : Str) (args : List Expr) (i : Nat) : BProg Str := do
  let v ← evArg args i
  .ret (pathJoin cwd (display P v))

/-- `canon` (165-175). -/
def canonB (P : Plat) (args : List Expr) : BProg Expr := do
  checkExact c!"canon" args 1
  let env ← env
  let path ← pathArg P env.getCwd args 0
  match ← ask (.canonicalize path) with
  | .str s => .ret (.str s)
  | _ => fail (c!"could not canonicalize path " ++ path)

/-- `mkdir` (176-186), `rmdir` (187-197): one request, failure is reported with `msg`. -/
def dirB (P : Plat) (name : Str) (op : Str → IOp) (msg suffix : Str) (args : List Expr) :
    BProg Expr := do
  checkExact name args 1
  let env ← env
  let path ← pathArg P env.getCwd args 0
  match ← ask (op path) with
  | .err _ => fail (msg ++ path ++ suffix)
  | _ => .ret .none

/-- `path.exists()`, `path.is_dir()`, `path.is_file()` -/
def askBool (op : IOp) : BProg Bool := do
  match ← ask op with
  | .bool b => .ret b
  | _ => .ret false

/-- `move_path` (415-438). -/
def movePath (src dst : Str) : BProg Unit :=
  if pathEq src dst then .ret ()
  else do
    if ← askBool (.exists_ dst) then fail (c!"destination " ++ dst ++ c!" already exists")
    else
      match ← ask (.rename src dst) with
      | .err _ => fail (c!"could not move " ++ src ++ c!" to " ++ dst)
      | _ => .ret ()

/-- the loop of `copy_path` over the entries of a directory (379-394); `copy` copies one path -/
def copyEntries (copy : Str → Str → BProg Unit) (src dst : Str) : List Str → BProg Unit
  | [] => .ret ()
  | n :: ns => do
    copy (pathJoin src n) (pathJoin dst n)
    copyEntries copy src dst ns

/-- `copy_path` (354-412); the first argument bounds the recursion (native stack).  Errors of
single directory entries are not modelled; the entries are read when the directory is opened. -/
def copyPath : Nat → Str → Str → BProg Unit
  | 0, _, _ => .panic
  | fuel + 1, src, dst =>
    if pathEq src dst then .ret ()
    else do
      if ← askBool (.exists_ dst) then fail (c!"destination " ++ dst ++ c!" already exists")
      else if ← askBool (.isDir src) then
        match ← ask (.createDirAll dst) with
        | .err _ => fail (c!"could not create directory " ++ dst)
        | _ =>
          match ← ask (.readDir src) with
          | .strs names => copyEntries (copyPath fuel) src dst names
          | _ => fail (c!"could not create directory " ++ dst)
      else
        match ← ask (.copyFile src dst) with
        | .err _ => fail (c!"could not copy file " ++ src ++ c!" to " ++ dst)
        | _ => .ret ()

/-- `mv` (198-207), `cp` (208-217): two paths. -/
def twoPathsB (P : Plat) (name : Str) (k : Str → Str → BProg Unit) (args : List Expr) :
    BProg Expr := do
  checkExact name args 2
  let env ← env
  let src ← pathArg P env.getCwd args 0
  let dst ← pathArg P env.getCwd args 1
  k src dst
  .ret .none

/-- `remove_path` (441-457) -/
def removePath (path : Str) : BProg Unit := do
  if ← askBool (.isDir path) then
    match ← ask (.removeDirAll path) with
    | .err _ => fail (c!"could not remove directory " ++ path)
    | _ => .ret ()
  else
    match ← ask (.removeFile path) with
    | .err _ => fail (c!"could not remove file " ++ path)
    | _ => .ret ()

/-- `rm` (218-226). -/
def rmB (P : Plat) (args : List Expr) : BProg Expr := do
  checkExact c!"rm" args 1
  let env ← env
  let path ← pathArg P env.getCwd args 0
  removePath path
  .ret .none

/-- `ls` (227-234) with `list_directory` (460-507); file names are valid UTF-8. -/
def lsB (P : Plat) (args : List Expr) : BProg Expr := do
  checkExact c!"ls" args 1
  let env ← env
  let v ← evArg args 0
  let short := display P v
  let dir := pathJoin env.getCwd short
  if ← askBool (.isDir dir) then
    match ← ask (.readDir dir) with
    | .strs names => .ret (.list (names.map fun n => .str (pathJoin short n)))
    | _ => fail (c!"could not read directory " ++ dir)
  else if ← askBool (.isFile dir) then .ret (.list [.str dir])
  else fail (dir ++ c!" does not exist")

/-- names that are not components of a path -/
def blankName (s : Str) : Bool := decide (s = [] ∨ s = c!".")

/-- what is left of the pieces of a path after these components -/
def stripNames : List Str → List Str → Option (List Str)
  | [], ps => some ps
  | n :: ns, ps =>
    match ps.dropWhile blankName with
    | [] => none
    | m :: ps => if m = n then stripNames ns ps else none

/-- `Components::as_path` in the middle of a path: without separators and `.` at both ends -/
def restPath (ps : List Str) : Str :=
  joinStr c!"/" (((ps.dropWhile blankName).reverse.dropWhile blankName).reverse)

/-- `Path::strip_prefix(base)` on Unix: component by component; the rest as it is written. -/
def pathStrip (base p : Str) : Option Str :=
  match pathComponents base, p with
  | (true, ns), '/' :: _ => (stripNames ns ((splitStr c!"/" p).drop 1)).map restPath
  | (true, _), _ => none
  | (false, []), _ => some p
  | (false, _ :: _), '/' :: _ => none
  | (false, n :: ns), _ =>
    match splitStr c!"/" p with
    | [] => none
    | m :: ps => if m = n then (stripNames ns ps).map restPath else none

/-- `glob` (325-346): the pattern as it is, so that it is about the directory of the process; an invalid
pattern is a panic (`unwrap`).  With an empty `CWD` a path keeps its trailing `/` (in Rust it loses it), and the
reason of a failure is left out of the message. -/
def globB (P : Plat) (args : List Expr) : BProg Expr := do
  checkExact c!"glob" args 1
  let env ← env
  let v ← evArg args 0
  match ← ask (.glob (display P v)) with
  | .strs ps => .ret (.list (ps.map fun p => .str ((pathStrip env.getCwd p).getD p)))
  | .err _ => fail (c!"could not glob pattern " ++ display P v)
  | _ => .panic

/-- `exists?` (235-240), `is-dir?` (242-247), `is-file?` (249-254). -/
def pathTestB (P : Plat) (name : Str) (op : Str → IOp) (args : List Expr) : BProg Expr := do
  checkExact name args 1
  let env ← env
  let path ← pathArg P env.getCwd args 0
  let b ← askBool (op path)
  .ret (.bool b)

/-- `read` (256-271): as a string if possible, else the bytes of a second read. -/
def readB (P : Plat) (args : List Expr) : BProg Expr := do
  checkExact c!"read" args 1
  let env ← env
  let file ← evArg args 0
  let path := pathJoin env.getCwd (display P file)
  match ← readText path with
  | some s => .ret (.str s)
  | none =>
    match ← ask (.readFile path) with
    | .bytes b => .ret (.bytes b)
    | _ => fail (c!"could not read file " ++ display P file)

/-- `write` (273-293). -/
def writeB (P : Plat) (args : List Expr) : BProg Expr := do
  checkExact c!"write" args 2
  let env ← env
  let file ← evArg args 0
  let path := pathJoin env.getCwd (display P file)
  let v ← evArg args 1
  match ← ask (.writeFile path (bytesOf P v)) with
  | .err e => fail (c!"could not write to file " ++ display P file ++ c!": " ++ P.fmtIOErr e)
  | _ => .ret .none

/-- `append` (295-323): the file is opened before the contents are evaluated. -/
def fsAppendB (P : Plat) (args : List Expr) : BProg Expr := do
  checkExact c!"append" args 2
  let env ← env
  let file ← evArg args 0
  let path := pathJoin env.getCwd (display P file)
  match ← ask (.openAppend path) with
  | .err e => fail (c!"could not open file " ++ display P file ++ c!": " ++ P.fmtIOErr e)
  | _ => do
    let v ← evArg args 1
    match ← ask (.appendFile path (bytesOf P v)) with
    | .err e => fail (c!"could not append to file " ++ display P file ++ c!": " ++ P.fmtIOErr e)
    | _ => .ret .none

/-! ### src/binary/init/parse_module.rs -/

/-- `parse_expr` (15-31). -/
def parseB (P : Plat) (L : Lib) (args : List Expr) : BProg Expr := do
  checkExact c!"json" args 1
  let v ← evArg args 0
  let script := display P v
  if script.isEmpty then .ret .none else lift (L.parse script)

mutual

/-- `json_to_expr` (49-71). -/
def jsonToExpr (P : Plat) : Json → Expr
  | .null => .none
  | .bool b => .bool b
  | .num neg digits exp => .float (P.fOfDec neg digits exp)
  | .str s => .str s
  | .arr l => .list (jsonToExprs P l)
  | .obj m => .map (BMap.ofList (jsonToEntries P m))

def jsonToExprs (P : Plat) : List Json → List Expr
  | [] => []
  | j :: l => jsonToExpr P j :: jsonToExprs P l

def jsonToEntries (P : Plat) : List (Str × Json) → List (Str × Expr)
  | [] => []
  | (k, j) :: m => (k, jsonToExpr P j) :: jsonToEntries P m

end

/-- `parse_json` (33-47). -/
def jsonB (P : Plat) (L : Lib) (args : List Expr) : BProg Expr := do
  checkExact c!"json" args 1
  let v ← evArg args 0
  let text := display P v
  if text.isEmpty then .ret .none
  else
    match L.json text with
    | some j => .ret (jsonToExpr P j)
    | none => fail (c!"could not parse `" ++ text ++ c!"` as JSON")

mutual

/-- `toml_to_expr` (86-109). -/
def tomlToExpr : Toml → Expr
  | .bool b => .bool b
  | .int i => .int i
  | .float f => .float f
  | .datetime s => .str s
  | .str s => .str s
  | .arr l => .list (tomlToExprs l)
  | .table m => .map (BMap.ofList (tomlToEntries m))

def tomlToExprs : List Toml → List Expr
  | [] => []
  | j :: l => tomlToExpr j :: tomlToExprs l

def tomlToEntries : List (Str × Toml) → List (Str × Expr)
  | [] => []
  | (k, j) :: m => (k, tomlToExpr j) :: tomlToEntries m

end

/-- `parse_toml` (73-84). -/
def tomlB (P : Plat) (L : Lib) (args : List Expr) : BProg Expr := do
  checkExact c!"toml" args 1
  let v ← evArg args 0
  let text := display P v
  match L.toml text with
  | some j => .ret (tomlToExpr j)
  | none => fail (c!"could not parse `" ++ text ++ c!"` as TOML")

/-! ### src/binary/init/sys_module.rs -/

/-- `crate::parse(text)` with the error handed over as `none` -/
def tryParse (L : Lib) (text : Str) : BProg (Option Expr) :=
  match L.parse text with
  | .ok e => .ret (some e)
  | .err _ => .ret none
  | .panic => .panic
  | .exit c => .exit c
  | .noFuel => lift .noFuel

/-- `parse` (8-15). -/
def sysParseB (P : Plat) (L : Lib) (args : List Expr) : BProg Expr := do
  checkExact c!"parse" args 1
  let v ← evArg args 0
  match ← tryParse L (display P v) with
  | some e => .ret e
  | none => .ret .none

/-- `quote` (17-20). -/
def sysQuoteB (args : List Expr) : BProg Expr := do
  checkExact c!"quote" args 1
  let e ← arg args 0
  .ret (.quote e)

/-- `include` (32-50), `import` (72-91); `run` evaluates what was read.  The reason of a failed
reading is abbreviated. -/
def sysFileB (P : Plat) (L : Lib) (name : Str) (run : Expr → BProg Expr) (args : List Expr) :
    BProg Expr := do
  checkExact name args 1
  let env ← env
  let path ← pathArg P env.getCwd args 0
  match ← ask (.canonicalize path) with
  | .str canon =>
    match ← readText canon with
    | some contents =>
      match ← tryParse L contents with
      | some e => run e
      | none => fail (c!"could not parse file " ++ canon)
    | none => fail (c!"could not read file " ++ canon)
  | _ => fail (c!"could not canonicalize path " ++ path)

/-- `expr.eval(&mut env.clone())` (82-83) -/
def evalCopy (e : Expr) : BProg Expr := do
  let env ← env
  evIn env e

/-- `cd` (53-64): unlike `os@cd` the directory of the process is not changed. -/
def sysCdB (P : Plat) (args : List Expr) : BProg Expr := do
  checkExact c!"cd" args 1
  let env ← env
  let path ← pathArg P env.getCwd args 0
  match ← ask (.canonicalize path) with
  | .str canon => do
    def_ cwdVar (.str canon)
    .ret .none
  | _ => fail (c!"could not canonicalize path " ++ path)

/-- `cwd` (67-69). -/
def sysCwdB : BProg Expr := do
  let env ← env
  .ret (.str env.getCwd)

/-- `set` (97-103): the second argument is stored as it is. -/
def sysSetB (P : Plat) (args : List Expr) : BProg Expr := do
  checkExact c!"set" args 2
  let x ← arg args 0
  let e ← arg args 1
  def_ (display P x) e
  .ret .none

/-- `unset` (105-110). -/
def sysUnsetB (P : Plat) (args : List Expr) : BProg Expr := do
  checkExact c!"unset" args 1
  let x ← arg args 0
  undef (display P x)
  .ret .none

/-- `defined?` (112-116). -/
def sysDefinedB (P : Plat) (args : List Expr) : BProg Expr := do
  checkExact c!"defined?" args 1
  let x ← arg args 0
  let env ← env
  .ret (.bool (env.get (display P x)).isSome)

/-! ### src/binary/init/fmt_module.rs -/

/-- `strip` (6-9). -/
def stripB (P : Plat) (args : List Expr) : BProg Expr := do
  checkExact c!"strip" args 1
  let v ← evArg args 0
  .ret (.str (stripAnsi (display P v)))

/-- the styles (17-110): the text between the code and `ending` -/
def styleB (P : Plat) (code ending : Str) (args : List Expr) : BProg Expr := do
  let v ← evArg args 0
  .ret (.str (Highlight.color code ++ display P v ++ ending))

/-- `wrap` (112-123). -/
def wrapB (P : Plat) (args : List Expr) : BProg Expr := do
  checkExact c!"wrap" args 2
  match ← evArg args 1 with
  | .int n => do
    let v ← evArg args 0
    .ret (.str (P.fill (display P v) (n.val % 2 ^ 64).toNat))
  | v => fail (c!"expected number of columns in wrap, but got " ++ display P v)

/-- `href` (125-135). -/
def hrefB (P : Plat) (args : List Expr) : BProg Expr := do
  checkExact c!"href" args 2
  let url ← evArg args 0
  let text ← evArg args 1
  .ret (.str (esc :: c!"]8;;" ++ display P url ++ esc :: c!"\\" ++ display P text ++
    esc :: c!"]8;;" ++ [esc, '\\']))

/-! ### src/binary/init/rand_module.rs -/

/-- `int` (14-28); `Uniform::new` panics on an empty range. -/
def randIntB (P : Plat) (args : List Expr) : BProg Expr := do
  checkExact c!"int" args 2
  let l ← evArg args 0
  let h ← evArg args 1
  match l, h with
  | .int l, .int h =>
    if l.val < h.val then do
      match ← ask (.randomInt l h) with
      | .int n => .ret (.int n)
      | _ => .panic
    else .panic
  | l, h => fail (c!"expected two integers, but got " ++ display P l ++ c!" and " ++ display P h)

/-- a random index; `Uniform::new(0, n)` panics if `n` is 0 -/
def index (n : Nat) : BProg Nat :=
  if 0 < n then do
    match ← ask (.randomIndex n) with
    | .nat k => .ret k
    | _ => .panic
  else .panic

/-- `choose` (30-43). -/
def chooseB (P : Plat) (args : List Expr) : BProg Expr := do
  checkExact c!"choose" args 1
  match ← evArg args 0 with
  | .list l => do
    let k ← index l.length
    match l[k]? with
    | some v => .ret v
    | none => .panic
  | v => fail (c!"expected a list, but got " ++ display P v)

/-- `[T]::swap`; out of range is a panic -/
def swapAt (l : List Expr) (i j : Nat) : Option (List Expr) :=
  match l[i]?, l[j]? with
  | some a, some b => some ((l.set i b).set j a)
  | _, _ => none

/-- `SliceRandom::shuffle` of rand 0.8: `for i in (1..len).rev() { swap(i, gen_index(i + 1)) }`; the
first argument is `i`. -/
def shuffleLoop : Nat → List Expr → BProg (List Expr)
  | 0, l => .ret l
  | i + 1, l => do
    let k ← index (i + 2)
    match swapAt l (i + 1) k with
    | some l' => shuffleLoop i l'
    | none => .panic

/-- `shuffle` (45-57). -/
def shuffleB (P : Plat) (args : List Expr) : BProg Expr := do
  checkExact c!"shuffle" args 1
  match ← evArg args 0 with
  | .list l => do
    let l' ← shuffleLoop (l.length - 1) l
    .ret (.list l')
  | v => fail (c!"expected a list, but got " ++ display P v)

/-! ### src/binary/init/widget_module.rs -/

/-- `format!("{:n$}", s)`: padded on the right to `n` characters -/
def padRight (n : Nat) (s : Str) : Str := s ++ List.replicate (n - s.length) ' '

/-- the loop of `create` over the characters (69-93), with `i` and `lines`; what is added to
`result`, and the final `i`.  `width - i` does not go below zero since `i ≤ width`. -/
def boxLoop (width height : Nat) : Str → Nat → Nat → Str × Nat
  | [], i, _ => ([], i)
  | c :: cs, i, lines =>
    let pre : Str := if i = 0 then [' '] else []
    let i := if i = 0 then 1 else i
    let s : Str := if c = '\n' then List.replicate (width - i) ' ' else [c]
    let lines := if c = '\n' then lines + 1 else lines
    let i := if c = '\n' then width else i
    if lines = height - 1 then (pre ++ s, i)
    else if width - 1 ≤ i then
      let r := boxLoop width height cs 0 lines
      (pre ++ s ++ '\n' :: r.1, r.2)
    else
      let r := boxLoop width height cs (i + 1) lines
      (pre ++ s ++ r.1, r.2)

/-- the loop adding empty lines (97-100); the first argument bounds the number of rounds, of which
there are less than `height` -/
def boxFill (width height : Nat) : Nat → Str → Str
  | 0, s => s
  | n + 1, s =>
    if (linesOf s).length < height - 1 then
      boxFill width height n (s ++ '\n' :: List.replicate width ' ')
    else s

/-- `create` from `if text_width < title_len` on (46-109), for a title that fits.  Half of the
difference rounded (away from zero) is `(d + 1) / 2`. -/
def box (title text : Str) (textWidth height : Nat) : Str :=
  let half := (textWidth - title.length + 1) / 2
  let right : Str := List.replicate half '─'
  let left : Str := if textWidth + 2 < half * 2 + title.length + 2 then right.dropLast else right
  let top := '┌' :: left ++ title ++ right ++ c!"┐\n"
  let width := top.length - 1
  let r := boxLoop width height (text.filter fun c => decide (c ≠ '\r')) 0 1
  let result := top ++ r.1 ++ List.replicate (width - r.2) ' '
  boxFill width height height result ++ '\n' :: '└' :: left ++
    List.replicate title.length '─' ++ right ++ c!"┘"

/-- `create` (13-111). -/
def createB (P : Plat) (args : List Expr) : BProg Expr := do
  checkExact c!"create" args 4
  let title ← evArg args 0
  let width ← evArg args 2
  match width with
  | .int n =>
    if 4 < n.val then do
      let textWidth := n.val.toNat - 2
      let v ← evArg args 1
      let text := P.fill (padRight (textWidth * 2 / 3) (display P v)) textWidth
      match ← evArg args 3 with
      | .int h =>
        if 3 ≤ h.val then
          if textWidth < (display P title).length then fail c!"width is less than title length"
          else .ret (.str (box (display P title) text textWidth h.val.toNat))
        else fail (c!"expected height argument to be an integer greater than 2, but got " ++
          display P (.int h))
      | v => fail (c!"expected height argument to be an integer greater than 2, but got " ++
          display P v)
    else fail (c!"expected width argument to be integer greater than 4, but got " ++
      display P (.int n))
  | v => fail (c!"expected width argument to be integer greater than 4, but got " ++ display P v)

/-- the loop of `joinx` over the arguments (117-144); `acc` are the lines of the texts so far -/
def joinxLoop (P : Plat) : List Expr → List (List Str) → BProg (List (List Str))
  | [], acc => .ret acc
  | a :: as, acc => do
    match ← ev a with
    | .str s =>
      let lines := linesOf s
      let height := ((acc ++ [lines]).headD []).length
      if height ≠ lines.length then
        fail (c!"Heights of horizontally added widgets must be equal, first widget height=" ++
          natToStr height ++ c!", " ++ natToStr acc.length ++ c!"th widget height=" ++
          natToStr lines.length)
      else joinxLoop P as (acc ++ [lines])
    | v => fail (c!"expected string, but got " ++ display P v)

def dropCr (s : Str) : Str := s.filter fun c => decide (c ≠ '\r')

/-- one line of the result (148-153); all texts have this line -/
def joinxLine (texts : List (List Str)) (i : Nat) : Str :=
  (texts.flatMap fun ls => dropCr (ls.getD i [])) ++ c!"\n"

/-- `joinx` (113-157). -/
def joinxB (P : Plat) (args : List Expr) : BProg Expr := do
  checkArgs c!"joinx" args 2 args.length
  let texts ← joinxLoop P args []
  .ret (.str ((List.range (texts.headD []).length).flatMap (joinxLine texts)))

/-- the loop of `joiny` over the arguments (162-184) -/
def joinyLoop (P : Plat) : List Expr → List Str → BProg (List Str)
  | [], acc => .ret acc
  | a :: as, acc => do
    match ← ev a with
    | .str s =>
      let acc := acc ++ [trim s]
      match (linesOf (acc.headD [])).head?, (linesOf (trim s)).head? with
      | some l1, some l2 =>
        if l1.length ≠ l2.length then
          fail (c!"Widths of vertically added widgets must be equal, first widget height=" ++
            natToStr l1.length ++ c!", " ++ natToStr (acc.length - 1) ++ c!"th widget height=" ++
            natToStr l2.length)
        else joinyLoop P as acc
      | _, _ => .panic
    | v => fail (c!"expected string, but got " ++ display P v)

/-- `joiny` (159-189). -/
def joinyB (P : Plat) (args : List Expr) : BProg Expr := do
  checkArgs c!"joiny" args 2 args.length
  let texts ← joinyLoop P args []
  .ret (.str (joinStr c!"\n" (texts.map dropCr)))

/-! ### src/binary/init/console_module.rs -/

/-- `width` (194-199), `height` (201-206). -/
def sizeB (pick : Nat → Nat → Nat) : BProg Expr := do
  match ← ask .terminalSize with
  | .size w h => .ret (.int (I64.wrap (pick w h)))
  | _ => .ret .none

/-- the loop of `write` over the lines (213-220), with `y_offset` -/
def writeLoop (P : Plat) (x y : I64) : Nat → List Str → BProg Unit
  | _, [] => .ret ()
  | i, l :: ls => do
    let row ← lift (arith P (y.val + i))
    let pos := intToStr row.val ++ c!";" ++ intToStr x.val
    out (c!"\x1b[s\x1b[" ++ pos ++ c!"H\x1b[" ++ pos ++ c!"f" ++ l ++ c!"\x1b[u")
    writeLoop P x y (i + 1) ls

/-- `write` (208-230). -/
def consoleWriteB (P : Plat) (args : List Expr) : BProg Expr := do
  checkExact c!"write" args 3
  let x ← evArg args 0
  let y ← evArg args 1
  let v ← evArg args 2
  match x, y with
  | .int x, .int y => do
    writeLoop P x y 0 (linesOf (display P v))
    .ret .none
  | x, y => fail (c!"expected first two arguments to be integers, but got: `" ++ debug P x ++
      c!"`, `" ++ debug P y ++ c!"`")

/-- `title` (232-236). -/
def titleB (P : Plat) (args : List Expr) : BProg Expr := do
  checkExact c!"title" args 1
  let v ← evArg args 0
  out (c!"\x1b]2;" ++ display P v ++ c!"\x1b[0m")
  .ret .none

/-- `clear` (238-242); the argument is not evaluated. -/
def clearB (args : List Expr) : BProg Expr := do
  checkExact c!"clear" args 1
  out c!"\x1b[2J\x1b[H"
  .ret .none

/-- `flush` (13-16): a failure is a panic. -/
def flushB : BProg Expr := do
  match ← ask .flush with
  | .err _ => .panic
  | _ => .ret .none

/-- `mode@raw` (18-23), `mode@cooked` (24-29). -/
def rawModeB (on : Bool) (verb : Str) : BProg Expr := do
  match ← ask (.rawMode on) with
  | .err _ => fail (c!"could not " ++ verb ++ c!" raw mode")
  | _ => .ret .none

/-- a fixed sequence: `mode@alternate`, `mode@normal` (30-37), `cursor@save-position`,
`restore-position`, `hide`, `show` (97-115). -/
def seqB (s : Str) : BProg Expr := do
  out s
  .ret .none

/-- `cursor@move-to` (40-51). -/
def moveToB (P : Plat) (args : List Expr) : BProg Expr := do
  checkExact c!"move-to" args 2
  let x ← evArg args 0
  let y ← evArg args 1
  match x, y with
  | .int x, .int y => do
    out (c!"\x1b[" ++ intToStr y.val ++ c!";" ++ intToStr x.val ++ c!"f")
    .ret .none
  | x, y => fail (c!"expected first two arguments to be integers, but got: `" ++ debug P x ++
      c!"`, `" ++ debug P y ++ c!"`")

/-- `cursor@move-up`, `move-down`, `move-left`, `move-right` (53-95). -/
def moveB (P : Plat) (name : Str) (dir : Char) (args : List Expr) : BProg Expr := do
  checkExact name args 1
  match ← evArg args 0 with
  | .int n => do
    out (c!"\x1b[" ++ intToStr n.val ++ [dir])
    .ret .none
  | v => fail (c!"expected first argument to be an integer, but got: `" ++ debug P v ++ c!"`")

/-- `keyboard@read-line` (119-123), `read-password` (124-127): a failure is a panic. -/
def readLineB (op : IOp) : BProg Expr := do
  match ← ask op with
  | .str s => .ret (.str s)
  | _ => .panic

/-- the match of `read-key` (137-157) -/
def keyText : Key → Option Str
  | .char c => some [c]
  | .enter => some c!"\n"
  | .backspace => some c!"\x08"
  | .delete => some c!"\x7f"
  | .left => some c!"\x1b[D"
  | .right => some c!"\x1b[C"
  | .up => some c!"\x1b[A"
  | .down => some c!"\x1b[B"
  | .home => some c!"\x1b[H"
  | .end_ => some c!"\x1b[F"
  | .pageUp => some c!"\x1b[5~"
  | .pageDown => some c!"\x1b[6~"
  | .tab => some c!"\t"
  | .esc => some c!"\x1b"
  | .insert => some c!"\x1b[2~"
  | .f i => some (c!"\x1b[" ++ natToStr i ++ c!"~")
  | .null => some c!"\x00"
  | .backTab => some c!"\x1b[Z"
  | .other => none

/-- `keyboard@read-key` (128-158). -/
def readKeyB : BProg Expr := do
  match ← ask .readEvent with
  | .key (some k) =>
    match keyText k with
    | some s => .ret (.str s)
    | none => .ret .none
  | .key none => .ret .none
  | _ => .panic

/-! ### src/binary/init/time_module.rs -/

/-- `sleep` (18-33); `n as u64` of a negative integer wraps around. -/
def sleepB (P : Plat) (args : List Expr) : BProg Expr := do
  checkExact c!"sleep" args 1
  match ← evArg args 0 with
  | .float f => do
    let _ ← ask (.sleep (P.fToU64 f))
    .ret .none
  | .int n => do
    let _ ← ask (.sleep n.asUsize)
    .ret .none
  | v => fail (c!"expected integer or float, but got " ++ display P v)

/-- two digits, as `%M`, `%m`, `%d` and `%y` print them -/
def twoDigits (n : Nat) : Str := [Char.ofNat (48 + n / 10 % 10), Char.ofNat (48 + n % 10)]

/-- `time().format("%-I:%M %p")` -/
def clockTime (c : Clock) : Str :=
  natToStr (if c.hour % 12 = 0 then 12 else c.hour % 12) ++ c!":" ++ twoDigits c.minute ++
    (if c.hour < 12 then c!" AM" else c!" PM")

/-- `format("%D")` -/
def clockDate (c : Clock) : Str :=
  twoDigits c.month ++ c!"/" ++ twoDigits c.day ++ c!"/" ++ twoDigits c.year

/-- `now` (35-51). -/
def nowB : BProg Expr := do
  match ← ask .now with
  | .clock c => .ret (.map (BMap.ofList [
      (c!"year", .int (I64.wrap c.year)), (c!"month", .int (I64.wrap c.month)),
      (c!"day", .int (I64.wrap c.day)), (c!"hour", .int (I64.wrap c.hour)),
      (c!"time", .map (BMap.ofList [(c!"str", .str (clockTime c))])),
      (c!"date", .map (BMap.ofList [(c!"str", .str (clockDate c))]))]))
  | _ => .panic

/-! ### `fs@tree` (src/binary/init/fs_module.rs:11-40, 76-111) -/

/-- a reversed path without the separators and `.` at its end -/
def trimTail : Str → Str
  | '/' :: c :: r => trimTail (c :: r)
  | '.' :: '/' :: r => trimTail ('/' :: r)
  | r => r

/-- `Path::parent` on Unix: the text before the last component; `none` for the root and the empty
path. -/
def pathParent (p : Str) : Option Str :=
  let r := trimTail p.reverse
  if r = [] ∨ r = c!"/" then none
  else some (trimTail (r.dropWhile fun c => decide (c ≠ '/'))).reverse

/-- the loop of `get_dir_tree` over the entries (23-38); `sub` is the recursive call -/
def treeEntries (sub : Str → BProg (BMap Expr)) (dir : Str) : List Str → BMap Expr →
    BProg (BMap Expr)
  | [], t => .ret t
  | n :: ns, t => do
    let path := pathJoin dir n
    if ← askBool (.isDir path) then do
      let m ← sub path
      treeEntries sub dir ns (t.insert n (.map m))
    else treeEntries sub dir ns (t.insert n (.str path))

/-- `get_dir_tree` (11-40); the first argument bounds the recursion (native stack).  The depth is
only counted down.  File names are valid UTF-8. -/
def dirTree (P : Plat) : Nat → Str → Option I64 → BProg (BMap Expr)
  | 0, _, _ => .panic
  | fuel + 1, dir, depth =>
    match pathParent dir with
    | none => .panic
    | some parent => do
      let t := (BMap.insert (BMap.insert [] c!"." (.str dir)) c!".." (.str parent))
      match ← ask (.readDir dir) with
      | .strs names =>
        treeEntries (fun path =>
          match depth with
          | none => dirTree P fuel path none
          | some d => do
            let d' ← lift (arith P (d.val - 1))
            dirTree P fuel path (some d')) dir names t
      | _ => .ret t

/-- `tree` (76-111). -/
def treeB (P : Plat) (args : List Expr) : BProg Expr := do
  checkArgs c!"joinx" args 1 2
  let env ← env
  let cwd := env.getCwd
  let a ← evArg args 0
  match a with
  | .int n => do
    let p ← ev (args.getD 1 .none)
    let dir := (match strOrSym p with
      | some p => pathJoin cwd p
      | none => cwd)
    let t ← dirTree P P.stackDepth dir (some n)
    .ret (.map t)
  | v => do
    let dir := (match strOrSym v with
      | some p => pathJoin cwd p
      | none => cwd)
    let t ← dirTree P P.stackDepth dir none
    .ret (.map t)

/-! ### `input` (src/binary/init/mod.rs:153-169) -/

/-- the loop making the prompt (156-164) -/
def promptLoop (P : Plat) : List Expr → BProg Str
  | [] => .ret []
  | a :: as => do
    let v ← ev a
    let r ← promptLoop P as
    .ret (display P v ++ (if as.isEmpty then [] else c!" ") ++ r)

/-- `input`: the line editor is modelled by one request, answered with the line (empty after Ctrl-C) or
with `.unit` at the end of the input (`readline`, src/bin.rs:84-103; its repetition after other errors is
part of the request). -/
def inputB (P : Plat) (args : List Expr) : BProg Expr := do
  let p ← promptLoop P args
  match ← ask (.editLine p) with
  | .str s => .ret (.str s)
  | .unit => .exit 0
  | _ => .panic

end Builtins

open Builtins BProg in
/-- The code behind each builtin of the standard library. -/
def stdB (P : Plat) (L : Lib) : BId → List Expr → BProg Expr
  | .add => addB P
  | .sub => subB P
  | .mul => mulB P
  | .div => divB P
  | .rem => remB P
  | .and => andB
  | .or => orB
  | .not => notB
  | .eq => cmpB Expr.beq
  | .ne => cmpB fun a b => !Expr.beq a b
  | .lt => cmpB ltE
  | .le => cmpB leE
  | .gt => cmpB gtE
  | .ge => cmpB geE
  | .index => indexB
  | .pipe => pipeB P
  | .print => printLoop (display P) []
  | .debug => printLoop (debug P) c!"\n"
  | .println => printLoop (display P) c!"\n"
  | .to => toB
  | .str => strB P
  | .int => intB P
  | .insert => insertB P
  | .keys => keysB P
  | .vals => valsB P
  | .vars => fun _ => varsB
  | .len => lenB P
  | .lines => linesB P
  | .eval => evalB
  | .exec => execB
  | .unbind => unbindB P
  | .report => reportB P
  | .exit_ => exitB P
  | .cd => cdB P
  | .lList => fun args => .ret (.list args)
  | .lTail => tailB
  | .lHead => headB
  | .lChunk => chunkB
  | .lCons => consB
  | .lAppend => appendB
  | .lLen => listLenB
  | .lRev => revB
  | .lRange => rangeB
  | .lFoldl => foldlB
  | .lFoldr => foldrB
  | .lZip => zipB
  | .lUnzip => unzipB
  | .lTake => intListB c!"take" fun n l => .list (l.take n)
  | .lDrop => intListB c!"drop" fun n l => .list (l.drop n)
  | .lSplitAt => intListB c!"split-at" fun n l => .list [.list (l.take n), .list (l.drop n)]
  | .lNth => nthB
  | .fApply => applyB P
  | .fCurry => curryB
  | .fMap => mapB P
  | .fFilter => filterB P
  | .fReduce => reduceB P
  | .fConditional => conditionalB
  | .dFlatten => dFlattenB
  | .dItems => dItemsB
  | .dKeys => dKeysB
  | .dValues => dValuesB
  | .dInsert => dInsertB P
  | .dRemove => dRemoveB P
  | .dHas => dHasB P
  | .dLen => dLenB
  | .dFromItems => dFromItemsB P
  | .dUnion => dTwoB c!"union" dUnion
  | .dIntersect => dTwoB c!"intersect" dIntersect
  | .dDifference => dTwoB c!"difference" dDifference
  | .eTry => tryB P
  | .sToString => toStringB P
  | .sCaesar => caesarB P
  | .sGetWidth => getWidthB
  | .sIsWhitespace => onStr P fun s => .bool (s.all isWhitespace)
  | .sSplit2 => split2B P
  | .sSplit => splitB
  | .sLower => onStr P fun s => .str (toLower P s)
  | .sUpper => onStr P fun s => .str (toUpper P s)
  | .sJoin => joinB P
  | .sLines => onStr1 c!"lines" fun s => .list ((linesOf s).map .str)
  | .sChars => charsB P
  | .sWords => onStr1 c!"words" fun s => .list ((wordsOf s).map .str)
  | .sParagraphs => onStr1 c!"paragraphs" fun s => .list ((splitStr c!"\n\n" s).map .str)
  | .sSplitAt => strSplitAtB
  | .sTrim => onStr P fun s => .str (trim s)
  | .sTrimStart => onStr P fun s => .str (trimStart s)
  | .sTrimEnd => onStr P fun s => .str (trimEnd s)
  | .sReplace => replaceB P
  | .sStartsWith => strTestB P c!"starts-with?" fun s x => x.isPrefixOf s
  | .sEndsWith => strTestB P c!"ends-with?" fun s x => x.isSuffixOf s
  | .sContains => strTestB P c!"contains?" fun s x => containsStr x s
  | .mLRsh => twoInts P c!"l-rsh" (lRsh P)
  | .mARsh => twoInts P c!"a-rsh" (aRsh P)
  | .mLsh => twoInts P c!"lsh" (lShift P)
  | .mSum => sumB P
  | .mProduct => productB P
  | .mFact => factB P
  | .mAbs => absB P
  | .mIsOdd => parityB P c!"odd" 1
  | .mIsEven => parityB P c!"even" 0
  | .mPow => powB P
  | .gSetLevel => setLevelB P
  | .gGetLevel => getLevelB
  | .gDisable => disableB
  | .gEnabled => enabledB P
  | .gInfo => logB P (.lit 3) c!"92" c!"INFO"
  | .gWarn => logB P (.lit 2) c!"93" c!"WARN"
  | .gDebug => logB P (.lit 4) c!"94" c!"DEBUG"
  | .gError => logB P (.lit 1) c!"91" c!"ERROR"
  | .gTrace => logB P (.lit 5) c!"95" c!"TRACE"
  | .gEcho => printLoop (display P) c!"\n"
  | .fsHead => headTailB P c!"head" id
  | .fsTail => headTailB P c!"tail" List.reverse
  | .fsCanon => canonB P
  | .fsGlob => globB P
  | .fsMkdir => dirB P c!"mkdir" .createDirAll c!"could not create directory " []
  | .fsRmdir => dirB P c!"rmdir" .removeDir c!"could not remove directory " c!", is it empty?"
  | .fsMv => twoPathsB P c!"mv" movePath
  | .fsCp => twoPathsB P c!"cp" (copyPath P.stackDepth)
  | .fsRm => rmB P
  | .fsLs => lsB P
  | .fsExists => pathTestB P c!"exists" .exists_
  | .fsIsDir => pathTestB P c!"isdir" .isDir
  | .fsIsFile => pathTestB P c!"isfile" .isFile
  | .fsRead => readB P
  | .fsWrite => writeB P
  | .fsAppend => fsAppendB P
  | .pExpr => parseB P L
  | .pJson => jsonB P L
  | .pToml => tomlB P L
  | .yParse => sysParseB P L
  | .yQuote => sysQuoteB
  | .yEval => evalB
  | .yExec => execB
  | .yInclude => sysFileB P L c!"include" ev
  | .yCd => sysCdB P
  | .yCwd => fun _ => sysCwdB
  | .yImport => sysFileB P L c!"import" evalCopy
  | .yEnv => fun _ => varsB
  | .ySet => sysSetB P
  | .yUnset => sysUnsetB P
  | .yDefined => sysDefinedB P
  | .tStrip => stripB P
  | .tWrap => wrapB P
  | .tHref => hrefB P
  | .tStyle code => styleB P code Highlight.reset
  | .tDarkWhite => styleB P c!"37" (Highlight.color [] ++ c!"k[0m")
  | .rInt => randIntB P
  | .rChoose => chooseB P
  | .rShuffle => shuffleB P
  | .wCreate => createB P
  | .wJoinx => joinxB P
  | .wJoiny => joinyB P
  | .sIsAlpha => onStr P fun s => .bool (s.all (charAlpha P))
  | .sIsAlnum => onStr P fun s => .bool (s.all (charAlnum P))
  | .sIsNumeric => onStr P fun s => .bool (s.all (charNumeric P))
  | .sTitle => onStr P fun s => .str (titleLoop P true s)
  | .sIsLower => onStr P fun s => .bool (s.all (charLower P))
  | .sIsUpper => onStr P fun s => .bool (s.all (charUpper P))
  | .sIsTitle => onStr P fun s => .bool (decide (s = titleLoop P true s))
  | .mRound f => roundB P f
  | .mFun f what => funB P f what
  | .mFunD f => funDB P f
  | .mLog => logFunB P
  | .fsTree => treeB P
  | .cWidth => fun _ => sizeB fun w _ => w
  | .cHeight => fun _ => sizeB fun _ h => h
  | .cWrite => consoleWriteB P
  | .cTitle => titleB P
  | .cClear => clearB
  | .cFlush => fun _ => flushB
  | .cRaw => fun _ => rawModeB true c!"enable"
  | .cCooked => fun _ => rawModeB false c!"disable"
  | .cSeq s => fun _ => seqB s
  | .cMoveTo => moveToB P
  | .cMove name dir => moveB P name dir
  | .cReadLine => fun _ => readLineB .readLine
  | .cReadPassword => fun _ => readLineB .readPassword
  | .cReadKey => fun _ => readKeyB
  | .tSleep => sleepB P
  | .tNow => fun _ => nowB
  | .input => inputB P
  | .other n => L.other n

end Dune
