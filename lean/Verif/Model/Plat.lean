import Verif.Model.Env

/-!
The platform: everything the model leaves uninterpreted (`Plat`), the outcome type, and the
interface to the outside world (`Host`).
-/

namespace Dune

/-- `std::io::ErrorKind`, as far as the code distinguishes it. -/
inductive IOErr
  | notFound
  | permissionDenied
  | other (msg : Str)
deriving DecidableEq

/-- Operations that are not modelled; every theorem holds for any choice of them unless it states
an assumption. -/
structure Plat where
  /-- `f64` arithmetic, `i64 as f64`, `f64 as i64`, parsing and formatting. -/
  fAdd : F64 → F64 → F64
  fSub : F64 → F64 → F64
  fMul : F64 → F64 → F64
  fDiv : F64 → F64 → F64
  fPow : F64 → F64 → F64
  /-- the functions of one float named in src/binary/init/math_module.rs (`floor`, …, `atan`;
  `log2`, `log10` are `f64::log` with base 2 and 10, `sinpi` is the sine of the product with pi), and `exp` -/
  fFun : Str → F64 → F64
  /-- `x.log(base)` -/
  fLog : F64 → F64 → F64
  /-- `f64 as u64` -/
  fToU64 : F64 → Nat
  fOfInt : I64 → F64
  fToInt : F64 → I64
  fParse : Str → Option F64
  fFmt : F64 → Str
  /-- a number of a JSON text (sign, digits, decimal exponent) as `f64` -/
  fOfDec : Bool → Nat → Int → F64
  /-- `textwrap::fill` -/
  fill : Str → Nat → Str
  /-- the width of the terminal (`terminal_size`), 120 if there is none (src/expr.rs:227-231); it does
  not change -/
  width : Nat
  /-- the width of a character on the terminal (crate `unicode-width`) -/
  charWidth : Char → Nat
  /-- `String::from_utf8_lossy`. -/
  utf8Lossy : List UInt8 → Str
  /-- does `Debug for str` print this non-ASCII character as `\u{..}`? -/
  escNonAscii : Char → Bool
  /-- `str::to_lowercase`, `str::to_uppercase` of texts that are not all ASCII. -/
  lower : Str → Str
  upper : Str → Str
  /-- `char::is_alphanumeric` on non-ASCII characters. -/
  alnumNonAscii : Char → Bool
  /-- `char::is_alphabetic`, `is_numeric`, `is_lowercase`, `is_uppercase` and the first character of
  `to_lowercase` and `to_uppercase`, on non-ASCII characters. -/
  alphaNonAscii : Char → Bool
  numericNonAscii : Char → Bool
  lowerNonAscii : Char → Bool
  upperNonAscii : Char → Bool
  toLowerNonAscii : Char → Char
  toUpperNonAscii : Char → Char
  /-- `{:?}` of a `std::io::Error`. -/
  fmtIOErr : IOErr → Str
  /-- how deep the recursion over directories may go before the native stack overflows -/
  stackDepth : Nat
  /-- was the program compiled with overflow checks (debug build)? -/
  overflowChecks : Bool

/-- What a computation can end with.  `panic` is a Rust panic, `exit` is `std::process::exit`,
`noFuel` marks that the native-recursion bound of the model was reached. -/
inductive Outcome (α : Type)
  | ok (a : α)
  | err (e : Error)
  | panic
  | exit (code : Int)
  | noFuel

/-- How a child's standard stream is connected. -/
inductive Stdio
  | inherit
  | piped
deriving DecidableEq

/-- How a pipeline stage can fail. -/
inductive StageErr
  | spawn
  | pipe
  | wait
deriving DecidableEq

/-- `crossterm::event::KeyCode`; `other` stands for the codes the code does not distinguish. -/
inductive Key
  | char (c : Char)
  | enter | backspace | delete | left | right | up | down | home | end_ | pageUp | pageDown | tab
  | esc | insert
  | f (n : Nat)
  | null | backTab
  | other
deriving DecidableEq

/-- `chrono::Local::now()`, as far as it is used -/
structure Clock where
  year : Nat
  month : Nat
  day : Nat
  hour : Nat
  minute : Nat

/-- The requests made to the outside world. -/
inductive IOp
  /-- `Command::new(prog).current_dir(cwd).args(args).envs(envs).status()` (src/expr.rs:562-571) -/
  | status (prog cwd : Str) (args : List Str) (envs : BMap Str)
  /-- one stage of a pipeline (src/binary/init/operator_module.rs:330-421): start the program,
  feed it `input` (`none`: standard input is inherited), wait for it, and collect the output when
  it is piped. -/
  | stage (prog cwd : Str) (args : List Str) (envs : BMap Str) (input : Option (List UInt8))
      (stdout : Stdio)
  /-- write to standard output -/
  | print (s : Str)
  /-- write to standard error -/
  | eprint (s : Str)
  /-- file system requests (src/binary/init/fs_module.rs) -/
  | readFile (path : Str)
  /-- `OpenOptions::new().append(true).open(path)`, without `create` -/
  | openAppend (path : Str)
  | writeFile (path : Str) (data : List UInt8)
  | appendFile (path : Str) (data : List UInt8)
  | exists_ (path : Str)
  | isDir (path : Str)
  | isFile (path : Str)
  | canonicalize (path : Str)
  | copyFile (src dst : Str)
  | rename (src dst : Str)
  | createDir (path : Str)
  | createDirAll (path : Str)
  | removeFile (path : Str)
  | removeDir (path : Str)
  | removeDirAll (path : Str)
  | readDir (path : Str)
  /-- `glob::glob(pattern)` with all its entries: `.strs` the paths, `.err` one of them cannot be read,
  anything else: the pattern is not valid -/
  | glob (pattern : Str)
  | setCurrentDir (path : Str)
  /-- the log level static of src/binary/init/log_module.rs -/
  | getLogLevel
  | setLogLevel (level : I64)
  /-- `rng.sample(Uniform::new(lo, hi))` -/
  | randomInt (lo hi : I64)
  /-- a random index below `n` (`Uniform::new(0, n)`, `gen_index`) -/
  | randomIndex (n : Nat)
  /-- the terminal (src/binary/init/console_module.rs) -/
  | terminalSize
  | flush
  | rawMode (on : Bool)
  /-- `stdin().read_line`, `rpassword::read_password`, `crossterm::event::read` -/
  | readLine
  | readPassword
  | readEvent
  /-- the line editor with a prompt (`readline`, src/bin.rs:84-103) -/
  | editLine (prompt : Str)
  /-- `thread::sleep`, in milliseconds -/
  | sleep (ms : Nat)
  | now

/-- The answers of the outside world. -/
inductive IORes
  | unit
  | err (e : IOErr)
  | stageErr (e : StageErr)
  | bytes (b : List UInt8)
  | str (s : Str)
  | strs (l : List Str)
  | bool (b : Bool)
  | int (i : I64)
  | nat (n : Nat)
  | size (w h : Nat)
  /-- `none`: an event that is not a key -/
  | key (k : Option Key)
  | clock (c : Clock)

/-- The outside world: any state type with any reaction. -/
structure Host (W : Type) where
  io : IOp → W → IORes × W

/-- A stateful computation.  Environment and world keep their changes when an error is returned,
as with `&mut Environment` in the Rust code. -/
def M (W : Type) (α : Type) := Env → W → Outcome α × Env × W

namespace M

variable {W α β : Type}

def pure (a : α) : M W α := fun env w => (.ok a, env, w)

/-- `?`: continue on `ok`, stop on everything else. -/
def bind (m : M W α) (f : α → M W β) : M W β := fun env w =>
  match m env w with
  | (.ok a, env', w') => f a env' w'
  | (.err e, env', w') => (.err e, env', w')
  | (.panic, env', w') => (.panic, env', w')
  | (.exit c, env', w') => (.exit c, env', w')
  | (.noFuel, env', w') => (.noFuel, env', w')

instance : Monad (M W) where
  pure := M.pure
  bind := M.bind

def throw (e : Error) : M W α := fun env w => (.err e, env, w)
def lift (o : Outcome α) : M W α := fun env w => (o, env, w)
def getEnv : M W Env := fun env w => (.ok env, env, w)
def define (x : Str) (v : Expr) : M W Unit := fun env w => (.ok (), env.define x v, w)
def undefine (x : Str) : M W Unit := fun env w => (.ok (), env.undefine x, w)
def io (H : Host W) (op : IOp) : M W IORes := fun env w =>
  let (r, w') := H.io op w
  (.ok r, env, w')

/-- Run in another environment, return its value; the caller's environment is kept. -/
def within (m : M W α) (env' : Env) : M W α := fun env w =>
  let r := m env' w
  (r.1, env, r.2.2)

/-- Run in another environment and also return that environment's final state; errors are handed
over as data. -/
def withinTry (m : M W α) (env' : Env) : M W (Except Error α × Env) := fun env w =>
  match m env' w with
  | (.ok a, env'', w') => (.ok (.ok a, env''), env, w')
  | (.err e, env'', w') => (.ok (.error e, env''), env, w')
  | (.panic, _, w') => (.panic, env, w')
  | (.exit c, _, w') => (.exit c, env, w')
  | (.noFuel, _, w') => (.noFuel, env, w')

/-- Hand errors over as data. -/
def catch_ (m : M W α) : M W (Except Error α) := fun env w =>
  match m env w with
  | (.ok a, env', w') => (.ok (.ok a), env', w')
  | (.err e, env', w') => (.ok (.error e), env', w')
  | (.panic, env', w') => (.panic, env', w')
  | (.exit c, env', w') => (.exit c, env', w')
  | (.noFuel, env', w') => (.noFuel, env', w')

end M

end Dune
