import Verif.Model.BMap

/-!
The expression type, environments and errors (src/expr.rs, src/env.rs, src/error.rs).
-/

namespace Dune

/-- Identity of the function pointer stored in a `Builtin` (src/expr.rs:134-142).  The behaviour
attached to an identity is given by `Verif/Model/Builtins`; `other n` stands for builtins that are
not modelled. -/
inductive BId
  -- src/binary/init/operator_module.rs
  | add | sub | mul | div | rem | and | or | not
  | eq | ne | lt | le | gt | ge | index | pipe
  -- src/binary/init/mod.rs
  | print | debug | println | to | str | int | insert | keys | vals | vars | len | lines
  | eval | exec | unbind | report | input
  -- src/binary/init/os_module.rs
  | exit_ | cd
  -- src/binary/init/list_module.rs
  | lList | lTail | lHead | lChunk | lCons | lAppend | lLen | lRev | lRange | lFoldl | lFoldr
  | lZip | lUnzip | lTake | lDrop | lSplitAt | lNth
  -- src/binary/init/fn_module.rs
  | fApply | fCurry | fMap | fFilter | fReduce | fConditional
  -- src/binary/init/dict_module.rs
  | dFlatten | dItems | dKeys | dValues | dInsert | dRemove | dHas | dLen | dFromItems | dUnion
  | dIntersect | dDifference
  -- src/binary/init/err_module.rs
  | eTry
  -- src/binary/init/string_module.rs
  | sToString | sCaesar | sGetWidth | sIsWhitespace | sSplit2 | sSplit | sLower | sUpper | sJoin
  | sLines | sChars | sWords | sParagraphs | sSplitAt | sTrim | sTrimStart | sTrimEnd | sReplace
  | sStartsWith | sEndsWith | sContains | sIsAlpha | sIsAlnum | sIsNumeric | sTitle | sIsLower
  | sIsUpper | sIsTitle
  -- src/binary/init/math_module.rs
  | mLRsh | mARsh | mLsh | mSum | mProduct | mFact | mAbs | mIsOdd | mIsEven | mPow
  | mRound (f : Str) | mFun (f what : Str) | mFunD (f : Str) | mLog
  -- src/binary/init/log_module.rs
  | gSetLevel | gGetLevel | gDisable | gEnabled | gInfo | gWarn | gDebug | gError | gTrace | gEcho
  -- src/binary/init/fs_module.rs
  | fsHead | fsTail | fsCanon | fsMkdir | fsRmdir | fsMv | fsCp | fsRm | fsLs | fsExists | fsIsDir
  | fsIsFile | fsRead | fsWrite | fsAppend | fsTree | fsGlob
  -- src/binary/init/parse_module.rs
  | pExpr | pJson | pToml
  -- src/binary/init/sys_module.rs
  | yParse | yQuote | yEval | yExec | yInclude | yCd | yCwd | yImport | yEnv | ySet | yUnset
  | yDefined
  -- src/binary/init/fmt_module.rs
  | tStrip | tWrap | tHref | tStyle (code : Str) | tDarkWhite
  -- src/binary/init/rand_module.rs
  | rInt | rChoose | rShuffle
  -- src/binary/init/widget_module.rs
  | wCreate | wJoinx | wJoiny
  -- src/binary/init/console_module.rs
  | cWidth | cHeight | cWrite | cTitle | cClear | cFlush | cRaw | cCooked | cSeq (seq : Str)
  | cMoveTo | cMove (name : Str) (dir : Char) | cReadLine | cReadPassword | cReadKey
  -- src/binary/init/time_module.rs
  | tSleep | tNow
  -- not modelled
  | other (n : Nat)
deriving DecidableEq

/-- `enum Expression` (src/expr.rs:92-132).  The environment stored in a lambda
(`Environment { bindings, parent }`, src/env.rs:6-10) is given by the bindings and the list of the
bindings of its ancestors, nearest first. -/
inductive Expr
  | group (e : Expr)
  | symbol (name : Str)
  | int (i : I64)
  | float (f : F64)
  | bytes (b : List UInt8)
  | str (s : Str)
  | bool (b : Bool)
  | list (l : List Expr)
  | map (m : List (Str × Expr))
  | none
  | assign (name : Str) (e : Expr)
  | for_ (name : Str) (l body : Expr)
  | ite (c t e : Expr)
  | apply (f : Expr) (args : List Expr)
  | lambda (param : Str) (body : Expr) (binds : List (Str × Expr))
      (parents : List (List (Str × Expr)))
  | macro_ (param : Str) (body : Expr)
  | do_ (l : List Expr)
  | builtin (name : Str) (body : BId) (help : Str)
  | quote (e : Expr)

instance : Inhabited Expr := ⟨.none⟩

/-- `struct Environment` (src/env.rs:6-10); `parents` is the chain of ancestors, nearest first. -/
structure Env where
  bindings : BMap Expr
  parents : List (BMap Expr)

/-- Byte range of a `detached_str::StrSlice`. -/
structure Range where
  start : Nat
  stop : Nat
deriving DecidableEq

/-- `enum Diagnostic` (src/tokenizer.rs:20-27). -/
inductive Diagnostic
  | valid
  | invalidStringEscapes (ranges : List Range)
  | invalidNumber (at_ : Range)
  | illegalChar (at_ : Range)
  | notTokenized (at_ : Range)
deriving DecidableEq

/-- `enum SyntaxError` (src/parser.rs:18-55).  The hint text is omitted. -/
inductive SyntaxError
  | tokenizationErrors (ds : List Diagnostic)
  | expected (input : Range) (expected : Str) (found : Option Str)
  | expectedChar (expected : Char) (at_ : Option Range)
  | nomError (kind : Str) (at_ : Option Range)
  /-- `NomError` with `cause: Some(_)`. -/
  | nomErrorBy (kind : Str) (at_ : Option Range) (cause : SyntaxError)
  | internalError
deriving DecidableEq

/-- `enum Error` (src/error.rs:11-21). -/
inductive Error
  | cannotApply (f : Expr) (args : List Expr)
  | symbolNotDefined (name : Str)
  | commandFailed (name : Str) (args : List Expr)
  | forNonList (e : Expr)
  | recursionDepth (e : Expr)
  | permissionDenied (e : Expr)
  | programNotFound (name : Str)
  | syntaxError (src : Str) (e : SyntaxError)
  | customError (msg : Str)

end Dune
