import Verif.Model.Builtins

/-!
The names under which the standard library binds the builtins (src/binary/init/mod.rs and the
modules).  Only the entries of modelled builtins are listed; the modules contain more entries.
-/

namespace Dune.Init

open Builtins

/-- a builtin under its own name, with the help text omitted -/
def b (name : Str) (id : BId) : Str × Expr := (name, .builtin name id [])

/-- The operators that `operator_module::get` binds directly in the environment
(src/binary/init/operator_module.rs:38-265, 291-295). -/
def ops : List (Str × Expr) := [
  b c!"|" .pipe, b c!"+" .add, b c!"-" .sub,
  (c!"*", curry2 (.builtin c!"*" .mul [])),
  (c!"//", curry2 (.builtin c!"//" .div [])),
  (c!"%", curry2 (.builtin c!"%" .rem [])),
  b c!"&&" .and, b c!"||" .or, b c!"!" .not, b c!"==" .eq, b c!"!=" .ne, b c!"<" .lt,
  b c!"<=" .le, b c!">" .gt, b c!">=" .ge, b c!"@" .index]

/-- `list` (src/binary/init/list_module.rs:6-42). -/
def listM : List (Str × Expr) := [
  b c!"list" .lList, b c!"tail" .lTail, b c!"head" .lHead, b c!"chunk" .lChunk,
  b c!"cons" .lCons, b c!"append" .lAppend, b c!"len" .lLen, b c!"rev" .lRev,
  b c!"range" .lRange, b c!"foldl" .lFoldl, b c!"foldr" .lFoldr, b c!"zip" .lZip,
  b c!"unzip" .lUnzip,
  (c!"take", curry2 (.builtin c!"take" .lTake [])),
  (c!"drop", curry2 (.builtin c!"drop" .lDrop [])),
  b c!"split-at" .lSplitAt, b c!"nth" .lNth]

/-- `fn` (src/binary/init/fn_module.rs:73-109); the first four are function literals evaluated in the
empty environment (that they are the parses of their sources is checked in
`Verif/Props/Combinators.lean`). -/
def fnM : List (Str × Expr) := [
  (c!"id", closed c!"x" (.symbol c!"x")),
  (c!"const", closed c!"x" (.lambda c!"y" (.symbol c!"x") [] [])),
  (c!"flip", closed c!"f" (.lambda c!"x" (.lambda c!"y"
    (.apply (.symbol c!"f") [.symbol c!"y", .symbol c!"x"]) [] []) [] [])),
  (c!"compose", closed c!"f" (.lambda c!"g" (.lambda c!"x"
    (.apply (.symbol c!"f") [.group (.apply (.symbol c!"g") [.symbol c!"x"])]) [] []) [] [])),
  b c!"apply" .fApply, b c!"curry" .fCurry, b c!"map" .fMap, b c!"filter" .fFilter,
  b c!"reduce" .fReduce, b c!"?" .fConditional]

/-- `dict` (src/binary/init/dict_module.rs:25-181). -/
def dictM : List (Str × Expr) := [
  b c!"flatten" .dFlatten, b c!"items" .dItems, b c!"keys" .dKeys, b c!"values" .dValues,
  b c!"insert" .dInsert, b c!"remove" .dRemove, b c!"has?" .dHas, b c!"len" .dLen,
  b c!"from-items" .dFromItems, b c!"union" .dUnion, b c!"intersect" .dIntersect,
  b c!"difference" .dDifference]

/-- `err` (src/binary/init/err_module.rs:4-11). -/
def errM : List (Str × Expr) := [b c!"try" .eTry, (c!"codes", Error.codes)]

/-- `string` (src/binary/init/string_module.rs:30-444). -/
def stringM : List (Str × Expr) := [
  b c!"to-string" .sToString, (c!"caesar", .builtin c!"caesar-cipher" .sCaesar []),
  b c!"len" .lLen, b c!"get-width" .sGetWidth, b c!"is-whitespace?" .sIsWhitespace,
  b c!"split" .sSplit, b c!"to-lower" .sLower, b c!"to-upper" .sUpper, b c!"rev" .lRev,
  b c!"join" .sJoin, b c!"lines" .sLines, b c!"chars" .sChars, b c!"words" .sWords,
  b c!"paragraphs" .sParagraphs, b c!"split-at" .sSplitAt, b c!"trim" .sTrim,
  b c!"trim-start" .sTrimStart, b c!"trim-end" .sTrimEnd, b c!"replace" .sReplace,
  b c!"starts-with?" .sStartsWith, b c!"ends-with?" .sEndsWith, b c!"contains?" .sContains,
  b c!"is-alpha?" .sIsAlpha, b c!"is-alphanumeric?" .sIsAlnum, b c!"is-numeric?" .sIsNumeric,
  b c!"to-title" .sTitle, b c!"is-lower" .sIsLower, b c!"is-upper" .sIsUpper,
  b c!"is-title" .sIsTitle]

/-- `math` (src/binary/init/math_module.rs:5-478).  The constants are the floats of `std::f64::consts`. -/
def mathM : List (Str × Expr) := [
  (c!"E", .float ⟨4613303445314885481#64⟩), (c!"PI", .float ⟨4614256656552045848#64⟩),
  (c!"TAU", .float ⟨4618760256179416344#64⟩),
  (c!"l-rsh", curry2 (.builtin c!"l-rsh" .mLRsh [])),
  (c!"a-rsh", curry2 (.builtin c!"a-rsh" .mARsh [])),
  (c!"rsh", curry2 (.builtin c!"a-rsh" .mARsh [])),
  b c!"lsh" .mLsh, b c!"sum" .mSum, b c!"product" .mProduct, b c!"fact" .mFact,
  b c!"abs" .mAbs, b c!"isodd" .mIsOdd, b c!"iseven" .mIsEven, b c!"pow" .mPow,
  b c!"floor" (.mRound c!"floor"), b c!"ceil" (.mRound c!"ceil"),
  b c!"round" (.mRound c!"round"), b c!"trunc" (.mRound c!"trunc"),
  b c!"sinh" (.mFunD c!"sinh"), b c!"cosh" (.mFunD c!"cosh"),
  b c!"tanh" (.mFunD c!"tanh"), b c!"asinh" (.mFunD c!"asinh"),
  b c!"acosh" (.mFunD c!"acosh"), b c!"atanh" (.mFunD c!"atanh"),
  b c!"sinpi" (.mFunD c!"sinpi"), b c!"cospi" (.mFunD c!"cospi"),
  b c!"tanpi" (.mFunD c!"tanpi"), b c!"ln" (.mFun c!"ln" c!"natural log"),
  (c!"log", curry2 (.builtin c!"log" .mLog [])), b c!"log2" (.mFun c!"log2" c!"log2"),
  b c!"log10" (.mFun c!"log10" c!"log10"), b c!"sqrt" (.mFun c!"sqrt" c!"sqrt"),
  b c!"cbrt" (.mFun c!"cbrt" c!"cbrt"), b c!"sin" (.mFun c!"sin" c!"sin"),
  b c!"cos" (.mFun c!"cos" c!"cos"), b c!"tan" (.mFun c!"tan" c!"tan"),
  b c!"asin" (.mFun c!"asin" c!"asin"), b c!"acos" (.mFun c!"acos" c!"acos"),
  b c!"atan" (.mFun c!"atan" c!"atan")]

/-- `log` (src/binary/init/log_module.rs:24-266). -/
def logM : List (Str × Expr) := [
  (c!"level", .map (BMap.ofList [
    (c!"none", .int (.lit 0)), (c!"trace", .int (.lit 5)), (c!"debug", .int (.lit 4)),
    (c!"info", .int (.lit 3)), (c!"warn", .int (.lit 2)), (c!"error", .int (.lit 1))])),
  b c!"set-level" .gSetLevel, b c!"get-level" .gGetLevel, b c!"disable" .gDisable,
  b c!"enabled?" .gEnabled, b c!"info" .gInfo, b c!"warn" .gWarn, b c!"debug" .gDebug,
  b c!"error" .gError, b c!"trace" .gTrace, b c!"echo" .gEcho]

/-- `fs` (src/binary/init/fs_module.rs:75-352). -/
def fsM : List (Str × Expr) := [
  b c!"head" .fsHead, b c!"tail" .fsTail, b c!"canon" .fsCanon, b c!"mkdir" .fsMkdir,
  b c!"rmdir" .fsRmdir, b c!"mv" .fsMv, b c!"cp" .fsCp, b c!"rm" .fsRm, b c!"ls" .fsLs,
  (c!"exists?", .builtin c!"exists" .fsExists []), (c!"is-dir?", .builtin c!"isdir" .fsIsDir []),
  (c!"is-file?", .builtin c!"isfile" .fsIsFile []), b c!"read" .fsRead, b c!"write" .fsWrite,
  b c!"append" .fsAppend, b c!"tree" .fsTree, b c!"glob" .fsGlob]

/-- `os` (src/binary/init/os_module.rs:8-31), the modelled members. -/
def osM : List (Str × Expr) := [b c!"exit" .exit_, b c!"cd" .cd]

/-- `parse` (src/binary/init/parse_module.rs:6-13). -/
def parseM : List (Str × Expr) := [b c!"expr" .pExpr, b c!"json" .pJson, b c!"toml" .pToml]

/-- `sys` (src/binary/init/sys_module.rs:6-117). -/
def sysM : List (Str × Expr) := [
  b c!"parse" .yParse, b c!"quote" .yQuote, b c!"eval" .yEval, b c!"exec" .yExec,
  b c!"include" .yInclude, b c!"cd" .yCd, b c!"cwd" .yCwd, b c!"import" .yImport, b c!"env" .yEnv,
  b c!"set" .ySet, b c!"unset" .yUnset, b c!"defined?" .yDefined]

def style (name code : Str) : Str × Expr := b name (.tStyle code)

/-- `fmt@dark` (src/binary/init/fmt_module.rs:77-109). -/
def darkM : List (Str × Expr) := [
  style c!"black" c!"30", style c!"red" c!"31", style c!"green" c!"32", style c!"yellow" c!"33",
  style c!"blue" c!"34", style c!"magenta" c!"35", style c!"cyan" c!"36", b c!"white" .tDarkWhite]

/-- `fmt` (src/binary/init/fmt_module.rs:4-110). -/
def fmtM : List (Str × Expr) := [
  b c!"strip" .tStrip, b c!"wrap" .tWrap, b c!"href" .tHref, style c!"bold" c!"1",
  style c!"faint" c!"2", style c!"italics" c!"3", style c!"underline" c!"4", style c!"blink" c!"5",
  style c!"invert" c!"7", style c!"strike" c!"9", style c!"black" c!"90", style c!"red" c!"91",
  style c!"green" c!"92", style c!"yellow" c!"93", style c!"blue" c!"94", style c!"magenta" c!"95",
  style c!"cyan" c!"96", style c!"white" c!"97", (c!"dark", .map (BMap.ofList darkM))]

/-- `rand` (src/binary/init/rand_module.rs:5-12). -/
def randM : List (Str × Expr) := [
  b c!"int" .rInt, b c!"choose" .rChoose, b c!"shuffle" .rShuffle]

/-- `widget` (src/binary/init/widget_module.rs:4-11). -/
def widgetM : List (Str × Expr) := [
  b c!"create" .wCreate, b c!"joinx" .wJoinx, b c!"joiny" .wJoiny]

/-- `console@mode` (src/binary/init/console_module.rs:17-38). -/
def modeM : List (Str × Expr) := [
  b c!"raw" .cRaw, b c!"cooked" .cCooked, b c!"alternate" (.cSeq c!"\x1b[?1049h"),
  b c!"normal" (.cSeq c!"\x1b[?1049l")]

/-- `console@cursor` (src/binary/init/console_module.rs:39-116). -/
def cursorM : List (Str × Expr) := [
  b c!"move-to" .cMoveTo, b c!"move-up" (.cMove c!"move-up" 'A'),
  b c!"move-down" (.cMove c!"move-down" 'B'), b c!"move-left" (.cMove c!"move-left" 'D'),
  b c!"move-right" (.cMove c!"move-right" 'C'), b c!"save-position" (.cSeq c!"\x1b[s"),
  b c!"restore-position" (.cSeq c!"\x1b[u"), b c!"hide" (.cSeq c!"\x1b[?25l"),
  b c!"show" (.cSeq c!"\x1b[?25h")]

/-- `console@keyboard@keys` (src/binary/init/console_module.rs:159-188). -/
def keysM : List (Str × Expr) := [
  (c!"enter", .str c!"\n"), (c!"backspace", .str c!"\x08"), (c!"delete", .str c!"\x7f"),
  (c!"left", .str c!"\x1b[D"), (c!"right", .str c!"\x1b[C"), (c!"up", .str c!"\x1b[A"),
  (c!"down", .str c!"\x1b[B"), (c!"home", .str c!"\x1b[H"), (c!"end", .str c!"\x1b[F"),
  (c!"page-up", .str c!"\x1b[5~"), (c!"page-down", .str c!"\x1b[6~"), (c!"tab", .str c!"\t"),
  (c!"esc", .str c!"\x1b"), (c!"insert", .str c!"\x1b[2~"), (c!"f1", .str c!"\x1b[11~"),
  (c!"f2", .str c!"\x1b[12~"), (c!"f3", .str c!"\x1b[13~"), (c!"f4", .str c!"\x1b[14~"),
  (c!"f5", .str c!"\x1b[15~"), (c!"f6", .str c!"\x1b[17~"), (c!"f7", .str c!"\x1b[18~"),
  (c!"f8", .str c!"\x1b[19~"), (c!"f9", .str c!"\x1b[20~"), (c!"f10", .str c!"\x1b[21~"),
  (c!"f11", .str c!"\x1b[23~"), (c!"f12", .str c!"\x1b[24~"), (c!"null", .str c!"\x00"),
  (c!"back-tab", .str c!"\x1b[Z")]

/-- `console@keyboard` (src/binary/init/console_module.rs:118-189). -/
def keyboardM : List (Str × Expr) := [
  b c!"read-line" .cReadLine, b c!"read-password" .cReadPassword, b c!"read-key" .cReadKey,
  (c!"keys", .map (BMap.ofList keysM))]

/-- `console` (src/binary/init/console_module.rs:6-191). -/
def consoleM : List (Str × Expr) := [
  b c!"width" .cWidth, b c!"height" .cHeight, b c!"write" .cWrite, b c!"title" .cTitle,
  b c!"clear" .cClear, b c!"flush" .cFlush, (c!"mode", .map (BMap.ofList modeM)),
  (c!"cursor", .map (BMap.ofList cursorM)), (c!"keyboard", .map (BMap.ofList keyboardM))]

/-- `time` (src/binary/init/time_module.rs:7-15). -/
def timeM : List (Str × Expr) := [b c!"sleep" .tSleep, b c!"now" .tNow]

/-- The modelled modules (src/binary/init/mod.rs:32-51). -/
def modules : List (Str × List (Str × Expr)) := [
  (c!"log", logM), (c!"math", mathM), (c!"dict", dictM), (c!"err", errM), (c!"os", osM),
  (c!"fn", fnM), (c!"parse", parseM), (c!"fs", fsM), (c!"ops", ops), (c!"string", stringM),
  (c!"list", listM), (c!"sys", sysM), (c!"fmt", fmtM), (c!"rand", randM), (c!"widget", widgetM),
  (c!"console", consoleM), (c!"time", timeM)]

/-- The top-level functions (src/binary/init/mod.rs:59-438). -/
def top : List (Str × Expr) := [
  b c!"exit" .exit_, b c!"cd" .cd, (c!"quit", .builtin c!"exit" .exit_ []), b c!"print" .print,
  b c!"debug" .debug, b c!"println" .println, (c!"echo", .builtin c!"println" .println []),
  b c!"to" .to, b c!"str" .str, b c!"int" .int, b c!"insert" .insert, b c!"keys" .keys,
  b c!"vals" .vals, b c!"vars" .vars, b c!"len" .len, b c!"lines" .lines, b c!"eval" .eval,
  b c!"exec" .exec, b c!"unbind" .unbind, b c!"report" .report, b c!"input" .input]

end Dune.Init
