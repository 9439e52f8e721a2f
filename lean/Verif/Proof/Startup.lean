import Verif.Model.Main
import Verif.Proof.Lib

/-! The definitions the program makes before anything else: how their texts parse. -/

namespace Dune.Startup

open Spec

abbrev str_ (e : Expr) : Expr := .apply (.symbol c!"str") [e]

abbrev len_ (e : Expr) : Expr := .apply (.symbol c!"len") [e]

/-- `fmt@dark@c a` -/
abbrev dark (c : Str) (a : Expr) : Expr :=
  .apply (.apply (.symbol c!"@") [.symbol c!"fmt", .symbol c!"dark", .symbol c]) [a]

abbrev bold (a : Expr) : Expr := call c!"fmt" c!"bold" [a]

abbrev plus (a b : Expr) : Expr := .group (.apply (.symbol c!"+") [a, b])

/-- `y -> x + sep + (str y)` -/
def joinInner : Expr :=
  .lambda c!"y" (plus (plus (.symbol c!"x") (.symbol c!"sep")) (.group (str_ (.symbol c!"y")))) [] []

def joinBody : Expr := .do_ [
  .assign c!"sep" (str_ (.symbol c!"sep")),
  call c!"fn" c!"reduce" [
    .group (.lambda c!"x" joinInner [] []),
    .group (str_ (.apply (.symbol c!"@") [.symbol c!"l", .int (.lit 0)])),
    .group (call c!"list" c!"tail" [.symbol c!"l"])]]

def promptBody : Expr := bold (.group (plus
  (plus (.group (dark c!"blue" (.str c!"(dune) ")))
    (.group (bold (.group (dark c!"green" (.symbol c!"cwd"))))))
  (.group (bold (.group (dark c!"blue" (.str c!"$ ")))))))

def incompleteBody : Expr := plus
  (.group (.apply (.symbol c!"*") [
    .group (plus (.group (len_ (.symbol c!"cwd"))) (.group (len_ (.str c!"(dune) ")))), .str c!" "]))
  (.group (bold (.group (dark c!"yellow" (.str c!"> ")))))

set_option cbv.maxSteps 10000000
set_option maxRecDepth 100000
set_option maxHeartbeats 4000000

theorem parse0 (P : Plat) : parseText P c!"let clear = _ ~> console@clear ()" =
    .ok (.do_ [.assign c!"clear" (.macro_ c!"_" (call c!"console" c!"clear" [.none]))]) := by
  cbv

theorem parse1 (P : Plat) : parseText P c!"let pwd = _ ~> echo CWD" =
    .ok (.do_ [.assign c!"pwd" (.macro_ c!"_" (.apply (.symbol c!"echo") [.symbol c!"CWD"]))]) := by
  cbv

theorem parse2 (P : Plat) : parseText P c!"let join = sep -> l -> {\n            let sep = str sep;\n            fn@reduce (x -> y -> x + sep + (str y)) (str l@0) (list@tail l)\n        }" =
    .ok (.do_ [.assign c!"join" (.lambda c!"sep" (.lambda c!"l" joinBody [] []) [] [])]) := by
  cbv

theorem parse3 (P : Plat) : parseText P c!"let prompt = cwd -> fmt@bold ((fmt@dark@blue \"(dune) \") + (fmt@bold (fmt@dark@green cwd)) + (fmt@bold (fmt@dark@blue \"$ \")))" =
    .ok (.do_ [.assign c!"prompt" (.lambda c!"cwd" promptBody [] [])]) := by
  cbv

theorem parse4 (P : Plat) : parseText P c!"let incomplete_prompt = cwd ->\n            ((len cwd) + (len \"(dune) \")) * \" \" + (fmt@bold (fmt@dark@yellow \"> \"));" =
    .ok (.do_ [.assign c!"incomplete_prompt" (.lambda c!"cwd" incompleteBody [] [])]) := by
  cbv

end Dune.Startup
