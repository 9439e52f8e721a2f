import Verif.Model.Prelude
import Verif.Model.Parser
import Verif.Proof.Lib
import Verif.Proof.KernelRfl
import Verif.Proof.Steps

/-! The short commands of the default prelude: what their texts are parsed as, and calls of library
functions where only some names have their usual meaning. -/

namespace Dune.Prelude

open Spec Props

/-- the body of `include` and `use` -/
def fileBody (f : Str) : Expr :=
  .apply (.symbol f) [.group (call c!"parse" c!"expr" [.group (call c!"fs" c!"read" [.symbol c!"file"])])]

theorem include_parse (P : Plat) : parseText P includeText =
    .ok (.do_ [.assign c!"include" (.macro_ c!"file" (fileBody c!"exec"))]) := by kernel_rfl

theorem use_parse (P : Plat) : parseText P useText =
    .ok (.do_ [.assign c!"use" (.macro_ c!"file" (fileBody c!"eval"))]) := by kernel_rfl

/-- what `exit` means after the prelude -/
def quitMacro : Expr := .macro_ c!"_" (.apply (.symbol c!"OLD-EXIT") [.int (.lit 0)])

theorem exit_parse (P : Plat) : parseText P exitText =
    .ok (.do_ [.assign c!"OLD-EXIT" (.symbol c!"exit"), .assign c!"quit" quitMacro,
      .assign c!"q" (.symbol c!"quit"), .assign c!"exit" (.symbol c!"quit")]) := by kernel_rfl

/-- the value of `get` -/
def getBody : Expr := .apply (.symbol c!"@") [.symbol c!"table", .group (.symbol c!"key")]

theorem get_parse (P : Plat) : parseText P getText =
    .ok (.do_ [.assign c!"get" (.lambda c!"key" (.lambda c!"table" getBody [] []) [] [])]) := by kernel_rfl

/-- the value of `concat` -/
def concatBody : Expr :=
  .group (.apply (.symbol c!"+") [.group (.apply (.symbol c!"str") [.symbol c!"y"]),
    .group (.apply (.symbol c!"str") [.symbol c!"x"])])

theorem concat_parse (P : Plat) : parseText P concatText =
    .ok (.do_ [.assign c!"concat" (.lambda c!"x" (.lambda c!"y" concatBody [] []) [] [])]) := by kernel_rfl

/-- `(str x)` in the texts of commands -/
def strOf (x : Str) : Expr := .group (.apply (.symbol c!"str") [.symbol x])

/-- `a + b` in the texts of commands -/
def plus (a b : Expr) : Expr := .group (.apply (.symbol c!"+") [a, b])

/-- the body of `ssh` -/
def sshBody : Expr :=
  .do_ [.apply (.quote (.symbol c!"ssh")) [.symbol c!"-X", plus (plus (strOf c!"user") (.str c!"@")) (strOf c!"addr")]]

theorem ssh_parse (P : Plat) : parseText P sshText =
    .ok (.do_ [.assign c!"ssh" (.lambda c!"addr" (.lambda c!"user" sshBody [] []) [] [])]) := by kernel_rfl

/-- the body of `scp` -/
def scpBody : Expr :=
  .do_ [.apply (.quote (.symbol c!"scp")) [.symbol c!"-r", .symbol c!"src",
    plus (plus (plus (plus (strOf c!"user") (.str c!"@")) (strOf c!"addr")) (.str c!":")) (strOf c!"dst")]]

theorem scp_parse (P : Plat) : parseText P scpText =
    .ok (.do_ [.assign c!"scp" (.lambda c!"addr" (.lambda c!"user" (.lambda c!"src" (.lambda c!"dst" scpBody
      [] []) [] []) [] []) [] [])]) := by kernel_rfl

/-- the path that `~` is about -/
def tildePath : Expr := plus (plus (.symbol c!"HOME") (.str c!"/")) (strOf c!"x")

/-- the body of `~` -/
def tildeBody : Expr :=
  .group (.apply (.symbol c!"|") [tildePath, .apply (.symbol c!"@") [.symbol c!"fs", .symbol c!"canon"]])

theorem tilde_parse (P : Plat) : parseText P tildeText =
    .ok (.do_ [.assign c!"~" (.lambda c!"x" tildeBody [] [])]) := by kernel_rfl

end Dune.Prelude
