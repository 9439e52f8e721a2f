import Verif.Model.Prelude
import Verif.Model.Parser
import Verif.Proof.Program
import Verif.Proof.KernelRfl

/-! The calendar functions of the default prelude: what their texts are parsed as. -/

namespace Dune.Prelude

open Props Props.Calc

/-- the platform with the values of three numbers fixed -/
def fixedParse (a b c : F64) (P : Plat) (s : Str) : Option F64 :=
  bif decide (s = ['4', '.', '0']) then some a else
  bif decide (s = ['1', '0', '0', '.', '0']) then some b else
  bif decide (s = ['4', '0', '0', '.', '0']) then some c else P.fParse s

def fixed (P : Plat) (a b c : F64) : Plat := { P with fParse := fixedParse a b c P }

theorem fixed_eq {P : Plat} {a b c : F64} (h1 : P.fParse c!"4.0" = some a) (h2 : P.fParse c!"100.0" = some b)
    (h3 : P.fParse c!"400.0" = some c) : fixed P a b c = P := by
  have : fixedParse a b c P = P.fParse := by
    funext s
    unfold fixedParse
    by_cases e1 : s = c!"4.0"
    · subst e1; simp [h1]
    · by_cases e2 : s = c!"100.0"
      · subst e2; simp [h2]
      · by_cases e3 : s = c!"400.0"
        · subst e3; simp [h3]
        · simp [e1, e2, e3]
  unfold fixed
  rw [this]

/-- the body of `is-leapyear` -/
def leapBody : Expr :=
  (.do_ [.ite (.group (.apply (.symbol c!"&&") [.group (.apply (.symbol c!"==") [.group (.apply (.symbol
  c!"%") [.symbol c!"year", .int (.lit 4)]), .int (.lit 0)]), .group (.apply (.symbol c!"!=") [.group (.apply
  (.symbol c!"%") [.symbol c!"year", .int (.lit 100)]), .int (.lit 0)])])) (.do_ [.bool true]) (.group (.ite
  (.group (.apply (.symbol c!"&&") [.group (.apply (.symbol c!"==") [.group (.apply (.symbol c!"%") [.symbol
  c!"year", .int (.lit 100)]), .int (.lit 0)]), .group (.apply (.symbol c!"==") [.group (.apply (.symbol
  c!"%") [.symbol c!"year", .int (.lit 400)]), .int (.lit 0)])])) (.do_ [.bool true]) (.group (.do_ [.bool
  false]))))])

theorem leap_parse (P : Plat) : parseText P leapText =
    .ok (.do_ [.assign c!"is-leapyear" (curried [c!"year"] leapBody)]) := by kernel_rfl

/-- the body of `days-in-month` -/
def dimBody : Expr :=
  (.do_ [.ite (.group (.apply (.symbol c!"==") [.symbol c!"month", .int (.lit 2)])) (.do_ [.group (.apply
  (.symbol c!"+") [.int (.lit 28), .group (.ite (.group (.apply (.symbol c!"is-leapyear") [.symbol c!"year"]))
  (.int (.lit 1)) (.group (.int (.lit 0))))])]) (.group (.do_ [.group (.apply (.symbol c!"-") [.int (.lit 31),
  .group (.group (.apply (.symbol c!"%") [.group (.group (.apply (.symbol c!"%") [.group (.group (.apply
  (.symbol c!"-") [.symbol c!"month", .int (.lit 1)])), .int (.lit 7)])), .int (.lit 2)]))])]))])

theorem dim_parse (P : Plat) : parseText P dimText =
    .ok (.do_ [.assign c!"days-in-month" (curried [c!"month", c!"year"] dimBody)]) := by kernel_rfl

/-- the body of `day-of-week` -/
def dowBody (a b c : F64) : Expr :=
  (.do_ [.assign c!"t" (.list [.int (.lit 0), .int (.lit 3), .int (.lit 2), .int (.lit 5), .int (.lit 0), .int
  (.lit 3), .int (.lit 5), .int (.lit 1), .int (.lit 4), .int (.lit 6), .int (.lit 2), .int (.lit 4)]), .ite
  (.group (.apply (.symbol c!"<") [.symbol c!"m", .int (.lit 3)])) (.do_ [.assign c!"y" (.group (.apply
  (.symbol c!"-") [.symbol c!"y", .int (.lit 1)]))]) (.none), .group (.apply (.symbol c!"%") [.group (.group
  (.apply (.symbol c!"+") [.group (.apply (.symbol c!"+") [.group (.apply (.symbol c!"+") [.group (.group
  (.apply (.symbol c!"-") [.group (.group (.apply (.symbol c!"+") [.symbol c!"y", .group (.apply (.symbol
  c!"int") [.group (.group (.apply (.symbol c!"//") [.symbol c!"y", .float a]))])])), .group (.apply (.symbol
  c!"int") [.group (.group (.apply (.symbol c!"//") [.symbol c!"y", .float b]))])])), .group (.apply (.symbol
  c!"int") [.group (.group (.apply (.symbol c!"//") [.symbol c!"y", .float c]))])]), .apply (.symbol c!"@")
  [.symbol c!"t", .group (.group (.apply (.symbol c!"-") [.symbol c!"m", .int (.lit 1)]))]]), .symbol
  c!"d"])), .int (.lit 7)])])

theorem dow_parse_fixed (P : Plat) (a b c : F64) : parseText (fixed P a b c) dowText =
    .ok (.do_ [.assign c!"day-of-week" (curried [c!"m", c!"d", c!"y"] (dowBody a b c))]) := by kernel_rfl

theorem dow_parse {P : Plat} {a b c : F64} (h1 : P.fParse c!"4.0" = some a)
    (h2 : P.fParse c!"100.0" = some b) (h3 : P.fParse c!"400.0" = some c) : parseText P dowText =
    .ok (.do_ [.assign c!"day-of-week" (curried [c!"m", c!"d", c!"y"] (dowBody a b c))]) := by
  rw [← dow_parse_fixed P a b c, fixed_eq h1 h2 h3]

/-- the names of the months -/
def monthsBody : Expr :=
  (.list [.str c!"January", .str c!"February", .str c!"March", .str c!"April", .str c!"May", .str c!"June",
  .str c!"July", .str c!"August", .str c!"September", .str c!"October", .str c!"November", .str c!"December"])

theorem months_parse (P : Plat) : parseText P monthsText =
    .ok (.do_ [.assign c!"MONTHS" (curried [] monthsBody)]) := by kernel_rfl

/-- the body of `make-calendar` -/
def calBody : Expr :=
  (.do_ [.assign c!"now" (.map [(c!"day", .symbol c!"d"), (c!"month", .symbol c!"m"), (c!"year", .symbol
  c!"y")]), .assign c!"result" (.group (.apply (.symbol c!"+") [.group (.apply (.symbol c!"+") [.group (.apply
  (.symbol c!"+") [.group (.apply (.symbol c!"+") [.group (.apply (.symbol c!"+") [.apply (.symbol c!"@")
  [.symbol c!"MONTHS", .group (.group (.apply (.symbol c!"-") [.apply (.symbol c!"@") [.symbol c!"now",
  .symbol c!"month"], .int (.lit 1)]))], .str c!" "]), .group (.apply (.symbol c!"str") [.apply (.symbol
  c!"@") [.symbol c!"now", .symbol c!"day"]])]), .str c!", "]), .group (.apply (.symbol c!"str") [.apply
  (.symbol c!"@") [.symbol c!"now", .symbol c!"year"]])]), .str c!"\n"])), .assign c!"result" (.group (.apply
  (.symbol c!"+") [.group (.apply (.symbol c!"*") [.str c!" ", .group (.group (.apply (.symbol c!"+") [.group
  (.apply (.symbol c!"//") [.group (.group (.apply (.symbol c!"-") [.int (.lit 28), .group (.apply (.symbol
  c!"len") [.symbol c!"result"])])), .int (.lit 2)]), .int (.lit 1)]))]), .symbol c!"result"])), .assign
  c!"result" (.group (.apply (.symbol c!"+") [.symbol c!"result", .str c!" Su  Mo  Tu  We  Th  Fr  Sa\n"])),
  .assign c!"dof" (.apply (.symbol c!"day-of-week") [.apply (.symbol c!"@") [.symbol c!"now", .symbol
  c!"month"], .int (.lit 1), .apply (.symbol c!"@") [.symbol c!"now", .symbol c!"year"]]), .assign c!"dim"
  (.apply (.symbol c!"days-in-month") [.apply (.symbol c!"@") [.symbol c!"now", .symbol c!"month"], .apply
  (.symbol c!"@") [.symbol c!"now", .symbol c!"year"]]), .for_ c!"i" (.apply (.symbol c!"to") [.int (.lit 0),
  .symbol c!"dof"]) (.do_ [.assign c!"result" (.group (.apply (.symbol c!"+") [.symbol c!"result", .str
  c!"    "]))]), .for_ c!"i" (.apply (.symbol c!"to") [.int (.lit 1), .group (.apply (.symbol c!"+") [.symbol
  c!"dim", .int (.lit 1)])]) (.do_ [.assign c!"num" (.apply (.symbol c!"str") [.symbol c!"i"]), .ite (.group
  (.apply (.symbol c!"<") [.group (.apply (.symbol c!"len") [.symbol c!"num"]), .int (.lit 2)])) (.do_
  [.assign c!"num" (.group (.apply (.symbol c!"+") [.group (.ite (.group (.apply (.symbol c!"==") [.apply
  (.symbol c!"@") [.symbol c!"now", .symbol c!"day"], .symbol c!"i"])) (.str c!" *") (.group (.str c!"  "))),
  .symbol c!"num"]))]) (.group (.do_ [.assign c!"num" (.group (.apply (.symbol c!"+") [.group (.ite (.group
  (.apply (.symbol c!"==") [.apply (.symbol c!"@") [.symbol c!"now", .symbol c!"day"], .symbol c!"i"])) (.str
  c!"*") (.group (.str c!" "))), .symbol c!"num"]))])), .assign c!"result" (.group (.apply (.symbol c!"+")
  [.group (.apply (.symbol c!"+") [.symbol c!"result", .symbol c!"num"]), .group (.ite (.group (.apply
  (.symbol c!"==") [.group (.apply (.symbol c!"%") [.group (.group (.apply (.symbol c!"+") [.symbol c!"i",
  .symbol c!"dof"])), .int (.lit 7)]), .int (.lit 0)])) (.str c!"\n") (.group (.str c!" ")))]))]), .apply
  (.apply (.symbol c!"@") [.symbol c!"widget", .symbol c!"create"]) [.str c!"Calendar", .symbol c!"result",
  .int (.lit 30), .int (.lit 10)]])

theorem cal_parse (P : Plat) : parseText P calText =
    .ok (.do_ [.assign c!"make-calendar" (curried [c!"m", c!"d", c!"y"] calBody)]) := by kernel_rfl

/-- the macro `cal` -/
def calmBody : Expr :=
  (.macro_ c!"_" (.do_ [.apply (.group (.lambda c!"_" (.do_ [.assign c!"now" (.apply (.apply (.symbol c!"@")
  [.symbol c!"time", .symbol c!"now"]) [.none]), .apply (.symbol c!"make-calendar") [.apply (.symbol c!"@")
  [.symbol c!"now", .symbol c!"month"], .apply (.symbol c!"@") [.symbol c!"now", .symbol c!"day"], .apply
  (.symbol c!"@") [.symbol c!"now", .symbol c!"year"]]]) [] [])) [.none]]))

theorem calm_parse (P : Plat) : parseText P calmText =
    .ok (.do_ [.assign c!"cal" (curried [] calmBody)]) := by kernel_rfl

end Dune.Prelude
