import Verif.Model.Parser
import Verif.Model.Fmt

/-!
The unit tests of the project (src/tests/mod.rs), each as an evaluation of the model.  They are no proofs
of properties; they show that the model does what the authors expect of the code on their own examples.
-/

set_option maxRecDepth 100000
set_option maxHeartbeats 4000000
set_option cbv.maxSteps 10000000

namespace Dune.UnitTests

/-- `tokenize_test`: these tokens and no diagnostics -/
def tokenizeTest (input : Str) (expected : List Token) : Bool :=
  match tokenize input with
  | .ok (ts, ds) => decide (ts = expected) && ds.all fun d => decide (d = .valid)
  | _ => false

/-- `tokenize_test_err`: some diagnostic -/
def tokenizeTestErr (input : Str) : Bool :=
  match tokenize input with
  | .ok (_, ds) => ds.any fun d => decide (d ≠ .valid)
  | _ => false

/-- `parse_test`: the script reads and prints like this -/
def parseTest (P : Plat) (input expected : Str) : Bool :=
  match parseScript P input with
  | .ok e => decide (debug P e = expected)
  | _ => false

/-- `tokenize_function` -/
example : tokenizeTest c!"let a = foo -> bar -> {\n    foo == bar\n}"
    [⟨.keyword, ⟨0, 3⟩⟩, ⟨.whitespace, ⟨3, 4⟩⟩, ⟨.symbol, ⟨4, 5⟩⟩, ⟨.whitespace, ⟨5, 6⟩⟩,
      ⟨.punctuation, ⟨6, 7⟩⟩, ⟨.whitespace, ⟨7, 8⟩⟩, ⟨.symbol, ⟨8, 11⟩⟩,
      ⟨.whitespace, ⟨11, 12⟩⟩, ⟨.punctuation, ⟨12, 14⟩⟩, ⟨.whitespace, ⟨14, 15⟩⟩,
      ⟨.symbol, ⟨15, 18⟩⟩, ⟨.whitespace, ⟨18, 19⟩⟩, ⟨.punctuation, ⟨19, 21⟩⟩,
      ⟨.whitespace, ⟨21, 22⟩⟩, ⟨.punctuation, ⟨22, 23⟩⟩, ⟨.whitespace, ⟨23, 28⟩⟩,
      ⟨.symbol, ⟨28, 31⟩⟩, ⟨.whitespace, ⟨31, 32⟩⟩, ⟨.operator, ⟨32, 34⟩⟩,
      ⟨.whitespace, ⟨34, 35⟩⟩, ⟨.symbol, ⟨35, 38⟩⟩, ⟨.whitespace, ⟨38, 39⟩⟩,
      ⟨.punctuation, ⟨39, 40⟩⟩] = true := by decide +kernel

/-- `tokenize_string` -/
example : tokenizeTest c!"let a = \"Hello \\t world \\u{254B} \\\"\\\\\";"
    [⟨.keyword, ⟨0, 3⟩⟩, ⟨.whitespace, ⟨3, 4⟩⟩, ⟨.symbol, ⟨4, 5⟩⟩, ⟨.whitespace, ⟨5, 6⟩⟩,
      ⟨.punctuation, ⟨6, 7⟩⟩, ⟨.whitespace, ⟨7, 8⟩⟩, ⟨.stringLiteral, ⟨8, 38⟩⟩,
      ⟨.punctuation, ⟨38, 39⟩⟩] = true := by decide +kernel

/-- `tokenize_object` -/
example : tokenizeTest c!"{a=5, b = \"hello\"}"
    [⟨.punctuation, ⟨0, 1⟩⟩, ⟨.symbol, ⟨1, 2⟩⟩, ⟨.punctuation, ⟨2, 3⟩⟩,
      ⟨.integerLiteral, ⟨3, 4⟩⟩, ⟨.punctuation, ⟨4, 5⟩⟩, ⟨.whitespace, ⟨5, 6⟩⟩,
      ⟨.symbol, ⟨6, 7⟩⟩, ⟨.whitespace, ⟨7, 8⟩⟩, ⟨.punctuation, ⟨8, 9⟩⟩, ⟨.whitespace, ⟨9, 10⟩⟩,
      ⟨.stringLiteral, ⟨10, 17⟩⟩, ⟨.punctuation, ⟨17, 18⟩⟩] = true := by decide +kernel

/-- `tokenize_unclosed_string` -/
example : tokenizeTest c!"\"Hello"
    [⟨.stringLiteral, ⟨0, 6⟩⟩] = true := by decide +kernel

/-- `tokenize_numbers` -/
example : tokenizeTest c!"3 -4 1.1 4646345653 -3.14159"
    [⟨.integerLiteral, ⟨0, 1⟩⟩, ⟨.whitespace, ⟨1, 2⟩⟩, ⟨.integerLiteral, ⟨2, 4⟩⟩,
      ⟨.whitespace, ⟨4, 5⟩⟩, ⟨.floatLiteral, ⟨5, 8⟩⟩, ⟨.whitespace, ⟨8, 9⟩⟩,
      ⟨.integerLiteral, ⟨9, 19⟩⟩, ⟨.whitespace, ⟨19, 20⟩⟩, ⟨.floatLiteral, ⟨20, 28⟩⟩] = true := by decide +kernel

/-- `tokenize_comments` -/
example : tokenizeTest c!"# test\nlet x # test\n= 3;"
    [⟨.comment, ⟨0, 6⟩⟩, ⟨.whitespace, ⟨6, 7⟩⟩, ⟨.keyword, ⟨7, 10⟩⟩, ⟨.whitespace, ⟨10, 11⟩⟩,
      ⟨.symbol, ⟨11, 12⟩⟩, ⟨.whitespace, ⟨12, 13⟩⟩, ⟨.comment, ⟨13, 19⟩⟩,
      ⟨.whitespace, ⟨19, 20⟩⟩, ⟨.punctuation, ⟨20, 21⟩⟩, ⟨.whitespace, ⟨21, 22⟩⟩,
      ⟨.integerLiteral, ⟨22, 23⟩⟩, ⟨.punctuation, ⟨23, 24⟩⟩] = true := by decide +kernel

/-- `tokenize_symbols_and_operators` -/
example : tokenizeTest c!"to == != >= <= && || // < > + - * % | >> @ _+-.~\\/?&<>$%^: abcXYZ"
    [⟨.operator, ⟨0, 2⟩⟩, ⟨.whitespace, ⟨2, 3⟩⟩, ⟨.operator, ⟨3, 5⟩⟩, ⟨.whitespace, ⟨5, 6⟩⟩,
      ⟨.operator, ⟨6, 8⟩⟩, ⟨.whitespace, ⟨8, 9⟩⟩, ⟨.operator, ⟨9, 11⟩⟩, ⟨.whitespace, ⟨11, 12⟩⟩,
      ⟨.operator, ⟨12, 14⟩⟩, ⟨.whitespace, ⟨14, 15⟩⟩, ⟨.operator, ⟨15, 17⟩⟩,
      ⟨.whitespace, ⟨17, 18⟩⟩, ⟨.operator, ⟨18, 20⟩⟩, ⟨.whitespace, ⟨20, 21⟩⟩,
      ⟨.operator, ⟨21, 23⟩⟩, ⟨.whitespace, ⟨23, 24⟩⟩, ⟨.operator, ⟨24, 25⟩⟩,
      ⟨.whitespace, ⟨25, 26⟩⟩, ⟨.operator, ⟨26, 27⟩⟩, ⟨.whitespace, ⟨27, 28⟩⟩,
      ⟨.operator, ⟨28, 29⟩⟩, ⟨.whitespace, ⟨29, 30⟩⟩, ⟨.operator, ⟨30, 31⟩⟩,
      ⟨.whitespace, ⟨31, 32⟩⟩, ⟨.operator, ⟨32, 33⟩⟩, ⟨.whitespace, ⟨33, 34⟩⟩,
      ⟨.operator, ⟨34, 35⟩⟩, ⟨.whitespace, ⟨35, 36⟩⟩, ⟨.operator, ⟨36, 37⟩⟩,
      ⟨.whitespace, ⟨37, 38⟩⟩, ⟨.operator, ⟨38, 40⟩⟩, ⟨.whitespace, ⟨40, 41⟩⟩,
      ⟨.operator, ⟨41, 42⟩⟩, ⟨.whitespace, ⟨42, 43⟩⟩, ⟨.symbol, ⟨43, 58⟩⟩,
      ⟨.whitespace, ⟨58, 59⟩⟩, ⟨.symbol, ⟨59, 65⟩⟩] = true := by decide +kernel

/-- `tokenize_invalid_numbers` -/
example : tokenizeTestErr c!"3." = true ∧
    tokenizeTestErr c!"-15." = true := by
  decide +kernel

/-- `tokenize_invalid_strings` -/
example : tokenizeTestErr c!"\"\\" = true ∧
    tokenizeTestErr c!"\"\\x\"" = true ∧
    tokenizeTestErr c!"\"\\u\"" = true ∧
    tokenizeTestErr c!"\"\\u{}\"" = true ∧
    tokenizeTestErr c!"\"\\u{FFFFFF}\"" = true ∧
    tokenizeTestErr c!"\"\\u{D800}\"" = true ∧
    tokenizeTestErr c!"\"\\u{g}\"" = true := by
  decide +kernel

/-- `tokenize_invalid_symbols` -/
example : tokenizeTestErr c!"`" = true ∧
    tokenizeTestErr c!"§" = true ∧
    tokenizeTestErr c!"°" = true ∧
    tokenizeTestErr c!"–" = true ∧
    tokenizeTestErr c!"ä" = true ∧
    tokenizeTestErr c!"€" = true := by
  decide +kernel

/-- `parse1` -/
example (P : Plat) : parseTest P c!"\"String\\t\\r\\n\\\"\""
    c!"{ \"String\\t\\r\\n\\\"\" }" = true := by cbv

/-- `parse2` -/
example (P : Plat) : parseTest P c!"let hello = \"world\\u{21}\";"
    c!"{ let hello = \"world!\" }" = true := by cbv

/-- `parse3` -/
example (P : Plat) : parseTest P c!"let + = a -> b -> c -> (+ a b c)"
    c!"{ let + = a -> b -> c -> (+ a b c) }" = true := by cbv

end Dune.UnitTests
