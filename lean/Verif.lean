import Verif.Proof.BMap
import Verif.Model.Eval
import Verif.Model.Builtins
import Verif.Proof.Monad
import Verif.Proof.BigStep
import Verif.Props.Termination
import Verif.Spec.Eval
import Verif.Props.Eval
import Verif.Model.Init
import Verif.Proof.Builtins
import Verif.Spec.Arith
import Verif.Proof.Cmp
import Verif.Props.Arith
import Verif.Props.Compare
import Verif.Spec.Std
import Verif.Proof.Lib
import Verif.Proof.Curry
import Verif.Props.Lists
import Verif.Props.Dict
import Verif.Props.Strings
import Verif.Props.Math
import Verif.Props.Control
import Verif.Props.Log
import Verif.Props.Fs
import Verif.Props.Pipe
import Verif.Model.Tokenizer
import Verif.Model.Highlight
import Verif.Proof.Lex
import Verif.Props.Tokens
import Verif.Model.Parser
import Verif.Model.Shell
import Verif.Spec.Lex
import Verif.Proof.Parse
import Verif.Proof.StrLit
import Verif.Proof.Script
import Verif.Props.Parsing
import Verif.Spec.Literal
import Verif.Spec.Grammar
import Verif.Proof.Pipes
import Verif.Proof.Grammar
import Verif.Props.Grammar
import Verif.Spec.Scan
import Verif.Proof.Scan
import Verif.Proof.Numeral
import Verif.Spec.Readable
import Verif.Proof.Readable
import Verif.Props.Literals
import Verif.Model.ErrorFmt
import Verif.Spec.Excerpt
import Verif.Proof.Lines
import Verif.Props.Errors
import Verif.Spec.Prompt
import Verif.Proof.Prompt
import Verif.Props.Repl
import Verif.Props.Shown
import Verif.Model.Threads
import Verif.Props.Threads
import Verif.Props.Numbers
import Verif.Props.Insert
import Verif.Props.Basics
import Verif.Props.Convert
import Verif.Props.Text
import Verif.Props.Tables
import Verif.Props.Tree
import Verif.Props.Willing
import Verif.Props.DirTree
import Verif.Props.Combinators
import Verif.Props.Sys
import Verif.Props.Styles
import Verif.Props.Rand
import Verif.Props.Widget
import Verif.Model.Main
import Verif.Proof.Startup
import Verif.Props.Main
import Verif.Props.Startup
import Verif.Props.Join
import Verif.Props.Hint
import Verif.Props.Documents
import Verif.Spec.Truth
import Verif.Proof.Truth
import Verif.Proof.Hex
import Verif.Model.Start
import Verif.Spec.Start
import Verif.Proof.Start
import Verif.Props.Redirect
import Verif.Spec.Terminal
import Verif.Props.Terminal
import Verif.Props.Keys
import Verif.Spec.Case
import Verif.Props.Case
import Verif.Spec.Accepts
import Verif.Proof.Unscan
import Verif.Proof.Sound
import Verif.Props.Accepts
import Verif.Spec.Crash
import Verif.Proof.Crash
import Verif.Proof.Harmless
import Verif.Props.Crash
import Verif.Spec.Effects
import Verif.Proof.Effects
import Verif.Props.Effects
import Verif.Props.Sections
import Verif.Props.Waiting
import Verif.Spec.Printed
import Verif.Proof.Printed
import Verif.Props.Printed
import Verif.Spec.Program
import Verif.Proof.Program
import Verif.Props.Program
import Verif.Props.Closures
import Verif.Props.Recursion
import Verif.Props.Flatten
import Verif.Props.Clock
import Verif.Props.Floats
import Verif.Props.Extremes
import Verif.Props.Pwd
import Verif.Model.Looks
import Verif.Proof.Looks
import Verif.Spec.Nested
import Verif.Proof.Nested
import Verif.Proof.Flat
import Verif.Props.Looks
import Verif.Spec.Cells
import Verif.Proof.Cells
import Verif.Props.Cells
import Verif.Model.Stage
import Verif.Spec.Stage
import Verif.Props.Stage
import Verif.Model.Prelude
import Verif.Proof.KernelRfl
import Verif.Proof.PreludeText
import Verif.Proof.Steps
import Verif.Spec.Calendar
import Verif.Proof.Prelude
import Verif.Proof.PreludeCal
import Verif.Proof.PreludePage
import Verif.Props.Prelude
import Verif.Proof.PreludeShort
import Verif.Props.Commands
import Verif.Props.LogText
import Verif.Spec.Real
import Verif.Proof.FactorialReal
import Verif.Proof.RealFloat
import Verif.Proof.FactorialFloat
import Verif.Props.Factorial
import Verif.Props.Ieee
import Verif.Props.Remote
import Verif.Props.Glob
import Verif.Props.Tilde
import Verif.UnitTests
import Verif.Run
import Verif.Props.ErrorCrash
import Verif.Model.PreludeFiles
import Verif.Props.Listing
import Verif.Props.Constants
import Verif.Model.Complete
import Verif.Props.Complete
import Verif.Model.Weather
import Verif.Props.Weather
import Verif.Model.WeatherIcons
import Verif.Proof.Pieces
import Verif.Props.WeatherIcons
import Verif.Model.Chess
import Verif.Props.Chess
import Verif.Model.WeatherKey
import Verif.Props.WeatherKey
import Verif.Model.Secrets
import Verif.Props.Secrets
import Verif.Model.Aliases
import Verif.Props.Aliases
import Verif.Props.Instances
import Verif.Model.Help
import Verif.Props.Help
import Verif.Model.Dirs
import Verif.Props.Dirs
import Verif.Model.Os
import Verif.Props.Os
import Verif.Model.ShellInfo
import Verif.Props.ShellInfo
import Verif.Model.Pictures
import Verif.Props.Pictures
import Verif.Model.Dashboard
import Verif.Props.Dashboard
import Verif.Props.WeatherWidget
import Verif.Model.Banner
import Verif.Props.Banner
