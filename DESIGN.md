# Design of the formal model of `dune`

Source: `/repo` (read only, never built).  The model is written in Lean 4.33.0 under `lean/Verif`.
Properties are listed in `properties.jsonl`, their status in `MANIFEST.json`, the axioms of every
theorem in `AXIOMS.md`, and the deliberately wrong programs on which the theorems were tested in
`seeded/LOG.jsonl`.

## 1. Layout

| directory | contents |
|---|---|
| `Verif/Model/*` | the model of the code, one Lean function per Rust function; each definition names the file and lines it models and every simplification |
| `Verif/Spec/*` | small specifications which do not use the model's helpers |
| `Verif/Proof/*` | helper lemmas |
| `Verif/Props/*` | the property theorems `Cnn_...`, each with an `example` giving a non-trivial instance of its hypotheses |

## 2. How things are represented

| Rust | model |
|---|---|
| `String`, `&str` | `Str := List Char`; byte lengths and offsets are computed with `Char.utf8Size`; slicing inside a character is `panic` |
| `BTreeMap<String, _>` | association list sorted by key (`BMap`); sortedness is proved to be preserved (C29), not assumed |
| `i64` | structure `I64`: an `Int` with its range; checked operations are the range test on the exact result, wrapping operations are `I64.wrap` |
| `f64` | `F64` = 64 raw bits; comparison, negation and NaN are computed from the bits; the rest are parameters (section 6) |
| panic / process exit | outcomes `panic` and `exit`, never confused with `Err` |
| `Err(e)` | outcome `err e`; like with `&mut Environment`, variables and world keep the changes made before |
| external programs, terminal, files, random numbers, log level | a handler `Host.io : IOp → W → IORes × W` over an arbitrary world type `W`, a parameter of every theorem |
| `Expression`, `Environment` | one inductive type `Expr`; an environment is the list of its frames |
| native recursion of builtins | fuel `n`; theorems hold for every fuel, and more fuel never changes a finished result |

## 3. The parts

**Evaluator** (`Model/Eval`).  `eval_mut(env, depth)` is modelled by `evalD k` where `k = 801 - depth`
is the remaining depth; `k = 0` is the recursion-depth error.  This makes the model a total function by
structural recursion.  To be sure that this is no artefact of the model the same semantics is given a
second time as an inductive big-step relation with the depth counter of the code (`Spec/BigStep`), and
both are proved equivalent (C14).  A builtin is an interaction tree (`BProg`) which may evaluate
expressions, read or define variables, and do I/O; `runB` gives it the evaluator with one unit less
fuel at depth 0, because the Rust builtins call `Expression::eval`, which restarts at depth 0.

**Builtins** (`Model/Builtins`, `Model/Init`).  One `BProg` per builtin.  `Init` lists under which name
and in which module the startup code binds it; `Spec.Std env` says that the variables hold at least
these bindings, so that theorems about library functions are about calls like `list@rev x` as a user
writes them, in any environment where the user has not rebound those names.  `Start` is the whole
starting environment, with the functions that are written in the language itself as closures over the
environment they are defined in; it satisfies `Spec.Std` on every machine (`start_std`).

**Tokenizer, highlighter, parser** (`Model/Tokenizer`, `Highlight`, `Parser`).  Lists of characters with
byte offsets; the parser is one function per Rust function over lists of tokens, tied together by fuel,
with nom's three results (`ok`, recoverable `error`, unrecoverable `failure`); fuel is proved sufficient
(C06).  The independent counterparts are `Spec/Lex` (what the tokens of a text are), `Spec/Literal`
(what a string literal denotes), `Spec/Grammar` (a context-free grammar with meanings) and `Spec/Scan`.

**Error display** (`Model/ErrorFmt`), **prompt** (`Model/Shell`), **main** (`Model/Main`), **Ctrl-C
threads** (`Model/Threads`): state machines over arbitrary input histories or schedules.

## 4. Plan per property

* C01–C03 invariant of the lexer loop, induction on the length of the rest of the input.
* C04, C05 list induction over the stripper's two states; C04 composes C01 with the shape of the
  highlighter's output.
* C06 fuel sufficiency by induction on the token list and grammar level.  C66 the same induction, over
  tokens whose string literals are well-formed.
* C07 case analysis of `parse_script`; success consumes everything by the final check.
* C08 relational induction: the parser commutes with forgetting token positions.
* C09, C10, C12 round trips through lexer and parser, induction on digits / characters / values.
* C11, C67 the parser refines the grammar of `Spec/Grammar`, induction on derivations.
* C13 refuted: family of counterexamples.
* C14, C16 evaluator equals the inductive semantics; monotonicity in remaining depth.
* C15 refuted with a diverging program through a builtin; holds without builtins (C14).
* C17–C28 theorems about `evalD`, induction on values/lists; C22–C24 from frame lemmas.
* C29 environment refines "last write wins" on operation histories.
* C30, C31 exact I/O request made by an application of a symbol.
* C32–C38 decision theorems on all 64-bit integers / all values; truth, order of floats and mentioned
  names are specified apart from the model in `Spec/Truth`.
* C39–C51, C69, C70, C72 library functions against list/map/number/text specifications.
* C52–C54, C57, C71, C73, C74 decision theorems on the builtins' interaction trees.
* C55, C56 induction on pipeline length.
* C58–C60, C68 file builtins over abstract file systems; success on willing ones by induction on the depth of
  the tree.
* C61, C79, C81 the read loop as a state machine over arbitrary input histories.
* C62 invariant of a lock-level transition system.
* C63 witness family.
* C64, C65 lemmas on error ranges and line counting.
* C75 stripping after styling; C76 permutations reachable by the shuffle, each by exactly one sequence
  of answers; C77 sizes of pictures; C78 runs of `main`; C80 induction on the list; C82 induction on the
  document.
* C83 the closures `>>`, `>>>` unfolded in the starting environment, then induction on the stages.
* C84 the printed text drives a terminal specified in `Spec/Terminal` (cells, cursor, saved position,
  control sequences); induction on the lines.  C85 case analysis of keys.  C86 ASCII letters are specified
  by their alphabet (`Spec/Case`); induction on the text.  C87 soundness of the parser and the tokenizer:
  `Spec/Accepts` has a second, wider grammar; `Proof/Sound` shows by induction on the parser's fuel that
  each parser consumes the words of a derivation, `Proof/Unscan` that each token is a word of `Spec/Scan`.
* C88 a weakest precondition for builtin bodies ("does not panic"), one lemma per body
  (`Proof/Harmless`), and an induction over the evaluator (`Proof/Crash`); a simulation relates the
  library to the one in which the crashes of the table are exits.  One witness per entry.
* C89 the same scheme for effects: the requests in each body (`Proof/Effects`), an invariant of the
  evaluator, and a simulation with the library that lacks the functions of the table.
* C90 the curried operators unfolded.  C91 refinement: `Spec/Program` gives a language of integer
  programs its own semantics and its texts; `Proof/Program` shows by induction on the derivation of a
  text that the grammar of C67 reads it and that the evaluator simulates the semantics.
* C92 induction on the code: its printed form is a line of words which the grammar derives.
* C93 induction on the depth of the tree, over the file systems of C68 (no links, valid names).
* C94 induction on values; the order is the order of positions, the list is unique by sortedness.
* C95, C96 evaluation of the builtin; that a text tells the time by case analysis on digits. The clock
  gives real dates (month 1-12, hour 0-23, …); what the line editor returns is a parameter.
* C97 evaluation of the builtin; the functions on floating point numbers are parameters of the platform.
* C98 the table printer of `prettytable` is modelled line by line; its lines are computed by induction on
  rows and columns and compared with a description by positions (`Grid`); the crash by mutual induction on
  values.
* C99, C100 evaluation of the scripts, from the closures and macros the shell starts with (`Model/Start`,
  `Model/Main`); examples beside the theorems show that these are what the source texts are read as.
* C101 a second model of the parser that counts looks at tokens (`Model/Looks`), proved to give the results
  of the first on every text; bounds by induction on the nesting and on the commands.
* C102 the size of closures from what they capture (C24), by comparison of maps; doubling by induction on the
  number of definitions, and from the text by the grammar (C67).
* C103 the language and the simulation of C91 with functions: a closure stands for a function of integers if
  all its calls give what the function gives, within a depth that the types of names (`Funs`) bound; sessions
  by induction on the texts.
* C104 induction on the number, over one call of the macro; the environment is known up to its parameter.
* C105 `Model/Stage`: a transition system of shell, pipes and program; invariants over all runs, a measure for
  their length; the standstill from counting bytes.
* C106 the texts of the prelude's calendar are parsed by the kernel (`kernel_rfl`) and run with a small
  calculus of evaluations (`Proof/Steps`); loops by an invariant on the text built so far; the weekday
  formula by induction along the days; the page line by line, with the box of C77.
* C107–C109 the definitions of the prelude are parsed by the kernel and run with the calculus of C106 or
  step by step; files by the laws of C74.
* C110 the formula is estimated over the reals (growth of the factorial against exp (ln n)^2); rounding errors
  are carried as relative errors through it.  A platform that meets the error bounds is constructed.
* C111 every whole number up to 2^53 is that of a float, so rounding to nearest keeps it; a platform with IEEE
  arithmetic is constructed.
* C112, C114 a calculus like that of C106 for functions whose body ends in one request to the outside world
  (`Proof/Actions.lean`).
* C115 the body of `$` is followed through the pipeline; what `fn@filter` with one argument does is C44's, for a scope in
  which only some names are kept.
* C113 cutting off components of a path is related to lists of names; the system's matching is a parameter.
* C116 the constants are compared with their neighbouring floats, the midpoints with Mathlib's bounds on π and e; the
  errors of the operations are added up.
* C117 the loop over the line is related to its last word; cutting off the path uses that cuts are unique (C72).
* C118 the definition is run symbolically (`Proof/Actions.lean`), its pipeline with the lemmas of C55.
* C119 the long text of the function is cut into words (`Proof/Pieces.lean`: nothing is proved of the cutting, the
  pieces are checked), read with the grammar of C67, and run symbolically, by induction over the rows of the table.
* C120 one round is proved against a relation; induction over the rounds in both directions, and over the course for
  the moves that led to the victory.
* C121 symbolic execution of macros (which run in the environment of the caller); C30 for the program that is started.
* C122 symbolic execution down to the call of `include`, then C108.
* C123 symbolic execution; induction over the list of commands on Windows; as C30 for the program.  The name of the
  system (`os@name`) is any text.
* C124 induction over the arguments (`Model/Help`, a program for `Lib.other`); what is expected to be shown is a
  separate relation.
* C125 lookups in the starting environment (`Model/Start`, `Model/Dirs`), by cases on the machine.
* C126 lookups in the starting environment (`Model/Os`), then by cases on the system.
* C127 lookups in the starting environment (`Model/ShellInfo`); the six suggestions one by one.
* C128 reading of the texts of the pictures (`Model/Pictures`), C76 for the choice, C77 for the box; the lines of each picture by
  computation.
* C129 reading of the text (`Model/Dashboard`), C106 for the page, C128 for the cat, C77 for joining them.
* C130 reading of the two texts (`Model/Dashboard`), C77 for the boxes and for joining them.
* C131 reading of the statement (`Model/Banner`), a case for each branch.

If a property a user would expect is false of the code, the property says so ("(false)" in its title or
"refuted" in a theorem name) and the theorem proves the failure, with the exact class of inputs if it is
known.

## 5. Where the code disagrees with what a user expects

Found while proving; each is a theorem with a witness or an exact characterisation.

* Syntax: `5 !True` is a hard failure and in `5 ! True` an operand is dropped (C13).  A `\` before a
  non-ASCII character in a string crashes the tokenizer (C02).  Printed maps, some floats and NUL do not
  read back (C12).  Integers with leading zeros are rejected (C09).
* Recursion through a builtin is not stopped by the recursion limit (C15).
* `%` crashes for zero divisors and MIN % -1; unary minus at MIN (C33).
* `list@head` never returns the first element (C39); `list@nth` crashes out of range (C41); `isodd` is
  wrong for negative numbers (C50); large exponents are silently reduced (C51); three error codes are not
  those of the table (C52); `fs@tail` is reversed (C60); the Caesar cipher with negative or large shifts
  (C49); a variable `arg0` breaks curried functions (C63).
* Sums, products, factorials wrap silently in release builds and crash in debug builds; a sum of
  cancelling floats is the integer 0; `fact` of 66 or more is 0 (C69).
* `len` counts characters, `string@len` bytes; `insert` and `split-at` inside a character crash (C70).
* `echo` without arguments prints no line; printing to a closed output crashes; `exit` keeps the low 32
  bits; `cd` in a function moves the process but not the caller's directory (C71).
* `cp` of a directory into itself never succeeds (C68).
* `sys@set` stores unevaluated code, `sys@quote` quotes twice, `sys@cd` does not tell the operating
  system (C74).
* `fmt@dark@white` lacks the escape character; stripping a link loses its text; styles without argument
  crash (C75).  `rand@int` on an empty range and `rand@choose []` crash (C76).  `widget@joiny` crashes on
  blank text (C77).
* Printing a map with a list under a key wider than the terminal crashes in debug builds (C98).  The model
  has this crash in `shown` only: builtins that print such a value continue with the empty text (C88).
* Errors: at the start of a line the excerpt shows the previous line; a multi-line error whose last line
  is longer than 72 characters crashes checked builds (C65), also inside `err@try` (C53).
* The locks of the prompt are unfair and are poisoned by a crash (C62).
* A failing script leaves exit status 0; `-x` evaluates the result twice; answering "y" for a broken
  prelude does not replace it; without a prelude the introduction is run, not the written prelude (C78).
* `join` of the empty list is `None` (C80).  The hint for `t` is `exit 0` (C81).  JSON integers become
  floats (C82).
* `echo x >> f` stores `None` in `f`; `a | b << f` starts the content of `f` as a program; `>>>` does not
  create the file (C83).
* `console@clear` without argument is an error; moving the cursor by 0 moves it by one;
  `console@write` overwrites the saved position (C84).  No function key is recognised by its name, and
  some are taken for other keys (C85).  `is-lower` is false for `a b`; text functions without argument
  crash (C86).
* A script may lack closing parentheses, and the closing quote of a string, at its end (C87).
* Some sixty functions can crash the shell; C88 lists them.
* Printed code that mentions a library member, a pipeline with arguments or a loop over a range does not
  read back as itself; conditionals gain parentheses each time (C92).
* `time@sleep` of a negative number sleeps for hundreds of millions of years (C95).
* The greatest depth given to `fs@tree` is counted down and never used; `fs@tree "/"` crashes (C93).
* `math@max` and `math@min` return the second of an integer and a floating-point number (C99).  `pwd` and
  `clear` do nothing in scripts and overwrite `_` at the prompt (C100).
* Reading a program takes time exponential in the depth of brackets (C101).  Function definitions that
  mention earlier functions can take memory exponential in their number (C102).
* After the default prelude `exit 3` leaves with status 0, and `exit` as a statement of a script does nothing
  (C107); `include` and `use` overwrite the variable `file` (C108); `concat a b` is `b` before `a` (C109).
* `math@fact` of a float is wrong for every whole number: `fact 5.0` is about 76 (C110).
  Integers above 2^53 change silently when they meet a float (C111).
* A user name that begins with `-` reaches ssh as an option through the prelude's `ssh` (C112).
* `$` of the default prelude takes no patterns and leaves out names that contain the text twice (C115).
* `weather-api` of the default prelude does not encode the city in the address (C118).
* The default prelude calls `set-weather-api-key` without a city, which defines no `weather-api`; so the message that asks
  for the key is not shown (C121).
* The city set in `.dune-secrets` is lost, because the default prelude sets `CITY` to Knoxville after running the file
  (C122).
* With `.cargo/bin/bat` in the home directory but not on the search path, `cat` is lost (C123).
* `help` of an unknown name shows nothing and succeeds; so does `help list@take`, for curried functions carry no
  help text (C124).
* Where the system knows no home directory, `cd HOME` goes to a directory called HOME (C125).
* `os@family` is `android` on Amazon Linux and `unix` on Solus (C126).
* `shell@suggestion` never changes in a session, and `shell@prelude` is not updated (C127).
* Two of the four flowers of the dashboard do not fit into their box (C128).
* `chess` does not evaluate its argument, and goes on forever if the engine proposes a move that is not legal (C120).
* `get-weather-ascii` of the default prelude has a picture for `Snow` and none for `snow`, and never shows the picture of
  a thunderstorm with snow (C119).
* Where the current directory cannot be entered, Tab in the middle of a line repeats the text after the cursor (C117).
* `fs@glob` crashes the shell on an invalid pattern, and after `sys@cd` it still looks in the old directory (C113).
* A pipeline hangs when a program that is not the last answers long input while reading it (C105).

## 6. Trusted base

* The Lean 4.33.0 kernel; the axioms `propext`, `Classical.choice`, `Quot.sound` at most (per theorem in
  `AXIOMS.md`).  No own axioms, no `sorry`, no `native_decide`.
* The reading of the Rust source recorded in the comments of `Verif/Model`.  It was compared with the
  source line by line a second time after the models were complete; nothing was found to differ.
  The model also agrees with all unit tests of the project (`Verif/UnitTests`), and run as a program
  (`Verif/Run`) it reads the four scripts of the repository and shows the welcome screen of the default
  prelude as in the project's picture `assets/welcome.png`, and the results of the other pictures that do
  not start programs.
* For C101, that a look at a token takes time: the number of looks bounds the time of the parser from
  below, and from above up to what is done between two looks.
* For C102, that values are trees: `clone` of an `Expression` or `Environment` copies everything below it,
  and no part is shared (there is no `Rc` in these types).
* For C106, that `f64` division by 4, 100 and 400 followed by `as i64` is integer division below a bound `N`
  (`C106_ieee` derives this for `N = 2^50` from the rounding law of IEEE 754, `Spec.Ieee`), and that `textwrap::fill` leaves printable ASCII lines shorter than the width alone but for spaces at their
  end; an instance of both is shown.
* For C110, that `f64` addition, subtraction, multiplication, division, `ln`, `exp` and `sqrt` have a relative
  error of at most 2^-40 on results up to 2^1000, and that `round` moves by at most a half (`Spec.Precise`);
  `F64.val` is the reading of the bits of IEEE 754 binary64.
* For C111, `Spec.Ieee`: the four operations and the conversions from integers and decimal numbers give a
  float nearest to the exact result (at most 2^1000), and `as i64` cuts off the fraction.
* Parameters of the model (structure `Plat`), about which nothing is assumed unless a theorem has an
  explicit hypothesis: `f64` arithmetic, powers, conversion, parsing and formatting (`fAdd … fOfDec`),
  `textwrap::fill` (`fill`), the width of the terminal and of characters, lossy UTF-8 decoding, which
  non-ASCII characters `Debug` escapes, case mapping and classes of non-ASCII characters, the real functions
  of `math` (`fFun`, `fLog`), the text of
  `io::Error`, the native stack depth for directory recursion, and whether overflow checks are on.
* The terminal of `Spec/Terminal` is the standard behaviour of the control sequences used (ECMA-48, xterm)
  with one cell per printable character; wide and combining characters are not described.
* Parameters `Lib`: the parsers of `parse`, `parse@json`, `parse@toml` as functions of the text, and all
  builtins that are not modelled (`other`).  Structure `Machine`: the user's directories, the members of
  modules that are not modelled, the module `shell` and `help`.
* External crates as stated in the comments: nom 7 combinators, `detached_str` ranges,
  `snailquote::unescape`, `rand` (Fisher–Yates with `gen_index`), `prettytable` 0.10, the Rust standard library (`str`
  functions, `BTreeMap`, `Path::join`, `Path::strip_prefix`), `glob` (its answer is a request to the outside world).
* Assumptions about the outside world, each an explicit hypothesis with an instance shown: `LogHost` (the
  level static keeps its value), `Files` and `FileTree` (a file system without symbolic links which nobody
  else changes), `Willing` (C68: it refuses requests only for a stated reason), `Located` (C113: where the process is, and
  what a pattern matches there), `Console` (an open standard output), `RandomSource` (answers in range), `Works` (C88:
  printing succeeds, and lines, keys, clock and random numbers are delivered).
* A pipeline stage is one request (start, feed, wait, collect), except in C105, where pipes are queues of
  bounded size and the program is any automaton that reads, writes and exits; the threads' lock operations are single
  steps; the line editor is the list of its answers; `clap`'s parsing of the command line is its result.

## 7. Not modelled

* The crate `chess_engine`, which is a parameter of C120, and the crate `os_info`, whose answer is a parameter of C126.
* Of the default prelude: `weather` (except its widgets, C130), `welcomebanner` (except the sign for the time, C131), `dashboard` (except its widgets, C128 and C129), `shrewsay` and the picture
  of the shrew.
* Help texts of builtins and the pages of `help` (parameters of C124), hints attached to syntax errors, rustyline
  itself (keys, history file, display, its file name completer, which is a parameter of C117), native stack overflow except where `stackDepth`
  is mentioned, memory exhaustion, signals other than Ctrl-C.
