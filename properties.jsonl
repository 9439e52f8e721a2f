{"id": "C01", "title": "Tokenizing loses no source text", "statement": "Whenever `tokenize` returns, the returned token ranges tile the input: every range is non-empty, the first starts at byte 0, each next one starts where the previous ended, the last ends at the input's length, and so concatenating the token texts gives back the input exactly.", "quantifier": "every input string (any length, any Unicode text)", "why_tests_cant": "The set of inputs is infinite and the ten alternatives of the lexer overlap (keyword/symbol/number prefixes); a test only shows tiling for the strings it lists.", "anchors": ["src/tokenizer.rs: tokenize, parse_tokens, parse_token, string_literal, number_literal, symbol, comment, whitespace", "src/tokens.rs: Input::split_at, Input::split_until"]}
{"id": "C02", "title": "The tokenizer terminates, and crashes only on a backslash before a non-ASCII character inside a string literal", "statement": "Tokenizing any text in which no backslash is immediately followed by a non-ASCII character terminates and returns normally. The restriction is needed: the four-character text `\"\\é\"` makes the tokenizer slice in the middle of a UTF-8 character and panic (also while merely typing it in the prompt, because the highlighter tokenizes on every key).", "quantifier": "every input string", "why_tests_cant": "Absence of panics and of endless loops for all inputs cannot be observed by running finitely many of them; the crash needs a specific byte layout that ordinary tests never use.", "anchors": ["src/tokenizer.rs: parse_escape (lines 254-321), parse_tokens", "src/tokens.rs: Input::split_saturating, Input::split_at", "src/bin.rs: syntax_highlight"]}
{"id": "C03", "title": "Each token gets exactly one diagnostic and nothing is left untokenized", "statement": "For every input the diagnostics list returned by `tokenize` has exactly one entry per token, in the same order, and never contains the `NotTokenized` diagnostic.", "quantifier": "every input string on which tokenizing returns", "why_tests_cant": "The leftover branch is guarded by an invariant of the loop, so it needs a proof about all inputs that the loop only stops at the end of input.", "anchors": ["src/tokenizer.rs: parse_tokens, parse_token"]}
{"id": "C04", "title": "Syntax highlighting never changes the visible text", "statement": "Removing the terminal colour sequences from the output of the prompt's syntax highlighter gives back exactly the typed line, for every line that contains no escape character itself.", "quantifier": "every line of text without the ESC character (including lines with bad escapes, bad numbers and illegal characters)", "why_tests_cant": "It relates the highlighter, the tokenizer's ranges and the escape stripper on all inputs at once; the branch for invalid escapes cuts the token into pieces whose bounds must always be ordered.", "anchors": ["src/bin.rs: syntax_highlight (183-297), strip_ansi_escapes (63-82)", "src/tokenizer.rs: tokenize"]}
{"id": "C05", "title": "Stripping escapes is safe and idempotent", "statement": "The output of the escape stripper never contains an ESC character, stripping twice equals stripping once, text without ESC is unchanged, and text styled by a `fmt` style wrapper of the shape ESC[..m text ESC[m ESC[0m strips to the stripped text.", "quantifier": "every string", "why_tests_cant": "Universal over strings, including unterminated escape sequences.", "anchors": ["src/bin.rs: strip_ansi_escapes", "src/binary/init/fmt_module.rs"]}
{"id": "C06", "title": "Parsing always terminates", "statement": "For every token sequence the parser returns a result or a syntax error; no input makes it loop or recurse forever, and a bound on the recursion that is linear in the number of tokens always suffices.", "quantifier": "every token sequence, hence every source text", "why_tests_cant": "Mutual recursion over some twenty grammar functions with repetition combinators; termination for all inputs is not observable by testing.", "anchors": ["src/parser.rs: parse_script_tokens, parse_expression*, parse_apply, parse_if, parse_for_loop, parse_block"]}
{"id": "C07", "title": "A script with any lexical error is rejected as a whole", "statement": "If any token of a script carries a diagnostic other than Valid (bad escape, malformed number, illegal character), or two word-like tokens touch without whitespace (and neither is `@`), `parse_script` returns a hard failure, so no part of the script is executed; when it succeeds the result is a statement block and every token has been consumed.", "quantifier": "every source text", "why_tests_cant": "Must hold wherever in an arbitrarily long script the error is.", "anchors": ["src/parser.rs: parse_script (126-170), is_symbol_like", "src/bin.rs: run_text, parse"]}
{"id": "C08", "title": "Whitespace and comments never change the meaning of a script", "statement": "Two texts that both pass the lexical checks and whose tokens, after deleting whitespace and comment tokens, have the same kinds and texts, parse to the same expression (or both fail).", "quantifier": "all pairs of source texts, all amounts and placements of whitespace and comments", "why_tests_cant": "Quantifies over pairs of unbounded texts; the parser sees token positions, so independence from them has to be shown for every grammar function.", "anchors": ["src/parser.rs: parse_script, parse_script_tokens"]}
{"id": "C09", "title": "Integer literals denote exactly their value or are rejected", "statement": "The decimal rendering of any 64-bit integer, used as a script, parses to that same integer. Every digit string, with or without a minus sign, either parses to exactly its decimal value or is rejected with a hard failure: values outside the 64-bit range and superfluous leading zeros are rejected, and no value ever wraps.", "quantifier": "all 2^64 integers, all digit strings", "why_tests_cant": "2^64 inputs plus unbounded digit strings.", "anchors": ["src/tokenizer.rs: number_literal", "src/parser.rs: parse_integer", "src/expr.rs: Debug for Integer"]}
{"id": "C10", "title": "Any text can be written as a string literal", "statement": "For every string s, quoting it by doubling backslashes and escaping double quotes gives a script that parses to exactly the string s.", "quantifier": "every string, including newlines, quotes, backslashes and non-ASCII text", "why_tests_cant": "Round trip over all strings through tokenizer, escape checking and unescaping.", "anchors": ["src/tokenizer.rs: string_literal, parse_string_inner, parse_escape", "src/parser.rs: parse_string"]}
{"id": "C11", "title": "Binary operators of one level group to the left, and products bind tighter than sums", "statement": "A chain a0 op a1 op a2 ... of simple operands joined by operators of one precedence level (`*` `//` `%`; `+` `-`; comparisons; `&&` `||`) parses to the left-nested application, for any length, and a sum of products groups each product first.", "quantifier": "all operator chains of any length over simple operands", "why_tests_cant": "Unbounded chain length; associativity mistakes appear only from the third operand and only in one fold direction.", "anchors": ["src/parser.rs: parse_expression_prec_three, _four, _five, _six"]}
{"id": "C12", "title": "Printed data reads back as the same data", "statement": "The debug rendering of any value built from integers, booleans, None, strings, names, lists, quotes and groups (nested to any depth) parses back to the same value, provided its strings contain no NUL and no escaped character from U+100000 on. The claim cannot be extended: a printed map `{k: v}` reads back as a block calling the name `k:`, a float printed without a fraction (`1.0` prints as `1`) reads back as an integer, and NUL is printed as an escape the language rejects.", "quantifier": "all such values, any nesting and length", "why_tests_cant": "Structural induction over unbounded values through printer, tokenizer and parser.", "anchors": ["src/expr.rs: Debug for Expression (162-223)", "src/parser.rs: parse_list, parse_expression_prec_one", "src/tokenizer.rs"]}
{"id": "C13", "title": "No part of a script is silently dropped", "statement": "A user expects every operand they write to take part in the program. This is false: an operand directly followed by `!` is discarded by the parser, so `5 ! True` parses to the same program as `! True`.", "quantifier": "all operands before `!`, all scripts of the form `a ! b`", "why_tests_cant": "The parse succeeds, so no test that only looks for errors can see it; the claim ranges over all discarded operands.", "anchors": ["src/parser.rs: parse_expression_prec_five (713-714), parse_not"]}
{"id": "C14", "title": "Programs that call no builtin always finish", "statement": "Evaluating any expression in any environment finishes with a value or an error as long as no builtin function is called: the language's big-step semantics, stated without any bound, is total and deterministic, because nesting deeper than 800 is turned into a recursion-depth error.", "quantifier": "every expression, environment, starting depth and behaviour of external programs", "why_tests_cant": "Termination of all programs in a language with self-applying macros cannot be tested.", "anchors": ["src/expr.rs: Expression::eval, eval_mut (472-677), MAX_RECURSION_DEPTH"]}
{"id": "C15", "title": "The recursion limit does not stop recursion that goes through a builtin", "statement": "A user relies on runaway recursion ending in a recursion-depth error. This holds without builtins, but every builtin evaluates its arguments from depth zero again: the macro `f = x ~> exec 'f` style program never finishes for any amount of native stack.", "quantifier": "all amounts of native recursion (stack size)", "why_tests_cant": "Divergence is not observable by a finite test; a stack overflow test only shows one stack size.", "anchors": ["src/expr.rs: Expression::eval (472-474)", "src/binary/init/mod.rs: exec, eval, str, print"]}
{"id": "C16", "title": "Less nesting never changes a result", "statement": "If evaluating an expression at some nesting depth does not hit the recursion limit then evaluating it at any smaller depth gives the same result, the same environment and the same external effects; in particular adding redundant parentheses never changes the outcome except by hitting the limit.", "quantifier": "all expressions, environments, depths and external behaviours", "why_tests_cant": "Universally quantified over programs and depths.", "anchors": ["src/expr.rs: eval_mut"]}
{"id": "C17", "title": "Data evaluates to itself without effects", "statement": "Evaluating a value made of numbers, strings, bytes, booleans, None, builtins, macros, lists and maps nested less than 800 deep returns the same value, leaves all variables unchanged and runs nothing.", "quantifier": "all such values, environments and external behaviours", "why_tests_cant": "Induction on unbounded values.", "anchors": ["src/expr.rs: eval_mut (List, Map and literal cases)"]}
{"id": "C18", "title": "Quoting suspends evaluation completely", "statement": "Evaluating 'e returns e itself, with no effect and independent of the environment, for every expression e, including ones that would fail, loop or run commands.", "quantifier": "all expressions and environments", "why_tests_cant": "Ranges over all expressions.", "anchors": ["src/expr.rs: eval_mut (Quote case)"]}
{"id": "C19", "title": "`if` runs exactly one branch", "statement": "The outcome of `if c t e` (value, variables, effects) does not depend on e when c is truthy, and not on t when c is falsy; a failing condition runs neither. Falsy are exactly None, False, 0, 0.0, -0.0, the empty string, byte string, list and map, and code.", "quantifier": "all conditions, branches, environments", "why_tests_cant": "Independence from an arbitrary expression is a statement about pairs of programs.", "anchors": ["src/expr.rs: eval_mut (If case), is_truthy"]}
{"id": "C20", "title": "`for` visits every element once, in order", "statement": "When `for x in l body` succeeds, the result is a list of the same length whose i-th element is the value of the body run with x bound to the i-th element in the state left by the previous iteration; the first failing iteration ends the loop with its error; iterating a non-list is an error; after a loop over a non-empty list the loop variable is still bound.", "quantifier": "all lists, bodies, environments", "why_tests_cant": "Unbounded list lengths and arbitrary bodies with side effects.", "anchors": ["src/expr.rs: eval_mut (For case)"]}
{"id": "C21", "title": "Statements run in order and stop at the first error", "statement": "Evaluating a block of statements followed by more statements equals evaluating the first part, and if and only if it succeeds, then the rest in the state it left; statements after a failing one have no effect.", "quantifier": "all statement lists and environments", "why_tests_cant": "Unbounded statement lists; effect order is a history property.", "anchors": ["src/expr.rs: eval_mut (Do case)"]}
{"id": "C22", "title": "Calling a function never changes the caller's variables", "statement": "Applying a function value to an argument leaves the caller's variables exactly as evaluating the argument left them, whatever the function body assigns.", "quantifier": "all function bodies, arguments, environments", "why_tests_cant": "Holds for every body; a test checks one body.", "anchors": ["src/expr.rs: eval_mut (Apply of Lambda)"]}
{"id": "C23", "title": "Functions are lexically scoped", "statement": "The result of calling a function bound to a name depends on the caller's environment only through the argument value and the current directory: two callers whose variables differ arbitrarily otherwise get the same result and the same effects.", "quantifier": "all functions, all pairs of caller environments", "why_tests_cant": "A statement about pairs of environments (non-interference).", "anchors": ["src/expr.rs: eval_mut (Apply of Lambda, lines 584-599)", "src/env.rs: get_cwd, set_cwd"]}
{"id": "C24", "title": "A function definition captures the current value of every variable it mentions", "statement": "Evaluating a function literal never runs its body or changes any variable, and in the resulting function every variable mentioned in the body, other than the parameter, that is defined at that point is stored with its current value, so later reassignments are not seen; nothing else is stored except the parameter and the current directory.", "quantifier": "all bodies and environments", "why_tests_cant": "Ranges over all bodies and all later reassignments.", "anchors": ["src/expr.rs: eval_mut (Lambda case), get_used_symbols"]}
{"id": "C25", "title": "A function cannot call itself by the name it is being bound to", "statement": "Users expect `let f = x -> ... f ...` to recurse. It does not: if f is unbound when the function literal is evaluated, then inside the body f stays an unbound symbol, and applying it runs an external program named f.", "quantifier": "all bodies and environments in which f is unbound before the definition", "why_tests_cant": "A negative statement over all environments and bodies.", "anchors": ["src/expr.rs: eval_mut (Lambda and Assign cases)"]}
{"id": "C26", "title": "Macros run in the caller's scope", "statement": "Applying a macro to one argument binds the macro's parameter in the caller's environment to the argument value and then behaves exactly as the body evaluated there.", "quantifier": "all macro bodies, arguments, environments", "why_tests_cant": "Ranges over all bodies.", "anchors": ["src/expr.rs: eval_mut (Apply of Macro)"]}
{"id": "C27", "title": "`f a b` and `(f a) b` agree when the intermediate function is closed", "statement": "Passing two arguments at once equals passing them one at a time whenever the intermediate value evaluates to itself in the caller's environment (for a closure: every variable it mentions is already captured). Without that condition they differ: the multi-argument form evaluates the intermediate value again in the caller's scope.", "quantifier": "all functions, arguments, environments", "why_tests_cant": "Quantifies over all curried functions; the difference shows only for quoted or open intermediate values.", "anchors": ["src/expr.rs: eval_mut (Apply of Lambda with several arguments, 591-599)"]}
{"id": "C28", "title": "Evaluation never unbinds a variable or touches outer scopes", "statement": "Running any program whose builtins do not unbind leaves every previously bound name bound, and no program at all changes an enclosing (parent) environment.", "quantifier": "all programs and environments", "why_tests_cant": "Invariant over all executions.", "anchors": ["src/expr.rs: eval_mut", "src/env.rs: define, undefine, get"]}
{"id": "C29", "title": "Environment lookup follows define/undefine exactly", "statement": "After any sequence of define and undefine operations, looking up a name gives the value of the last operation on it if that was a define, otherwise the parent's value; keys listed are in ascending order without duplicates.", "quantifier": "all operation histories", "why_tests_cant": "History property of unbounded length.", "anchors": ["src/env.rs: get, define, undefine, is_defined"]}
{"id": "C30", "title": "External commands receive exactly the arguments written", "statement": "Applying an unbound name runs exactly one external program of that name, in the shell's current directory (the text in CWD, without one the root), after all arguments have been evaluated left to right; lists are flattened, None disappears, every other argument value is passed once and in order; if any argument fails nothing is run.", "quantifier": "all argument lists, environments, external behaviours", "why_tests_cant": "Quantifies over argument lists of any length and shape and over effect order.", "anchors": ["src/expr.rs: eval_mut (521-582), flatten (405-415)"]}
{"id": "C31", "title": "Only short variables of the innermost scope are exported to commands", "statement": "The environment variables passed to a command are exactly the variables of the current scope (as of before argument evaluation) whose rendering is at most 1024 bytes; no other variable is ever exported.", "quantifier": "all environments", "why_tests_cant": "Ranges over all environments and value sizes.", "anchors": ["src/expr.rs: eval_mut (523-534)"]}
{"id": "C32", "title": "Integer arithmetic is exact or an error", "statement": "For all 64-bit integers m and n, `m + n`, `m - n`, `m * n` and `m // n` return the exact mathematical result (quotient truncated toward zero) if it is representable, and otherwise an error; they never wrap and never crash.", "quantifier": "all pairs of 64-bit integers", "why_tests_cant": "2^128 pairs.", "anchors": ["src/expr.rs: Add, Sub, Mul, Div (680-778)", "src/binary/init/operator_module.rs: add_builtin, - * //"]}
{"id": "C33", "title": "`%` crashes the shell exactly for zero divisors and MIN % -1; unary minus misbehaves exactly at MIN", "statement": "`m % n` returns the remainder (sign of the dividend) unless n = 0 or (m = MIN and n = -1), where the process panics; `- n` is exact unless n = MIN, where it panics in a checked build and returns MIN in a release build.", "quantifier": "all 64-bit integers", "why_tests_cant": "2^128 pairs; characterises the exact crash set.", "anchors": ["src/expr.rs: Rem (780-788), Neg (726-736)", "src/binary/init/operator_module.rs: % and -"]}
{"id": "C34", "title": "Text and list addition is concatenation, repetition repeats", "statement": "`+` on strings, byte strings and lists is concatenation (for lists, if the left one holds plain data: its elements are evaluated again); list * n is n copies, none for negative n; string * n is n copies (the number may also come first) if they take less than 2^63 bytes, and crashes the shell otherwise, in particular for a non-empty string and every negative n.", "quantifier": "all strings, lists, byte strings, integers", "why_tests_cant": "Unbounded values.", "anchors": ["src/expr.rs: Add, Mul"]}
{"id": "C35", "title": "Indexing never crashes", "statement": "`v @ i` for a list and an integer returns the element at i when 0 <= i < length and None otherwise, including for negative and huge i; for a map it returns the value stored under the key or None; anything else gives None. A plain name as index is taken literally, even if it is the name of a variable.", "quantifier": "all values and all 64-bit indices", "why_tests_cant": "2^64 indices, all containers; casts of negative numbers to unsigned are the risk.", "anchors": ["src/expr.rs: Index (790-809)", "src/binary/init/operator_module.rs: @"]}
{"id": "C36", "title": "Comparison is a strict partial order that never relates different types", "statement": "`<` is irreflexive, asymmetric and transitive on all values (assuming IEEE comparison for floats), total on integers and on strings; floating-point values are ordered as the numbers they stand for, with the infinities at the ends, and NaN is related to nothing; values of different types, and booleans or None, are never related by `<`, `<=`, `>` or `>=`, even when they are equal.", "quantifier": "all values", "why_tests_cant": "Transitivity ranges over all triples of unbounded values.", "anchors": ["src/expr.rs: PartialOrd (354-366)", "src/binary/init/operator_module.rs: < <= > >="]}
{"id": "C37", "title": "Equality is symmetric, and reflexive except through NaN", "statement": "`==` is symmetric on all values and reflexive on all values not containing a NaN; floating-point values are equal if they stand for the same number, so 0.0 equals -0.0; `!=` is its negation; two builtins are equal exactly when they have the same name.", "quantifier": "all values", "why_tests_cant": "Ranges over all values.", "anchors": ["src/expr.rs: PartialEq for Expression and Builtin", "src/binary/init/operator_module.rs: == !="]}
{"id": "C38", "title": "Boolean operators evaluate all operands", "statement": "`&&`, `||` and `!` return the conjunction, disjunction and joint negation of the truthiness of their arguments, but they always evaluate every argument: there is no short-circuit, so an error or effect in a later operand is never skipped.", "quantifier": "all argument lists and environments", "why_tests_cant": "Effect order over arbitrary argument lists.", "anchors": ["src/binary/init/operator_module.rs: && || !"]}
{"id": "C39", "title": "`list@head` returns the first element (false)", "statement": "A user relies on head returning the first element. It never does: for every non-empty list it returns None, and for the empty list it returns the empty list.", "quantifier": "all lists", "why_tests_cant": "Universal negative over all lists.", "anchors": ["src/binary/init/list_module.rs: head (66-84)"]}
{"id": "C40", "title": "Reversing, taking, dropping, splitting and chunking lose nothing", "statement": "rev turns lists, texts, names and bytes around, position by position, and is its own inverse; take n followed by drop n recombine to the list for every integer n, also negative; split-at n is the pair of both; chunk n for n >= 1 yields lists that concatenate to the input, all of length n except a possibly shorter, non-empty last one; tail drops exactly the first element.", "quantifier": "all lists and 64-bit integers", "why_tests_cant": "Unbounded lists, 2^64 sizes.", "anchors": ["src/binary/init/list_module.rs: rev, take, drop, split_at, chunk, tail"]}
{"id": "C41", "title": "`list@nth` is correct in range and crashes out of range", "statement": "nth n l returns element n for 0 <= n < len, element len+n for -len <= n < 0, and panics for every other n.", "quantifier": "all lists and 64-bit integers", "why_tests_cant": "Exact crash set over 2^64 indices.", "anchors": ["src/binary/init/list_module.rs: nth (385-410)"]}
{"id": "C42", "title": "Ranges contain exactly the integers between their bounds", "statement": "`a to b` is the ascending list of all integers n with a <= n < b, and list@range a b of all n with a <= n <= b.", "quantifier": "all pairs of 64-bit integers", "why_tests_cant": "2^128 pairs.", "anchors": ["src/binary/init/mod.rs: to", "src/binary/init/list_module.rs: range"]}
{"id": "C43", "title": "zip and unzip are inverse", "statement": "unzip(zip(a,b)) returns both lists cut to the shorter length; zip of an unzipped list of pairs is that list; unzip rejects every list containing a non-pair.", "quantifier": "all lists", "why_tests_cant": "Unbounded lists.", "anchors": ["src/binary/init/list_module.rs: zip, unzip"]}
{"id": "C44", "title": "Folds, map and filter apply the function to the elements in order", "statement": "For a function that computes a total mathematical function on data without effects, foldl/reduce give the left fold, foldr the right fold, map the element-wise image and filter the sublist of elements with truthy image, for any list of plain data. map, filter and reduce called without the list give a function that waits for it: given the list later, the user's function is called with each element in turn, in order, whatever effects it has, and the caller's variables are untouched.", "quantifier": "all lists of data, all such functions", "why_tests_cant": "Quantifies over functions and unbounded lists; the implementation re-evaluates accumulators and items.", "anchors": ["src/binary/init/list_module.rs: foldl, foldr", "src/binary/init/fn_module.rs: map, filter, reduce"]}
{"id": "C45", "title": "Dictionary insert, remove and membership obey the map laws", "statement": "After insert d k v, looking up k gives v and every other key is unchanged; after remove d k, has? is false and other keys are unchanged; len counts distinct keys; keys come out in ascending order, values in the order of the keys.", "quantifier": "all dictionaries, keys and values", "why_tests_cant": "Unbounded dictionaries.", "anchors": ["src/binary/init/dict_module.rs: insert, remove, has?, keys, len"]}
{"id": "C46", "title": "Dictionary union, intersection and difference are pointwise", "statement": "A key is in the union iff it is in one of the maps, with the second map winning; in the intersection iff in both, with the first map's value; in the difference iff in the first and not the second, with the first map's value.", "quantifier": "all pairs of dictionaries", "why_tests_cant": "Unbounded dictionaries.", "anchors": ["src/binary/init/dict_module.rs: union, intersect, difference"]}
{"id": "C47", "title": "A dictionary survives conversion to items and back", "statement": "from-items(items d) = d for every dictionary d; items of a dictionary are its entries in the order of the keys, of a list its elements with their positions counted from 0, and nothing of any other value; from-items of any list of pairs has under each key the value of the last pair with that key.", "quantifier": "all dictionaries, lists and other values", "why_tests_cant": "Unbounded dictionaries.", "anchors": ["src/binary/init/dict_module.rs: items, from-items"]}
{"id": "C48", "title": "Splitting and joining with the same separator is the identity", "statement": "Joining the pieces of string@split sep s with sep gives back s for every s and every sep, also the empty separator, and no piece contains a non-empty separator.", "quantifier": "all pairs of strings", "why_tests_cant": "All strings and separators incl. overlapping matches.", "anchors": ["src/binary/init/string_module.rs: split, join"]}
{"id": "C49", "title": "The Caesar cipher can be undone", "statement": "Shifting by k and then by 26-k gives back the text for 0 <= k <= 26 (rot13 twice is the identity) and only ASCII letters ever change. Undoing with the negative shift -k does not work, and shifts above 230 can crash a checked build.", "quantifier": "all strings and shifts", "why_tests_cant": "All strings; the wrap-around depends on u8 arithmetic.", "anchors": ["src/binary/init/string_module.rs: caesar (37-75)"]}
{"id": "C50", "title": "`isodd` and `iseven` classify every integer (false for negative odd numbers)", "statement": "A user relies on exactly one of isodd and iseven holding for each integer. iseven is always right; isodd is wrong exactly for the negative odd integers, for which both answer False.", "quantifier": "all 64-bit integers", "why_tests_cant": "2^64 inputs.", "anchors": ["src/binary/init/math_module.rs: isodd, iseven (285-301)"]}
{"id": "C51", "title": "Integer power is exact or an error for small exponents, and silently wrong for large ones", "statement": "math@pow b e returns exactly b^e or an overflow error for 0 <= e < 2^32. For other exponents the exponent is reduced modulo 2^32 first, so pow 2 4294967296 is 1.", "quantifier": "all pairs of 64-bit integers", "why_tests_cant": "2^128 pairs.", "anchors": ["src/binary/init/math_module.rs: pow (303-315)"]}
{"id": "C52", "title": "Error codes agree with the published table (false for three kinds)", "statement": "The code a handler receives equals the entry of err@codes for that kind of error for six kinds; permission-denied, program-not-found and syntax errors report the custom-error code 9 instead of 6, 7 and 8, so a handler cannot tell them apart.", "quantifier": "all error values", "why_tests_cant": "Universal over all errors of each kind.", "anchors": ["src/error.rs: codes (35-47), code (50-62)", "src/binary/init/err_module.rs"]}
{"id": "C53", "title": "`try` is transparent on success and hands every error to the handler", "statement": "If the tried expression succeeds its value, variables and effects are exactly those of evaluating it alone and the handler is not evaluated; if it fails, the handler is applied to a map holding the message, the code and the quoted expression, in the state the failure left (nothing is rolled back). The message is the complaint of a builtin word for word, or names the unknown program or variable. The one exception is a syntax error whose message cannot be printed (see C65), where the shell crashes instead.", "quantifier": "all expressions, handlers, environments", "why_tests_cant": "Ranges over all programs and handlers.", "anchors": ["src/binary/init/err_module.rs: try_builtin"]}
{"id": "C54", "title": "`eval` cannot change variables, `exec` can", "statement": "The eval builtin leaves the caller's variables as evaluating its argument left them, whatever the evaluated code assigns; exec behaves as evaluating the code in place.", "quantifier": "all expressions and environments", "why_tests_cant": "Ranges over all evaluated code.", "anchors": ["src/binary/init/mod.rs: eval, exec (388-401)"]}
{"id": "C55", "title": "Pipelines hand the exact bytes from one stage to the next", "statement": "In a pipeline every program stage after the first receives on its standard input exactly the bytes the previous stage produced (standard output of a program, raw bytes of a bytes value, rendering of any other value), the first stage inherits standard input, only the last inherits standard output, stages run in order and a stage that cannot start stops the pipeline.", "quantifier": "all pipelines of any length, all program behaviours", "why_tests_cant": "Unbounded pipelines and arbitrary external behaviour.", "anchors": ["src/binary/init/operator_module.rs: pipe_builtin, expr_to_command"]}
{"id": "C56", "title": "A pipeline of functions is function composition", "statement": "`v | f | g | ...` where v is plain data and the stages are functions on plain data evaluates to ...g(f(v)), and needs at least two stages.", "quantifier": "all such pipelines of any length", "why_tests_cant": "Unbounded pipelines.", "anchors": ["src/binary/init/operator_module.rs: pipe_builtin"]}
{"id": "C57", "title": "Log levels filter consistently", "statement": "After any history of set-level and disable calls get-level answers the level set last, a message of level k > 0 is printed iff k is at most the level set last; level 0 and below is always enabled; enabling is monotone in the level; a suppressed log call does not even evaluate its arguments. log@level@f is the level of the messages of log@f. A printed message shows its texts separated by spaces and ended by a line end, with the coloured prefix of the level at the start of every line. (exceptions) A text that itself has line ends is followed by neither, and, unless it stands at the start of a line, gets the prefix in the middle of the line.", "quantifier": "all histories of log operations", "why_tests_cant": "History property.", "anchors": ["src/binary/init/log_module.rs"]}
{"id": "C58", "title": "Reading back a file that was written", "statement": "On a file system where a write is visible to the next read, fs@write f v followed by fs@read f returns the rendering of v if v is not bytes, and for bytes returns a string when they are valid UTF-8 and the same bytes otherwise; append adds at the end and needs an existing file. Writing fails only if the file system refuses the write.", "quantifier": "all contents and file systems with read-after-write", "why_tests_cant": "All byte strings.", "anchors": ["src/binary/init/fs_module.rs: read, write, append (256-323)"]}
{"id": "C59", "title": "cp and mv never overwrite an existing destination", "statement": "If the destination exists and differs from the source path, fs@cp and fs@mv fail and change nothing; with equal paths they do nothing and succeed; mv never leaves both or neither path.", "quantifier": "all file system states and paths", "why_tests_cant": "All states of the file system.", "anchors": ["src/binary/init/fs_module.rs: copy_path, move_path (353-438)"]}
{"id": "C60", "title": "`fs@tail` returns the last lines in order (false)", "statement": "fs@head f n returns the first n lines in order. fs@tail f n returns the last n lines in reverse order, so it agrees with the expected output exactly when the selected lines read the same backwards.", "quantifier": "all file contents and line counts", "why_tests_cant": "All files.", "anchors": ["src/binary/init/fs_module.rs: head, tail (113-164)"]}
{"id": "C61", "title": "The prompt evaluates each accepted text exactly once", "statement": "Over any sequence of input lines, the interactive loop evaluates exactly the texts formed by joining the lines since the last reset at the moments this text first parses; an empty line (or Ctrl-C) on unparsable input discards the pending lines after reporting the error; every line belongs to at most one evaluated text and none is evaluated twice. The way the lines split into such texts exists and is unique. The value is shown once on a line of its own and is not evaluated again (code is shown, not run); for None nothing is shown; a name is run as a program; an error is shown on standard error and the prompt goes on.", "quantifier": "all sequences of input lines", "why_tests_cant": "History property of the read loop.", "anchors": ["src/bin.rs: repl (445-533)"]}
{"id": "C62", "title": "Only one prompt is active at a time, without deadlock", "statement": "The main thread and any number of Ctrl-C handler threads all run the prompt loop; under every schedule at most one of them holds the editor and the environment, as long as the process runs some started thread can take a step, and the effect on the environment is that of running whole loop iterations one after the other. After a crash inside the loop no thread ever gets a prompt again. The locks are not fair: a handler may wait forever.", "quantifier": "all thread schedules, any number of handler invocations", "why_tests_cant": "All interleavings.", "anchors": ["src/bin.rs: repl (452-455), main (669-680)"]}
{"id": "C63", "title": "A user variable named arg0 breaks `fn@curry` and `string@split`", "statement": "Users expect library functions to be independent of their variable names. curry builds its wrapper in the caller's scope, so if a variable arg0 is defined, the curried function uses that variable's value instead of its first argument.", "quantifier": "all values of the variable arg0", "why_tests_cant": "Appears only for one variable name; universally quantified over its value.", "anchors": ["src/binary/init/fn_module.rs: curry_env (4-24)", "src/binary/init/string_module.rs: split (155-160)"]}
{"id": "C64", "title": "Reported error positions always lie inside the source text", "statement": "Every source range contained in a syntax error returned for a text starts and ends within the text on character boundaries, so printing the error cannot slice out of range.", "quantifier": "all rejected source texts", "why_tests_cant": "All malformed inputs.", "anchors": ["src/parser.rs: SyntaxError", "src/error.rs: fmt_syntax_error, print_error_lines"]}
{"id": "C65", "title": "Error messages show the right place (false at line starts) and can be printed (false for long lines)", "statement": "The message of a syntax error contains, for every position of the error, an excerpt with the number of the line, what precedes the error on that line, the error in red, and what follows, cut to 72 columns; several lines are shown with consecutive numbers. If the error starts at the very beginning of a line other than the first, the number shown is one less and the text of the previous line is shown in front of the error. Every message can be printed if no line of the text is longer than 72 characters or the program is built without overflow checks; otherwise an error over several lines whose last line is longer than 72 characters crashes the shell while printing, with nothing shown: a script made of a `let` followed by a string literal over two lines does this, and so does an unfinished text at the prompt that is given up with a blank line.", "quantifier": "all texts and error positions", "why_tests_cant": "All texts.", "anchors": ["src/error.rs: print_error_lines (187-253)"]}
{"id": "C66", "title": "Parsing never crashes where tokenizing does not", "statement": "`parse_script` panics only if `tokenize` panics on the same text: every string token that reaches the parser is a well-formed literal, so unescaping it always succeeds, and slicing the text at the token ranges is always in range.", "quantifier": "every source text", "why_tests_cant": "The unwrap on the unescaped literal is reached for every accepted string literal; that two independent scanners of escapes (the tokenizer and the snailquote crate) agree on all strings cannot be shown by samples.", "anchors": ["src/parser.rs: parse_string, parse_script", "src/tokenizer.rs: parse_escape, string_literal"]}
{"id": "C67", "title": "Every script of the grammar is accepted and means what the grammar says", "statement": "Given a context-free grammar of the language (literals, brackets, maps, blocks, quotation, field access, operators by level, application, pipelines with redirections, let, lambdas, macros, conditionals and loops (also as the last stage of a pipeline), statements), every text whose words can be derived is accepted and parses to exactly the expression the derivation assigns; hence the grammar is unambiguous. The words may be laid out with any whitespace and comments between them, as long as no two words run together. In particular the ordered choices and backtracking of the parser never pick a wrong alternative.", "quantifier": "all scripts derivable in the grammar, of any length and nesting", "why_tests_cant": "The parser is an ordered choice with backtracking; that no alternative shadows a later one for any input is a statement about all derivations.", "anchors": ["src/parser.rs: all parse_* functions"]}
{"id": "C68", "title": "Deep copies are exact, and file commands change nothing else", "statement": "fs@cp of a file or a directory tree of any shape, in whatever way it ends, changes nothing outside the destination and the missing directories above it and no entry that existed; if it succeeds and neither path lies inside the other, everything at and below the destination is exactly what is at and below the source. Copying a directory to a path inside itself never succeeds. fs@rm that succeeds leaves nothing at and below the path and changes nothing else; fs@rmdir removes empty directories only; fs@mkdir creates the directory and the missing ones above it and keeps what exists; fs@ls lists every entry of a directory exactly once, a file as its full path, and fails for a missing path; exists?, is-dir?, is-file? say what is at the path. On a file system that refuses requests only for a reason all of them succeed: fs@cp if nothing is at the destination and there is room for a copy, fs@rm of anything that exists, fs@rmdir of an empty directory, fs@mkdir if no file is in the way, fs@ls of anything that exists.", "quantifier": "all file trees, paths, current directories and failures of single requests", "why_tests_cant": "Trees have unbounded depth and width, and requests can fail half way; tests use one or two fixed trees without failures.", "anchors": ["src/binary/init/fs_module.rs: copy_path, remove_path, list_directory, mkdir, rmdir, ls, cp, rm, exists?, is-dir?, is-file?"]}
{"id": "C69", "title": "Sums, products, factorials and shifts of integers are exact or fail loudly (false in release builds)", "statement": "math@sum and math@product of a list of integers give the exact result whenever every partial result fits 64 bits. Otherwise a checked build crashes and a release build silently returns the exact result reduced to 64 bits. math@fact is exact up to 20 and from 66 on gives 0 in release builds; a negative argument fails with a message. math@abs is exact except for the smallest integer. Left and right shifts multiply and divide by powers of two on 64 bits for amounts 0 to 63; other amounts crash a checked build. Float results of math@sum that cancel to zero come back as the integer 0.", "quantifier": "all lists of integers, all 64-bit integers and shift amounts, both build modes", "why_tests_cant": "The failing inputs are a vanishing fraction of the inputs and differ between debug and release builds; tests run in one mode on a few values.", "anchors": ["src/binary/init/math_module.rs: sum, product, fact, abs, lsh, rsh, a-rsh, l-rsh"]}
{"id": "C70", "title": "Building and measuring sequences, and inserting into them", "statement": "list@cons, list@append add exactly one element at the stated end, and tail of a cons gives the list back. len counts the elements of a list and the characters of a string, while string@len and dict@len of a string count bytes, so they agree exactly on ASCII text. insert puts the value at the given place leaving all other elements in order, and fails without effect beyond the end or below zero. For text the place is counted in bytes: both insert and string@split-at crash when it lies inside a character, and split-at also when it lies outside the text.", "quantifier": "all lists, strings, values and positions", "why_tests_cant": "Byte and character positions agree on ASCII, which is what tests use.", "anchors": ["src/binary/init/mod.rs: insert, len", "src/binary/init/list_module.rs: cons, append, tail, rev", "src/binary/init/string_module.rs: len, split-at"]}
{"id": "C71", "title": "Printing, leaving, unbinding and changing directory do exactly what they say", "statement": "print, println, echo and debug show their arguments in order with single spaces between them and the end of a line where promised; without arguments they show nothing at all; if an argument fails, those before it are already shown and those after it are not evaluated; on a closed output they crash the shell. report shows every value but None. exit n leaves with the low 32 bits of n as status and nothing after it runs. unbind removes the innermost meaning of a name and no other. cd makes the canonical path the current directory or fails and leaves it; inside a function it does not change the caller's directory although the process has moved. str and string@to-string give the text print shows; str and int are inverse on integers; int of a text is the integer that is written there (digits after at most one sign) if it has 64 bits, int leaves integers alone and converts floating point numbers, and is an error for everything else; fn@? evaluates one branch only.", "quantifier": "all values, argument lists, statuses, names, directories and worlds", "why_tests_cant": "Order, partial output and frame conditions over all argument lists and environments.", "anchors": ["src/binary/init/mod.rs: print, println, debug, str, int, unbind, report", "src/binary/init/os_module.rs: exit, cd", "src/binary/init/fn_module.rs: conditional"]}
{"id": "C72", "title": "Text functions: trimming, searching, replacing, words, lines and width", "statement": "string@trim, trim-start and trim-end remove exactly the white space at the ends. contains?, starts-with? and ends-with? hold exactly when the text occurs there. replace and split cut at the leftmost occurrences one after the other, and there is only one way to do so; replace joins the pieces with the new text, leaves a text without occurrences alone, and for the empty old text puts the new one around every character. words, lines, paragraphs and chars give exactly the pieces described by small grammars of words and lines. get-width is the length of the longest line.", "quantifier": "all texts", "why_tests_cant": "All strings, including overlapping occurrences, carriage returns, Unicode white space and missing final newlines.", "anchors": ["src/binary/init/string_module.rs"]}
{"id": "C73", "title": "The function combinators compose exactly as written", "statement": "fn@id a has the value and the effects of a. fn@const a b has the value of a, b being evaluated too. fn@flip f a b applies the value of f to the values of b and a, and fn@compose f g a applies the value of f to what the value of g gives for a; both evaluate their arguments from left to right exactly once, and for functions written by the user the outcome, also an error, and the effects are those of the direct calls, whatever variables the caller has. fn@apply f l applies f to the elements of the list l, which are evaluated once more; without a list it is an error.", "quantifier": "all functions, arguments, environments and worlds", "why_tests_cant": "The library functions are written in the language itself and capture the caller's scope, so their correctness depends on every variable name a caller can have.", "anchors": ["src/binary/init/fn_module.rs: id, const, flip, compose, apply"]}
{"id": "C74", "title": "Programs in files and programs as data: the sys module", "statement": "sys@include runs the program in a file with the caller's variables and keeps its assignments; sys@import has the same value and effects but changes no variable of the caller. If the file is missing, not readable, not text or not a program, both fail and nothing is run. sys@parse and parse@expr give the code of a text without running it, and sys@exec of that code is the program. sys@unset removes the innermost meaning of one name, sys@defined? says whether a name has a meaning, sys@env and vars are exactly the innermost scope. Contrary to what a user expects, sys@set stores its second argument unevaluated, sys@quote quotes twice, and sys@cd changes CWD without telling the operating system.", "quantifier": "all files, programs, names, environments and worlds", "why_tests_cant": "Frame conditions over all programs and environments, and every way in which reading can fail.", "anchors": ["src/binary/init/sys_module.rs"]}
{"id": "C75", "title": "Styles are added and stripped without touching the text", "statement": "Every style function of fmt and fmt@dark shows its argument between the start and the reset sequence of its style. However a text is put together from plain and styled parts, fmt@strip gives the plain text, and what it gives never contains an escape character. Exceptions: fmt@dark@white ends with garbage that stripping keeps, stripping a link made by fmt@href loses its text, and every style function crashes the shell when called without arguments.", "quantifier": "all texts, values and nestings of styles", "why_tests_cant": "Stripping is a state machine over all texts; nested styles are unbounded.", "anchors": ["src/binary/init/fmt_module.rs", "src/bin.rs: strip_ansi_escapes"]}
{"id": "C76", "title": "Random functions stay in range and shuffle fairly", "statement": "rand@int lo hi lies in lo up to but not including hi, rand@choose gives an element of the list, and rand@shuffle gives a list with the same elements. Every order of the list comes from answers of the random source, for different elements from exactly one combination, and there are as many combinations as orders: if the answers are equally likely so are the orders. An empty range or list crashes the shell.", "quantifier": "all ranges, all lists, all answers of the random source", "why_tests_cant": "Fairness is a statement about all orders and all answers of the random source; tests see single samples.", "anchors": ["src/binary/init/rand_module.rs"]}
{"id": "C77", "title": "Boxes have the requested size and pictures join edge to edge", "statement": "widget@create gives exactly the requested number of rows of exactly the requested number of characters: the title in the middle of the upper border, the wrapped text row by row, empty rows up to the lower border; too small sizes and too long titles are refused. widget@joinx of pictures of equal height has as rows the rows of the pictures one after the other and its width is the sum of the widths; widget@joiny of pictures of equal width has all their rows and its height is the sum of the heights; results can be joined again. Texts with different numbers of lines are refused by joinx. A blank text makes joiny crash the shell.", "quantifier": "all titles, wrapped texts, widths, heights, and all lists of pictures", "why_tests_cant": "Off-by-one errors in padding show only for particular combinations of title length, width, line lengths and height.", "anchors": ["src/binary/init/widget_module.rs: create, joinx, joiny"]}
{"id": "C78", "title": "What the command line makes the shell do", "statement": "Before anything else the shell defines clear, pwd, join, prompt and incomplete_prompt; this always succeeds, has no effect outside the shell and changes no other name. `dune FILE` then runs the program in the file; `dune -x WORD...` runs the words joined by spaces and gives the result to report, evaluating it once more; with both, the words see what the file assigned. If the file is missing, not a program, or fails, one message goes to standard error and the shell ends as if it had succeeded; a failing report makes the shell fail. Without -i, a file or words never consult the prelude, the home directory or the user. Otherwise the prompt starts after ~/.dune-prelude and with its definitions. Without a prelude the user is asked, and the default one is written exactly if the answer is y; the introduction is run in both cases. A prelude that fails is never overwritten, even if the user agrees to that.", "quantifier": "all files, programs, words, answers, environments, evaluators and worlds", "why_tests_cant": "Tests start the evaluator directly; which program runs when, in which variables and with which exit depends on combinations of options, files and failures.", "anchors": ["src/bin.rs: main, run_file", "src/bin.rs: prelude handling"]}
{"id": "C79", "title": "Prompts show the directory and keep columns aligned", "statement": "After the start, and until it is redefined, the prompt without its styles is `(dune) `, the current directory and `$ `; while an input is incomplete it is spaces followed by `> ` of exactly the same width, so that what is typed stays in its column. If the prompt cannot be computed, the directory followed by `$ ` is shown.", "quantifier": "all directories (without escape characters, of representable length), all environments that keep the two functions, all worlds", "why_tests_cant": "The prompts are functions written in the shell's own language, run by its own parser and evaluator; alignment must hold for every directory.", "anchors": ["src/bin.rs: the default prompt and incomplete_prompt", "src/bin.rs: Repl prompt"]}
{"id": "C80", "title": "join puts the separator between the items", "statement": "`join sep list`, defined at the start in the shell's own language, is the text of the items of a non-empty list of data values with the text of the separator between them, whatever the types of the items and of the separator. Of the empty list it makes the text None.", "quantifier": "all separators, all non-empty lists of data values, all environments that keep join", "why_tests_cant": "An induction over the list through the parser, closures, currying, list@reduce and text concatenation; tests fix one list.", "anchors": ["src/bin.rs: join", "src/binary/init/list_module.rs: reduce"]}
{"id": "C81", "title": "Accepting a hint completes the line", "statement": "If the line is the beginning of the first built-in command that contains it, the hint completes the line to exactly that command. If the line is elsewhere in that command, the hint is the whole command, so that accepting it does not give a command (`t` becomes `texit 0`). Otherwise the hint is the one from the history.", "quantifier": "all lines and histories", "why_tests_cant": "Containing and beginning with differ only on particular lines; tests rarely drive the line editor.", "anchors": ["src/bin.rs: Hinter for DuneHelper"]}
{"id": "C82", "title": "Looking things up in parsed JSON and TOML finds what the document has there", "statement": "For any sequence of keys and indices that leads to a part of the document, the same sequence of @ after parse@json or parse@toml gives that part: null as None, texts, truth values, TOML integers and floats as they are, dates as text, every JSON number as a floating-point number, arrays as lists of the same length, objects as maps with exactly the keys. If an object has a key twice the last entry counts. Any sequence that leads nowhere gives None. The empty JSON text is None; a text that is no document is an error that quotes it.", "quantifier": "all documents, all paths into them, all environments and worlds", "why_tests_cant": "An induction over paths and documents of any depth, including duplicate keys, missing entries and type mismatches on the way.", "anchors": ["src/binary/init/parse_module.rs: json_to_expr, toml_to_expr, parse_json, parse_toml", "src/binary/init/operator_module.rs: @"]}
{"id": "C83", "title": "Redirection moves exactly the bytes between pipelines and files", "statement": "A pipeline followed by `>> f` writes to f, found from the current directory, exactly the bytes its last stage hands over, in one request and after everything else; for a program these are exactly the bytes it wrote, text or not. If a program of the pipeline cannot be run, an error is reported and the file is not touched. `>>> f` adds the bytes at the end of an existing file; if there is none it fails and nothing changes. Apart from that, an error is reported only if the file system refuses the write. `prog << f` runs the program once with exactly the bytes of the file as input, and a longer pipeline starting with `<< f` is the pipeline starting with the content of the file. Contrary to what a user of other shells expects, `echo x >> f` shows x on the terminal and stores the word None in f, and `a | b << f` starts the content of f as the name of a program.", "quantifier": "all pipelines, programs, values, files, directories, worlds, and environments in which the library names keep their meaning", "why_tests_cant": "The redirection operators are functions written in the shell's own language, captured when the shell starts; that no byte is lost or changed must hold for all outputs, including those that are not text.", "anchors": ["src/binary/init/operator_module.rs: <<, >>, >>>, |", "src/binary/init/fs_module.rs: read, write, append", "src/binary/init/mod.rs: init"]}
{"id": "C84", "title": "The console functions draw exactly what they say", "statement": "On a terminal that follows the usual control sequences: console@write x y v shows the lines of v one below the other from column x of row y on, changes no other cell and leaves the cursor where it was (but forgets the saved position); a picture made by widget changes exactly its rectangle. cursor@move-to, move-up, move-down, move-left, move-right put the cursor where they say, kept on the screen; 0 moves by one. save-position, restore-position, hide, show, mode@alternate and mode@normal do what they are called. console@title sets the title and nothing on the screen. console@width and height are the size of the terminal, None without one. console@clear empties the screen whatever its argument, but called without an argument it is an error and does nothing.", "quantifier": "all terminal sizes and contents, all positions, all printable texts that fit, all environments and worlds", "why_tests_cant": "The claim is about the state of a terminal after arbitrary text has been sent to it, for every screen size, position and text; tests compare one escape sequence.", "anchors": ["src/binary/init/console_module.rs: write, title, clear, width, height, cursor, mode"]}
{"id": "C85", "title": "Pressed keys can be recognised by their names", "statement": "console@keyboard@read-key gives, for every key with a name in console@keyboard@keys except the function keys, the value of this name; keys that type a printable character give this character; different keys are told apart. Contrary to this, no function key F1 to F12 gives its own name: F11 and F12 are taken for f1 and f2, and F2, F5, F6 for insert, page-up, page-down.", "quantifier": "all keys, including all function key numbers and characters, all environments and worlds", "why_tests_cant": "The two tables are written independently of each other; agreement and distinctness must hold for all pairs of keys.", "anchors": ["src/binary/init/console_module.rs: keyboard, read-key, keys"]}
{"id": "C86", "title": "Case conversion and character tests of texts", "statement": "For ASCII text string@to-upper, to-lower and to-title change exactly the letters they should: all to capitals, all to small ones, capitals at the start and after white space and small ones elsewhere. is-title holds exactly of the texts to-title leaves alone, and of everything to-title returns. is-alpha?, is-alphanumeric?, is-numeric?, is-lower and is-upper hold if every character is of this class: the empty text passes all of them, and `a b` is not lower. Called without an argument each of them crashes the shell.", "quantifier": "all ASCII texts, all environments and worlds", "why_tests_cant": "Positions of words in texts of any length; tests try a few words.", "anchors": ["src/binary/init/string_module.rs: to-upper, to-lower, to-title, is-title, is-lower, is-upper, is-alpha?, is-alphanumeric?, is-numeric?"]}
{"id": "C87", "title": "Only scripts are accepted, and an accepted text means what the grammar says", "statement": "A text that parses is a script: it is the concatenation of its tokens, each a word of the lexical grammar, and the words have a derivation in a small grammar (values, lists, maps, blocks, quotes, field access, operators by precedence, calls, conditionals, loops, pipelines with redirections, let, functions, macros), after some closing parentheses have been added at the end; the result of parsing is what the derivation stands for. Every other text is rejected with a syntax error. In particular the brackets of an accepted text are nested, square brackets and braces occur in pairs, and no closing parenthesis is too many; but parentheses, and a quote of a string, may be missing at the end. The grammar of C67, all of which is accepted, is part of this one with the same meanings.", "quantifier": "all texts", "why_tests_cant": "A parser that drops or invents words on some path still passes all tests of scripts it should accept; that nothing else is accepted is a statement about all texts, and needs an induction over the runs of a backtracking parser.", "anchors": ["src/parser.rs: parse_script and all parsers it uses", "src/tokenizer.rs: tokenize", "src/bin.rs: parse"]}
{"id": "C88", "title": "A crash is always a call of one of the listed functions", "statement": "While any script runs, a Rust panic happens only inside a call from a fixed table of functions and argument counts: an operator, conversion, text test or style without arguments, a comparison with less than two; `*` and `%` with several arguments; `insert` with three and `string@split-at`, `list@nth` with two arguments; `err@try`; `fs@cp`, `fs@tree` and `fs@glob`; parsing of a text (`parse@expr`, `sys@parse`, `include`, `import`); `rand@int`, `rand@choose`; `widget@joiny`; and, in builds with overflow checks only, negation, shifts, sums, products, `fact`, `abs`, the Caesar cipher and `console@write`.  Every other call in every program is free of crashes, provided terminal, clock and random numbers work (and apart from printing a map with a list under a key wider than the terminal, C98).  The table is exact: each entry has a crashing call.", "quantifier": "for all expressions, environments, native stacks, worlds whose terminal, clock and random numbers work, and both kinds of builds; for all entries of the table", "why_tests_cant": "Tests can run some calls with some arguments; that no other function can ever crash, whatever values, environments, answers of the system and nested calls it meets, is a statement about all runs.", "anchors": ["src/binary/init/*.rs: all builtin bodies", "src/expr.rs: Expression::eval_mut, impl Add/Sub/Mul/Div/Rem/Neg"]}
{"id": "C89", "title": "Only the listed functions touch the outside world, each in the listed ways", "statement": "A fixed table gives for every library function the kinds of effects its own code has: printing, reading files, writing files, removing or renaming files, starting programs in a pipeline, changing the process directory, reading or setting the log level, random numbers, terminal size and mode, input, sleeping, the clock, leaving the shell.  If a run of any program makes a request of some kind other than starting a command, it has called a function listed for that kind: with these functions replaced by an immediate exit the run exits.  So any fact about the outside world which only such requests could make false survives every run that calls none of them; in particular lists, dictionaries, texts, mathematics, formatting and parsing change nothing outside.  Only `exit`, and `input` at the end of the input, leave the shell.  The table is exact: each function listed for a kind has a call with that effect.", "quantifier": "for all expressions, environments, worlds, facts about the world and kinds of effects; for all entries of the table", "why_tests_cant": "That a function never touches files, whatever arguments, environments, callbacks and answers of the system it meets, is a statement about all runs; tests only see the effects of the calls they make.", "anchors": ["src/binary/init/*.rs: all builtin bodies", "src/expr.rs: Expression::eval_mut"]}
{"id": "C90", "title": "An operator given one operand is the function that waits for the other", "statement": "`(+ a) b` is `b + a`: texts, byte strings and lists are concatenated with the operand given first at the end, integers are added exactly or with an error.  `(* a) b`, `(// a) b` and `(% a) b` are the product, the quotient and the remainder with the operand given first on the left.  `a` is evaluated before `b`, each once.  `-` is different: `(- a)` is the negated number, and calling it is an error before `b` is evaluated.", "quantifier": "for all operands (with any effects), environments and worlds", "why_tests_cant": "The waiting function is built at run time out of lambdas, so which operand ends up on which side, in which order they are evaluated and in which scope depends on the closure machinery for all operands and environments.", "anchors": ["src/binary/init/operator_module.rs:8-40: add_builtin", "src/binary/init/fn_module.rs:26-58: curry, reverse_curry"]}
{"id": "C91", "title": "Integer programs do what they say, from the text to the output", "statement": "A small language of integer programs has its own meaning: assignment, `println`, `if`/`else if`/`else`, `for x in a to b`, the operators `+ - * // %`, comparisons, `&&` and `||`, parentheses, with the usual precedences; one set of variables, exact arithmetic or an error.  Every text that writes down such a program (nested at most 266 deep) is accepted by the parser, and the shell does what the program means: it prints exactly these numbers, line by line, leaves these variables, and ends with success, an error message (after a failed operation nothing more is done) or a crash (`%` by zero) as the program says.  A text that is a formula has exactly the value of the formula.  For instance the text `let s = 0; for i in 1 to n + 1 { let s = s + i } println s` prints n(n+1)/2 for every n.", "quantifier": "for all programs of the language, all texts with these words in any spacing and with any comments, all starting variables, environments and worlds with an open standard output", "why_tests_cant": "The claim composes tokenizer, parser, evaluator, operators and environment for all programs; loops may run any number of times.", "anchors": ["src/parser.rs: parse_script, parse_statement, parse_expression*", "src/expr.rs: Expression::eval_mut", "src/binary/init/operator_module.rs: add, sub, mul, div, rem, comparisons, and, or", "src/binary/init/mod.rs: println, to"]}
{"id": "C92", "title": "Printed code reads back, except for library members, ranges in loops and pipelines with arguments", "statement": "Code built from literals, names, lists, quotes, parentheses, blocks, calls, operators, functions, macros, assignments, conditionals and loops over operands, printed by the shell and given to the parser, is accepted and is read as the same code, except that functions forget the variables they have captured and an else branch gains one pair of parentheses; without conditionals it is read as exactly itself. A function printed where it was made and pasted at the prompt is the same function again. This fails for three forms of code: `list@len x` is printed as text that is read as `list@len@x`, `a | b c` as one that is read as `a | b | c`, and a loop over `a to b` as one that is rejected.", "quantifier": "all code of these forms, nested without bound; all environments for pasted functions", "why_tests_cant": "Unbounded nesting of forms; printer and parser are separate pieces of code that agree only by convention.", "anchors": ["src/expr.rs:162-223: Debug for Expression", "src/parser.rs: parse_script, parse_apply, parse_operator"]}
{"id": "C93", "title": "`fs@tree` is a complete picture of the directory; its depth limit does nothing (false)", "statement": "`fs@tree path` gives nested maps in which following any names shows exactly what is at the path with these names: nothing if there is nothing, its path for a file, and for a directory a map whose `.` is its path and whose `..` is the path of its parent. Nothing is changed. The documented greatest depth has no effect: `fs@tree k path` is always the same as `fs@tree path`, for every k. A path that cannot be listed, such as a file or nothing at all, looks like an empty directory, and at the root `/` the shell crashes.", "quantifier": "for all directory trees of any shape and depth, integers, paths, environments and worlds", "why_tests_cant": "Directory trees are unbounded; a test compares one tree.", "anchors": ["src/binary/init/fs_module.rs:11-40: get_dir_tree", "src/binary/init/fs_module.rs:76-111: tree"]}
{"id": "C94", "title": "`dict@flatten` lists the leaves, all of them, in order", "statement": "`dict@flatten v` is the list of everything in `v`, at any depth of lists and maps, that is neither a list nor a map: each such value once for each place where it stands, in the order of the places, maps in the order of their keys. There is only one such list, and flattening it again changes nothing.", "quantifier": "for all values, nested to any depth", "why_tests_cant": "Unbounded nesting of lists and maps.", "anchors": ["src/binary/init/dict_module.rs: flatten"]}
{"id": "C95", "title": "The clock is told without ambiguity; sleeping waits once, and for ages if the time is negative (false)", "statement": "`time@now` is a map with exactly the year, month, day, hour, the time and the date; from the text of the time the hour and the minute can be told (12 at noon and midnight, am and pm), from the text of the date the month, the day and the year in its century. `time@sleep k` waits k milliseconds, once; anything but a number is an error and there is no waiting. A negative number is no error: the shell then sleeps for more than 292 million years.", "quantifier": "for all dates and times, integers, environments and worlds", "why_tests_cant": "Unambiguity is a statement about all pairs of times; no test waits for a negative time.", "anchors": ["src/binary/init/time_module.rs"]}
{"id": "C96", "title": "Asking the user", "statement": "`input a b …` evaluates its arguments in order, asks once, with the values separated by spaces as prompt, and gives exactly the line typed; at the end of the input it leaves the shell with status 0; if an argument fails nobody is asked. read-line and read-password give exactly what was read. mode@raw and mode@cooked make one request each and fail if the terminal refuses.", "quantifier": "for all arguments (with any effects), lines typed, environments and worlds", "why_tests_cant": "All argument lists and all worlds.", "anchors": ["src/bin.rs:85-103: readline", "src/binary/init/mod.rs: input", "src/binary/init/console_module.rs: mode, keyboard"]}
{"id": "C97", "title": "Rounding, roots, logarithms and trigonometry take any number", "statement": "floor, ceil, round and trunc leave every integer exactly as it is, also those a floating point number cannot hold, and give a floating point number for a floating point number. Each of the twenty other functions (sin, sqrt, ln, …) gives for an integer what it gives for the floating point number of the same value. `math@log base x` has the base first. `math@pow` with a floating point base or exponent is the floating point power, an integer counting as the floating point number of its value. `math@abs` of a floating point number is this number without its sign. What is not a number, and any other number of arguments, is an error, in the latter case before anything is evaluated.", "quantifier": "for all integers and floating point numbers, argument lists, environments and worlds", "why_tests_cant": "All 64-bit integers and all floating point numbers.", "anchors": ["src/binary/init/math_module.rs:168-476"]}
{"id": "C98", "title": "Lists and maps print as aligned tables, except lists too long for the terminal", "statement": "A list prints as one row of cells, strings quoted, if the first lines of its items with one more column each fit on the terminal, and otherwise as code. A map prints as a table with one row for each entry in the order of the keys: the key, then the value (a map as its own table, a list as its picture for the rest of the width, a builtin by name and help, anything else as code). A table is framed by lines above, below and between the rows, and by lines beside the cells, heavy for lists and light with a double top for maps. In a table every line of every cell is there unchanged; columns are exactly as wide as their longest line and start at the same place in all rows, rows are exactly as tall as their tallest cell, and all lines of the picture are equally wide, where the escape sequences of colours take no place. Two lists of integers which print alike are the same. (exception) In builds with overflow checks printing crashes exactly if a map, which is the value or is nested in it through lists and maps, has a list under a key with more bytes than the width of the terminal less three.", "quantifier": "for all values and terminal widths; cell positions for texts of characters one column wide without escape sequences, equal line widths for all texts, coloured or not", "why_tests_cant": "The layout depends on all nested values, all widths of the terminal and all line lengths at once; a test sees the layout of the values somebody wrote down.", "anchors": ["src/expr.rs:225-352: impl Display for Expression", "prettytable-rs 0.10: Table, Row, Cell, LineSeparator"]}
{"id": "C99", "title": "`math@max` and `math@min` choose one of their arguments, the second if they cannot be compared", "statement": "`math@max a b` evaluates `a` and `b` once each, in this order and with their effects, and returns one of the two values, unchanged: neither of them is greater than the result (less, for `math@min`). Of two integers the result is the larger (the smaller) number. (exception) Of two values that cannot be compared, such as an integer and a floating-point number, a number and a text, or anything and NaN, both functions return the second, so the order of the arguments matters and the larger number is not found.", "quantifier": "for all argument expressions, all values including functions and code, all environments in which the library has its meaning", "why_tests_cant": "All pairs of values of all types; the functions are scripts whose meaning depends on scopes, so an argument that is itself a name or a function must not be evaluated again.", "anchors": ["src/binary/init/math_module.rs:11-12", "src/expr.rs:527-650"]}
{"id": "C100", "title": "`pwd` and `clear` do what they say at the prompt, and nothing in scripts", "statement": "Entering `pwd` at the prompt shows the current directory on a line of its own, after a `cd` the full path of the directory entered. Entering `clear` empties the screen and puts the cursor into its corner. Nothing else is shown. Afterwards all variables are as before, except that `_` is overwritten. (false) In a script the statements `pwd` and `clear` do nothing.", "quantifier": "for all directories, environments in which the names have their meaning, screens and worlds", "why_tests_cant": "The prompt treats macros specially, and the macros run in the scope of the prompt: what they change depends on the variables there.", "anchors": ["src/bin.rs:574-576", "src/bin.rs:491-515"]}
{"id": "C101", "title": "(false) Reading a program takes time polynomial in its length: each bracket doubles the time", "statement": "A script of commands whose words are names and literals is read with at most 31 looks at a token for each word (and 77 more). But each pair of parentheses, each list and each map that stands at the start of an expression, one inside the other, doubles the number of looks, and each block whose last expression has no semicolon, such as the body of a function, multiplies it by four. So a correct program of 4n+2 characters takes 2^n looks and n functions inside each other take 4^n: no polynomial in the length of the text bounds the time, and some forty parentheses or twenty nested functions are never read.", "quantifier": "for all texts with such an expression as first statement, whatever follows; for all numbers of commands and words; for all polynomials", "why_tests_cant": "A test with three or four levels is fast; that the time doubles at every level is a statement about all depths.", "anchors": ["src/parser.rs:615-635: parse_expression_prec_seven", "src/parser.rs:526-531: parse_apply", "src/parser.rs:185-226: parse_statement, parse_script_tokens"]}
{"id": "C102", "title": "(false) The memory of a program that only defines functions is polynomial in its length: each definition copies what it mentions", "statement": "A function takes the memory of its text, its parameter and the current directory, and of a full copy of the value of each variable it mentions, once for each variable however often it is mentioned, and of nothing else. So a function that mentions two functions, each of which mentions two, holds all of them anew: if two functions are defined again in terms of both, the memory of each doubles. The line `let f = x -> f (g x); let g = x -> g (f x)` written n times, a program of 50n characters that calls nothing, leaves a value of 2^n - 1 cells or more, whatever `f` and `g` were before; thirty such lines fill gigabytes. No polynomial in the length of the program bounds the memory.", "quantifier": "for all function literals, environments and worlds; for all pairs of bodies that mention both functions and any number of repetitions; for all polynomials", "why_tests_cant": "A test with a few definitions is small; that the memory doubles with every round is a statement about all numbers of rounds.", "anchors": ["src/expr.rs:626-638: Lambda", "src/env.rs:6-10", "src/env.rs:49-57: get"]}
{"id": "C103", "title": "Functions that users define compute what they say, with the variables of their definition", "statement": "A program may define functions of integers with any number of parameters, `let f = x -> y -> ...`, whose bodies are formulas or nested conditionals and may call functions defined before, and call them anywhere in formulas. A call computes its arguments from left to right and gives the value of the body with the parameters set to the arguments and all other names as they were when the function was defined: later assignments do not change it, and nothing that happens in a call is seen outside. An error or crash in the body is the result of the call. Texts entered one after the other share variables and functions, and a text that fails leaves what it had set and printed before. For instance, for all integers a, b, c: a defined `max` of two parameters prints the greater of a and b, and `let k = a; let f = x -> x + k; let k = b; println (f c)` prints c + a.", "quantifier": "for all programs with such functions (nested at most 266 deep, functions not defined in terms of themselves), all texts of them in any spacing, all sessions of any number of texts, all starting integers, environments and worlds with an open standard output", "why_tests_cant": "Functions, arguments and sessions are unbounded; the claim relates the text of a definition to all later calls through parser, closures, currying and evaluator at once.", "anchors": ["src/parser.rs: parse_script, parse_assign, parse_apply, parse_operator (->)", "src/expr.rs: Expression::eval_mut, Expression::get_used_symbols", "src/env.rs: Environment", "src/bin.rs:535-537: run_text"]}
{"id": "C104", "title": "A recursive macro computes what it says only if it reads its parameter before it calls itself", "statement": "Functions cannot call themselves by name (C25); a macro can, since it runs in the scope of its caller, but then all calls share one parameter. `let f = n ~> if n < 1 { 0 } else { n + (f (n - 1)) }; println (f k)` prints the sum of the numbers up to k, for every k whose sum fits into 64 bits; with the operands exchanged, `(f (n - 1)) + n`, it prints 0 for every k. With `*` instead of `+` it prints every factorial that fits into 64 bits, although products (unlike sums) count against the recursion limit. After each of these programs the caller has a variable n with value 0, and no other variable but f has changed.", "quantifier": "for all k (as far as the native stack lets builtins nest), all environments in which the library names keep their meaning, and all worlds with an open standard output", "why_tests_cant": "A test shows single values; that the operand order alone decides between the right result and 0 for every k is an induction over the recursion with the evaluator's shared scope.", "anchors": ["src/expr.rs:603-616: Self::Macro in eval_mut", "src/parser.rs: parse_script", "src/binary/init/operator_module.rs: add, sub, mul, lt", "src/bin.rs:535-537: run_text"]}
{"id": "C105", "title": "A pipeline hangs when a program in its middle answers long input while reading it", "statement": "(A pipeline that would finish in any other shell may never finish here.) The shell gives a program in a pipeline all of its input before it takes any of its output. If the program ends when given its whole input, then on every schedule of shell and program: if the shell gets through, it goes on with exactly what the program writes on that input; it reports `error when piping into process` only if the program leaves input unread; and within a bounded number of steps it is either through or both wait for each other. They never wait for each other if the program is the last one, or its input fits into a pipe, or it writes nothing before the end of its input. But if it is not the last, reads as long as there is input and holds back at most h bytes, then with more than 2*cap + h bytes of input no schedule gets the shell through, and all come to a standstill. For a program copying byte by byte the bound is exact: it gets through on all schedules exactly up to 2*cap + 1 bytes (131073 with 64 KiB pipes).", "quantifier": "for all programs (as automata that read, write and exit), all inputs, all pipe capacities and all schedules", "why_tests_cant": "Schedules are unbounded and small inputs always succeed; that long inputs never do on any schedule needs an invariant over all interleavings.", "anchors": ["src/binary/init/operator_module.rs:349-420: pipe_builtin, write_all before wait_with_output / wait"]}
{"id": "C106", "title": "The calendar of the default prelude is right for every date", "statement": "After the calendar functions of the default prelude have been entered, and whatever is redefined afterwards: `is-leapyear y` is True exactly for the leap years of the Gregorian calendar, for every 64-bit year; `days-in-month m y` is the length of the month; `day-of-week m d y` is the day of the week (Sunday 0), where the first of January of the year 1 is a Monday and each day is followed by the next; and `make-calendar m d y` is a box titled `Calendar` of 10 rows of 30 characters with the date in the middle of the first line, the names of the days, and below each name exactly the days of the month that fall on it, week after week, with a star at day d; no week is ever cut off. (The formulas use floats; years are bounded by what division of floats gives exactly, and by 10^12 for the title to fit.)", "quantifier": "for all 64-bit years (leap years), all months and years (lengths), all dates from the year 1 on (weekday and page), all environments in which the operators are the usual ones when the definitions are entered", "why_tests_cant": "There are infinitely many dates, and the weekday formula, the string arithmetic of the page and the fixed height of the box agree only by number theory (the Gregorian cycle is 146097 days) and an invariant of the loops.", "anchors": ["src/.default-dune-prelude:630-707: is-leapyear, days-in-month, day-of-week, MONTHS, make-calendar", "src/binary/init/widget_module.rs: create", "src/expr.rs:476-677: eval_mut"]}
{"id": "C107", "title": "After the default prelude, `exit`, `quit` and `q` leave the shell with status 0, whatever status is asked for", "statement": "The default prelude redefines `exit` and defines `quit` and `q`. Afterwards, whatever is redefined except these names and `OLD-EXIT`: `exit a`, `quit a` and `q a` evaluate `a` once, assign its value to the variable `_` and leave with status 0; so the status a script asks for with `exit 3` is lost. If evaluating `a` fails, the shell is not left. At the prompt `exit`, `quit` or `q` alone leaves the shell with status 0; as a statement of a script before other statements it does nothing at all. Entering the definitions changes only these four names.", "quantifier": "for all argument expressions and their effects, all environments in which `exit` was the usual one when the prelude was entered, all worlds; for scripts all following statements", "why_tests_cant": "The status does not depend on the argument for any argument, and that a statement has no effect before any other statement is a claim about all programs; a test sees single ones.", "anchors": ["src/.default-dune-prelude:52-55: OLD-EXIT, quit, q, exit", "src/bin.rs:485-520: the interactive loop calls the macro a line evaluates to", "src/binary/init/os_module.rs:13-30: exit", "src/expr.rs:559-640: application of macros"]}
{"id": "C108", "title": "`include f` runs the program in a file here, `use f` runs it aside", "statement": "After the default prelude, for a file that contains a program: `include f` has the result, the effects and the assignments of this program; `use f` has its result (or its error, or its exit) and its effects, but its assignments are undone. In both cases the name of the file is first assigned to the variable `file` of the caller, so a variable `file` is lost. If the file cannot be read, or its text is not a program, both fail with this error, and nothing is run. Entering the definitions changes only the name defined.", "quantifier": "for all file names and programs, all environments in which `fs`, `parse`, `exec`, `eval` and `@` have not been redefined, all file systems that satisfy the laws of files", "why_tests_cant": "The equality with running the program is for every program, including failing, exiting and effectful ones.", "anchors": ["src/.default-dune-prelude:35-36: include, use", "src/binary/init/fs_module.rs: read", "src/binary/init/parse_module.rs: expr", "src/binary/init/mod.rs: exec, eval"]}
{"id": "C109", "title": "`concat` and `get` of the default prelude", "statement": "After the default prelude, `concat a b` is the text of b followed by the text of a, for values of every kind, and `get k t` is what is found in the dictionary or list t under the key or position k, and None if there is none. Both hold also after `str`, `+` or `@` has got another meaning, because functions keep the meanings from their definition. Entering a definition changes only the name defined.", "quantifier": "for all values, dictionaries, lists, keys and positions; all environments in which the operators were the usual ones when the definition was entered", "why_tests_cant": "The functions are written in the shell's language; that they keep their meaning under every later redefinition, and are total for absent keys and positions, is for all environments and values.", "anchors": ["src/.default-dune-prelude:37: get", "src/.default-dune-prelude:39: concat", "src/expr.rs:559-640: application of functions"]}
{"id": "C110", "title": "The factorial of a float is far from the factorial (disagreement)", "statement": "`math@fact` of the float n (n a whole number from 1 to 10^9) is not the factorial of n, as its description says, but, on floating-point arithmetic that is exact to 40 bits, at least a fifth too great for n up to 4 and at least three tenths too small from 5 on (for 5.0 it is about 76 instead of 120). The formula in the source raises e to the square of the logarithm instead of n ln n - n.", "quantifier": "for all floats with a whole value from 1 to 10^9, all argument expressions that yield them, all floating-point arithmetic with errors of at most 2^-40 of the result", "why_tests_cant": "That the result is wrong for every n, and by how much, is a statement about real numbers and error bounds over a billion inputs and every admissible arithmetic.", "anchors": ["src/binary/init/math_module.rs:134-157: fact"]}
{"id": "C111", "title": "Arithmetic with floats is the nearest float, and exact for whole numbers up to 2^53", "statement": "On IEEE 754 floats, `a + b`, `a - b`, `a * b` and `a // b` (b not 0) of two floats, or of a float and an integer of at most 2^53, in either order, is the float nearest to the exact result, and exactly the result if that is a whole number of at most 2^53; `//` with a float does not cut off the fraction. `int` of a float cuts off the fraction, towards 0. Beyond 2^53 an integer that meets a float is changed silently: 9007199254740993 + 0.0 is not 9007199254740993.", "quantifier": "for all finite floats and integers up to 2^53 with results up to 2^1000, all operand expressions that yield them", "why_tests_cant": "Exactness over 2^107 pairs of operands, of any mixture of types.", "anchors": ["src/expr.rs: Add, Sub, Mul, Div (680-778)", "src/binary/init/operator_module.rs: + - * //", "src/binary/init/mod.rs: int (198-219)"]}
{"id": "C112", "title": "`ssh` and `scp` of the default prelude start the program once, with the address as one argument", "statement": "After the default prelude's definitions, `ssh host user` starts the program ssh (not the shell's own `ssh` again) exactly once, in the shell's current directory, with exactly the two arguments `-X` and `user@host`, and `scp host user src dst` starts scp with `-r`, the source (each element of a list as one argument), and `user@host:dst` as one argument, whatever spaces, quotes or other characters the texts have and whatever `str` and `+` mean by then. The definitions change no other name, a call changes no variable of the caller, and it fails exactly if the program could not be started. Contrary to what a user expects, a user name that begins with `-` reaches ssh as an option.", "quantifier": "for all values of the arguments, all expressions that yield them, all environments (with `str` and `+` standard when the definition is entered, and no variable named -X or -r), all hosts and all answers of the system", "why_tests_cant": "The arguments pass through string building, argument flattening and process start; no finite set of texts shows that none is split, dropped or taken for something else.", "anchors": ["src/.default-dune-prelude:41-48", "src/bin.rs:32: DEFAULT_PRELUDE", "src/expr.rs:541-640: program call, closures"]}
{"id": "C113", "title": "`fs@glob` gives all matches, short below the current directory; it crashes on invalid patterns and ignores `sys@cd`", "statement": "`fs@glob p` asks the system once for the matches of the text of p as it is, and gives all of them, in the system's order and none twice or lost, each without the path of the current directory in front if it is below it (component by component: /home/me2 is not below /home/me) and otherwise unchanged; it fails if a match cannot be read. After a `cd` it finds what is in the directory entered. Contrary to what a user expects, an invalid pattern ends the shell instead of being an error, and after `sys@cd` relative patterns still look in the old directory although the current directory is the new one.", "quantifier": "for all patterns, all expressions that yield them, all sets of matches, all directories, all systems", "why_tests_cant": "The cutting of paths is by components, over unbounded names and depths, and depends on two notions of current directory that only differ after certain commands.", "anchors": ["src/binary/init/fs_module.rs:325-346: glob", "src/binary/init/sys_module.rs: cd", "src/binary/init/os_module.rs:33-81: cd"]}
{"id": "C114", "title": "`~ x` of the default prelude is the full path of x in the home directory", "statement": "After the default prelude's definition, `~ x` asks the system once for the full path of HOME/x and gives its answer, or fails if there is no such path; it does nothing else and changes no variable. HOME is that of the moment of the definition: neither `cd`, nor a later change of HOME, nor another meaning of `str`, `+`, `|`, `@` or `fs` changes the result. The definition changes no other name.", "quantifier": "for all home directories (absolute paths), all values of x and all expressions that yield them, all later environments, all current directories, all answers of the system", "why_tests_cant": "Independence of everything that happens between definition and use is a statement about all environments.", "anchors": ["src/.default-dune-prelude:50", "src/binary/init/fs_module.rs:165-175: canon", "src/binary/init/operator_module.rs:300-449: |"]}
{"id": "C115", "title": "`$ g` of the default prelude lists the names in which the text g occurs once; it knows no patterns", "statement": "After the default prelude's definition, `$ g`, for a text or an unquoted word g, lists the current directory once and gives, in the order of the system and with `./` before them, exactly the names (with the `./`) in which g occurs and does not occur again after its first occurrence. It does nothing else, but leaves g in the caller's variable GLOB; a user variable arg0 (see C63) does not matter. It is no pattern matching (disagreement): with a `*` nothing is found unless a name contains a `*`, and a name in which g occurs twice is left out. If the directory does not exist any more it fails.", "quantifier": "all directories, names and non-empty texts g", "why_tests_cant": "All names; the search runs through a pipeline, a library function written in the language, a closure and a function curried in the closure.", "anchors": ["src/.default-dune-prelude: $ (33)", "src/binary/init/fs_module.rs: ls, list_directory", "src/binary/init/fn_module.rs: filter (158-204)", "src/binary/init/operator_module.rs: pipe_builtin", "src/expr.rs: macro application"]}
{"id": "C116", "title": "`math@PI`, `math@TAU` and `math@E` are the floats nearest to π, 2π and e; degrees and radians convert accurately", "statement": "`math@PI`, `math@TAU` and `math@E` give the floats nearest to π, 2π and e: no other finite float is nearer. `2 * math@PI == math@TAU` is true. For every number x (a finite float, or an integer of at most 2^53), `x * math@PI // 180` differs from xπ/180 by at most a 2^50th of it, and `x // math@PI * 180` likewise from 180x/π (if the results are not tiny).", "quantifier": "all floats (nearest), all numbers x up to 2^900, all worlds, all environments that keep the library, all platforms with IEEE 754 arithmetic", "why_tests_cant": "that a float is nearest to a transcendental number needs a proof about that number; accuracy for all floats cannot be sampled", "anchors": ["src/binary/init/math_module.rs:7-9", "src/expr.rs: Mul, Div (738-778)"]}
{"id": "C117", "title": "In a directory that cannot be entered, Tab completes the word at the end of the line; in the middle of a line it repeats text (false)", "statement": "If the current directory cannot be entered (it is gone, or access is denied) and the cursor is at the end of the line, the completer is asked about the last word (as it is if absolute, else below the directory), and accepting a proposal puts the rest of the name after the line and changes nothing else. Contrary to what a user expects, accepting a proposal in the middle of a line puts the text after the cursor there twice, and if a blank or bracket follows the cursor, the word before it plays no role: the names in the directory are proposed.", "quantifier": "all lines, cursors, directories, words whose paths have no empty or dot names, and all answers of rustyline's file name completer that replace the whole asked path", "why_tests_cant": "all lines with all cursor positions, in a state (no usable current directory) that is hard to set up and needs a terminal", "anchors": ["src/bin.rs: complete (127-181)"]}
{"id": "C118", "title": "weather-api asks for exactly the city, the units and the key", "statement": "After the definition of `weather-api` of the default prelude was entered while `WEATHER-API-KEY` is the text k, `weather-api units city` starts the program curl exactly once, in the current directory, with the two arguments `--silent` and `http://api.openweathermap.org/data/2.5/weather?q=` + city + `&units=` + units + `&appid=` + k, collects its output, and its result is exactly what `parse@json` gives for that output (a failure if curl cannot be run); it uses the key of the time of the definition, even if the variable or one of the functions `str`, `+`, `==`, `|`, `@`, `parse`, `fmt`, `echo` has another meaning when it is called, and no variable of the caller changes. With the key None it prints the request to set a key in red italics, and starts no program. Contrary to what a user expects, the texts are not encoded: a city with a space in its name gives an address with a space, and a city that contains `&units=` changes the units of the question.", "quantifier": "all texts of the city, the units and the key, all environments, directories, worlds and behaviours of curl", "why_tests_cant": "the address depends on three arbitrary texts and on an environment captured at an earlier time; a test would need a network and could only try some cities", "anchors": ["src/.default-dune-prelude:283-295", "src/binary/init/operator_module.rs:300-450", "src/binary/init/parse_module.rs:33-47"]}
{"id": "C119", "title": "get-weather-ascii of the default prelude has a fitting picture for every description", "statement": "After the two definitions of the default prelude for the pictures of the weather have been entered, `get-weather-ascii` of a text gives the picture of the row of the table of descriptions that contains exactly this text, and the picture Unknown for every other text and for None; it has no effect, changes no variable, and goes on to do so if the table of the pictures or one of the operators gets another meaning later. Entering the definitions changes only the two names. Whatever the text, the picture has at most 5 lines of at most 13 characters, so it fits into the widget that shows it (15 by 7 with its border). The case of letters matters: `Snow` has a picture and `snow` has not. The picture of a thunderstorm with snow is never shown.", "quantifier": "for all descriptions, environments that keep the three operators, later environments, worlds, expressions that give the description", "why_tests_cant": "There are infinitely many descriptions; that none of them makes the widget fail, that the 21 alternatives of the chained conditional are tried in an order that hides none of the 55 descriptions, and that one of the pictures cannot be reached, are statements about all of them.", "anchors": ["src/.default-dune-prelude:83-174", "src/.default-dune-prelude:215-280", "src/parser.rs", "src/expr.rs"]}
{"id": "C120", "title": "A game of chess follows the rules of its loop, and True means a victory of the player by legal moves", "statement": "In a shell compiled with the feature `chess-engine`, for every engine: `chess` with the word `white` or `black`, as a name or as a text, plays a game in which the machine makes the engine's best move when it is not the turn of the player; a line of the player is, without the white space around it, one of the words q, quit, exit, which end the game with False, or a move; an empty line, a line that is no move, and an illegal move are reported on standard error and leave the board as it is; a victory, a draw and the end of the input end the game, with True exactly for a victory of the player. What is said on both streams is determined, lines after the end are not read, and no variable changes. Every game that ends is of this kind, and every course of this kind is the course of a game. If the value is True, then legal moves lead from the first board to the victory of the player, those of the player having been typed and the others being the best moves of the engine. Any other argument is an error without any effect; the argument is not evaluated, so a variable with a color in it is no color. If the engine's best first move is not legal, the game never ends and the player is never asked.", "quantifier": "for all engines, players (worlds that answer with lines and then with the end of the input), colors, numbers of rounds, environments", "why_tests_cant": "The game is a loop without a bound that is driven by what a person types and by an engine; a test plays one game with one engine.", "anchors": ["src/binary/init/chess_module.rs:3-80", "src/bin.rs:84-103"]}
{"id": "C121", "title": "set-weather-api-key of the default prelude needs the city too: with the key alone, no weather function appears", "statement": "After the definition of `set-weather-api-key` of the default prelude has been entered, which changes only this name, `set-weather-api-key KEY` sets the variable WEATHER-API-KEY of the caller to the value of KEY and does nothing else: no other variable changes, and nothing happens outside. Only with a second argument are WEATHER-API-KEY and CITY set, the second argument being evaluated after the key is set, and then `reload-weather-api ()` evaluated in the environment of the caller, whose definitions stay; with the macro of the prelude, which defines `weather-api` (C118) and some function `weather`, `weather-api` is there afterwards and downloads with the key given. The default prelude itself calls the macro with None alone; after that the key is None and, if it was not defined before, `weather-api` is not: calling it starts a program of this name, and where there is none the error is that the program was not found, instead of the message that asks for the key.", "quantifier": "for all environments, worlds, keys and cities given by expressions without effects, and all bodies of reload-weather-api that succeed without effects outside the shell (as that of the prelude, which only defines functions)", "why_tests_cant": "The missing argument is no error but gives a macro, so only a statement about all variables shows that nothing was defined.", "anchors": ["src/.default-dune-prelude:351-356", "src/expr.rs:603-620"]}
{"id": "C122", "title": "The file with the secrets runs in the prelude, but the city it sets is lost", "statement": "The default prelude looks for the file `.dune-secrets` in the home directory. If it is not there, nothing happens. If it contains a program, this program runs with the variables of the prelude, as with `include`: value, errors, effects and assignments are those of the program, and besides only the variable `file` is assigned. But then the prelude sets CITY to the name Knoxville: whatever city the program has set (with `set-weather-api-key` or by an assignment), CITY is Knoxville when the shell starts. All other variables are as the program has left them.", "quantifier": "for all programs in the file, all environments in which the functions used are not redefined and Knoxville has no meaning, all file systems that satisfy the laws of files", "why_tests_cant": "The program in the file is arbitrary; that every program loses exactly one variable is a statement about all of them.", "anchors": ["src/.default-dune-prelude:739-746", "src/.default-dune-prelude:35", "src/binary/init/fs_module.rs:235-240"]}
{"id": "C123", "title": "Which commands the default prelude replaces: `cat` and `ls` become `bat` and `lsd` where Cargo has installed them", "statement": "On Windows the default prelude makes rm, cp, mv, mkdir, rmdir and cat functions of the module fs (cat is fs@read) and redefines ls; nothing happens outside, and no other name changes. Elsewhere it looks for two files in the home directory: if `.cargo/bin/bat` is there, `cat` means the program bat, and if `.cargo/bin/lsd` is there, `ls` means lsd; without the files the commands are as before, and no other name changes in any case. Then `cat a b …` starts the program bat, once, with these arguments, in the current directory, with the exported variables. So where the file is there but bat cannot be found by its name, `cat` fails with the error that bat was not found, although there may be a program cat.", "quantifier": "for all environments in which the functions used are not redefined, all systems and home directories, all answers of the file system, all arguments", "why_tests_cant": "All combinations of systems and installed programs, and all names that must not change, are covered.", "anchors": ["src/.default-dune-prelude:358-374", "src/expr.rs:532-584", "src/binary/init/os_module.rs:5-13"]}
{"id": "C124", "title": "`help` shows the pages and texts asked for, in order; where there is none it says nothing (false)", "statement": "`help a b ..` shows, for its arguments in turn, the page of the manual if the argument is the word me, prelude, types, scripting, builtin, lib or syntax, whatever that word is bound to; otherwise the text of the builtin that the argument gives; and nothing else. It gives None and changes no variable. If an argument fails, the texts of the arguments before it have been shown, those after it are not, and `help` fails in the same way. One would expect a word when there is no help; this is false: for a word without meaning, a function or a macro, and without arguments, nothing is shown. Nor is every function of the library explained: about list@take, list@drop, math@rsh, math@l-rsh, math@a-rsh and math@log nothing is shown, although texts for them are written.", "quantifier": "all lists of arguments, all contents of the pages and of the builtins' texts, all environments in which help is the command, all worlds whose screen can be written", "why_tests_cant": "all argument lists with all bindings of the words, and output on the screen, which a unit test of the function does not see", "anchors": ["src/binary/init/mod.rs: help (63-100)", "src/binary/init/list_module.rs: take, drop (33-36)", "src/binary/init/math_module.rs: l-rsh, a-rsh, rsh, log"]}
{"id": "C125", "title": "The user's directories have two names that agree; without such a directory, `cd HOME` goes to a directory called HOME (false)", "statement": "When the shell has started, each of the directories home, desktop, documents and downloads that the system knows is the value of its variable (HOME, DESK, DOCS, DOWN) and of its member of fs@dirs (home, desk, docs, down). The current directory is that in which the shell was called, else the home directory, else /. One would expect an error when a directory is asked for that the system does not know; this is false: the variable is then the word itself and the member is None, and `cd HOME` succeeds if there is a directory called HOME in the current directory, to which it goes.", "quantifier": "all machines (which of the directories exist, their paths, all members not modelled), all worlds, all four directories", "why_tests_cant": "the directories depend on the machine on which the tests run; a test sees one combination of them", "anchors": ["src/binary/init/fs_module.rs: get (42-73, 111)", "src/env.rs: get_cwd", "src/binary/init/os_module.rs: cd"]}
{"id": "C126", "title": "os@name and os@family tell Windows and unknown systems apart; os@family is not `linux` on every Linux (false)", "statement": "When the shell has started, os@name and os@family are texts; both are `windows` exactly on Windows, both are `unknown` exactly on systems that the shell does not know by name, and the names of different known systems differ. os@version is the text that the system gives. One would expect os@family to be `linux` on every Linux distribution; this is false exactly on Amazon Linux, where it is `android`, and on Solus, where it is `unix`.", "quantifier": "all systems, all versions, all worlds, all machines (directories and members not modelled)", "why_tests_cant": "a test sees the system on which it runs", "anchors": ["src/bin.rs: get_os_name, get_os_family (375-431)", "src/binary/init/os_module.rs:6-13"]}
{"id": "C127", "title": "The module shell tells what was so at the start: one suggestion for the whole session, and a prelude that may be out of date (false)", "statement": "shell@suggestion is a line of the file of suggestions and not empty. One would expect a new one each time; this is false: it is the same line whenever it is asked for. shell@prelude is the path of .dune-prelude in the home directory if the file was there when the shell started, and None otherwise. One would expect it to tell whether the file is there; this is false: after a start without the file it is None in every world, also after the shell itself has written the file. shell@version is the version, shell@path the path of the program or None, and shell@git and shell@homepage are the same address.", "quantifier": "all random choices, all machines, versions and paths, all worlds and thus all later states of the file system", "why_tests_cant": "a test sees one choice of the random generator and one machine; that a value never changes is not visible in a test", "anchors": ["src/binary/init/shell_module.rs: get (7-46)", "src/binary/help/suggestions.txt"]}
{"id": "C128", "title": "The dashboard shows the whole picture it has drawn by lot (false for two of the four flowers)", "statement": "After the default prelude has defined CATS and PLANTS, the box of the cat, widget@create \"Cat\" (rand@choose CATS) 20 10, is ten rows of twenty characters and shows all lines of one of the cats, whatever the random generator answers. One would expect the same of the box of the flower, widget@create \"Flower\" (rand@choose PLANTS) 14 11; this is true of the third and the fourth flower but false of the first, whose last line, the ground, is left out since the picture has ten lines and the box room for nine, and of the second, whose last line is too long for the box in every way of wrapping.", "quantifier": "all sources of random numbers, all environments with the library, all ways of wrapping texts that keep lines that fit (for the second flower: all that give lines that fit)", "why_tests_cant": "the picture is chosen at random, so a test of the dashboard sees one picture, and only if there is a key for the weather does it see a flower", "anchors": ["src/.default-dune-prelude: PLANTS (176-213), CATS (399-437), dashboard (716-735)", "src/binary/init/widget_module.rs: create", "src/binary/init/rand_module.rs: choose"]}
{"id": "C129", "title": "The widgets of the dashboard always fit beside each other", "statement": "The dashboard joins the page of the month and the box with the cat by widget@joinx, which refuses pictures of different heights. After the default prelude has defined them, and if now is a dictionary with the month, the day and the year of a date, the text of this expression in the prelude gives a picture of ten rows of fifty characters, the page of the month at the left and the box with all of one of the cats at the right. So the dashboard without the weather never fails. With the weather, it shows these widgets above the box of a flower and the widget of the weather: if the latter has eleven rows of thirty-six characters, then the whole is a picture of twenty-one rows of fifty characters, whatever flower is drawn.", "quantifier": "all valid dates up to the year for which the divisions are exact, all sources of random numbers, all environments with the library, all worlds", "why_tests_cant": "a test of the dashboard sees the date of today and one cat; that the pages of all months and the boxes of all cats have the same height needs all of them", "anchors": ["src/.default-dune-prelude: dashboard (716-734), make-calendar (683-707), CATS (399-437)", "src/binary/init/widget_module.rs: joinx (111-152), joiny (154-191)"]}
{"id": "C130", "title": "The widget of the weather has the same size with and without data", "statement": "The function weather of the default prelude ends with one of two expressions: the widget of the data that were received, and the widget with question marks if there are none. Each is a header in a box of four rows above two boxes of seven rows, the numbers and the picture, and is a picture of eleven rows of thirty-six characters whose corners are not blank, which is what the dashboard needs to put it beside the flower and below the calendar. This holds whatever the header, the numbers and the picture are, as long as the library wraps them to lines that fit; lines that there is no room for are left out.", "quantifier": "all texts, all ways of wrapping them to lines that fit, all environments with the library, all worlds", "why_tests_cant": "the data come from a server and are different each time; a test sees those of one moment", "anchors": ["src/.default-dune-prelude: weather (327-331, 334-338, 342-346), WEATHER-ASCII (83-174)", "src/binary/init/widget_module.rs: create (13-109), joinx (111-152), joiny (154-191)"]}
{"id": "C131", "title": "The banner has the right sign for every hour", "statement": "The welcome banner of the default prelude shows a sign for the time of the day, chosen by a chain of comparisons. If now is a dictionary whose hour is an integer, then entering the statement gives time-emoji the sign of the night for the hours up to six and those after eighteen, the sign of the morning for those up to ten and the sign of the day for those up to eighteen, and changes nothing else; there is a sign for every integer, so the banner never fails here.", "quantifier": "all integers as hours, all environments with the library, all worlds", "why_tests_cant": "a test sees the hour at which it runs", "anchors": ["src/.default-dune-prelude: welcomebanner (584-587)"]}
