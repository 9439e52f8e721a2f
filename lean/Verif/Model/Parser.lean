import Verif.Model.Tokenizer

/-!
The parser (src/parser.rs), with the combinators of nom 7.0.0 it uses.

Simplifications: a token carries its source text (`Token::text` slices the source by the range of
the token); the hint texts of errors are omitted; `nom::Err::Incomplete` is left out, since no
parser here returns it.

Recursion: every parser below is defined from `one`, the parser for atoms
(`parse_expression_prec_one`) one nesting level further in; `parseOne` ties the knot with a fuel
that bounds the nesting.
-/

namespace Dune

/-- `snailquote::unescape` (external crate), as far as it is reached on string literals: the state
is whether the position is inside double quotes.  `none` is `Err`. -/
def unescapeGo : Nat → Bool → Str → Option Str
  | 0, _, _ => none
  | _ + 1, _, [] => some []
  | n + 1, true, '"' :: s => unescapeGo n false s
  | n + 1, false, '"' :: s => unescapeGo n true s
  | n + 1, true, '\\' :: c :: s =>
    match c with
    | 'a' => (unescapeGo n true s).map (Char.ofNat 7 :: ·)
    | 'b' => (unescapeGo n true s).map (Char.ofNat 8 :: ·)
    | 'v' => (unescapeGo n true s).map (Char.ofNat 11 :: ·)
    | 'f' => (unescapeGo n true s).map (Char.ofNat 12 :: ·)
    | 'n' => (unescapeGo n true s).map ('\n' :: ·)
    | 'r' => (unescapeGo n true s).map ('\r' :: ·)
    | 't' => (unescapeGo n true s).map ('\t' :: ·)
    | 'e' => (unescapeGo n true s).map (Char.ofNat 27 :: ·)
    | 'E' => (unescapeGo n true s).map (Char.ofNat 27 :: ·)
    | '\\' => (unescapeGo n true s).map ('\\' :: ·)
    | '\'' => (unescapeGo n true s).map ('\'' :: ·)
    | '"' => (unescapeGo n true s).map ('"' :: ·)
    | '$' => (unescapeGo n true s).map ('$' :: ·)
    | '`' => (unescapeGo n true s).map ('`' :: ·)
    | ' ' => (unescapeGo n true s).map (' ' :: ·)
    | 'u' =>
      match s with
      | '{' :: s =>
        let hex := s.takeWhile fun c => c ≠ '}'
        let rest := (s.dropWhile fun c => c ≠ '}').drop 1
        if hex ≠ [] ∧ hex.all Lex.isHexDigit ∧ Lex.isScalar (Lex.hexNum hex) then
          (unescapeGo n true rest).map (Char.ofNat (Lex.hexNum hex) :: ·)
        else none
      | _ => none
    | _ => none
  | _ + 1, true, ['\\'] => none
  | n + 1, q, c :: s => (unescapeGo n q s).map (c :: ·)

/-- `snailquote::unescape`; the fuel suffices for every input. -/
def unescape (s : Str) : Option Str := unescapeGo (s.length + 1) false s

namespace Parse

/-- A token with its text (src/tokens.rs:87-102). -/
structure Tok where
  kind : TokenKind
  text : Str
  range : Range

/-- `IResult<Tokens, α, SyntaxError>`, with panics and exhausted fuel explicit: the remaining
tokens and the value, `nom::Err::Error`, `nom::Err::Failure`. -/
inductive PR (α : Type)
  | ok (i : List Tok) (a : α)
  | error (e : SyntaxError)
  | failure (e : SyntaxError)
  | panic
  | noFuel

/-- What the parser reads besides the tokens: the platform (`str::parse::<f64>`), and the empty
range at the end of the source (src/tokens.rs:165-168). -/
structure Ctx where
  plat : Plat
  eoi : Range

/-- A parser. -/
abbrev Parser (α : Type) := List Tok → PR α

variable {α β : Type}

namespace PR

/-- the `?` operator -/
def bind : PR α → (List Tok → α → PR β) → PR β
  | .ok i a, f => f i a
  | .error e, _ => .error e
  | .failure e, _ => .failure e
  | .panic, _ => .panic
  | .noFuel, _ => .noFuel

/-- `nom::combinator::map` -/
def map (f : α → β) (r : PR α) : PR β := r.bind fun i a => .ok i (f a)

/-- `.map_err(|_| SyntaxError::unrecoverable(..))` -/
def orFail (r : PR α) (e : SyntaxError) : PR α :=
  match r with
  | .error _ => .failure e
  | .failure _ => .failure e
  | r => r

/-- `.map_err(|_| SyntaxError::expected(..))` -/
def orError (r : PR α) (e : SyntaxError) : PR α :=
  match r with
  | .error _ => .error e
  | .failure _ => .error e
  | r => r

/-- use the second result if the first is an `Error` -/
def orElse (r s : PR α) : PR α :=
  match r with
  | .error _ => s
  | r => r

/-- `if let Ok(..) = r { .. } else { s }`: use the second result if the first is any `Err` -/
def orElseAny (r s : PR α) : PR α :=
  match r with
  | .error _ => s
  | .failure _ => s
  | r => r

end PR

/-- `Tokens::get_str_slice` (src/tokens.rs:162-170) -/
def strSlice (C : Ctx) : List Tok → Range
  | [] => C.eoi
  | t :: _ => t.range

/-- `input.first().map(|t| t.range)` -/
def firstRange : List Tok → Option Range
  | [] => none
  | t :: _ => some t.range

/-- `SyntaxError::expected` and `unrecoverable` (src/parser.rs:38-66), without the `nom::Err`. -/
def expect (C : Ctx) (i : List Tok) (what : Str) (found : Option Str := none) : SyntaxError :=
  .expected (strSlice C i) what found

/-- `ParseError::or` (src/parser.rs:93-98) -/
def errOr (a b : SyntaxError) : SyntaxError :=
  match a with
  | .internalError => b
  | a => a

/-! ### nom -/

/-- the loop of `nom::branch::alt`, with the error so far -/
def altGo (i : List Tok) : SyntaxError → List (Parser α) → PR α
  | err, [] => .error (.nomErrorBy c!"Alt" (firstRange i) err)
  | err, p :: ps =>
    match p i with
    | .error e => altGo i (errOr err e) ps
    | r => r

/-- `nom::branch::alt` -/
def alt (p : Parser α) (ps : List (Parser α)) : Parser α := fun i =>
  match p i with
  | .error e => altGo i e ps
  | r => r

/-- `nom::multi::many0`, and the loop of `many1`; `kind` is the `ErrorKind` of the infinite loop
check. -/
def manyGo (kind : Str) (p : Parser α) : Nat → Parser (List α)
  | 0, _ => .noFuel
  | n + 1, i =>
    match p i with
    | .error _ => .ok i []
    | .failure e => .failure e
    | .panic => .panic
    | .noFuel => .noFuel
    | .ok i1 a =>
      if i1.length = i.length then .error (.nomError kind (firstRange i))
      else (manyGo kind p n i1).map (a :: ·)

/-- `nom::multi::many0`; the fuel suffices because every round consumes a token. -/
def many0 (p : Parser α) : Parser (List α) := fun i => manyGo c!"Many0" p (i.length + 1) i

/-- `nom::multi::many1` -/
def many1 (p : Parser α) : Parser (List α) := fun i =>
  match p i with
  | .error e => .error (.nomErrorBy c!"Many1" (firstRange i) e)
  | .failure e => .failure e
  | .panic => .panic
  | .noFuel => .noFuel
  | .ok i1 a => (manyGo c!"Many1" p (i1.length + 1) i1).map (a :: ·)

/-- `nom::sequence::pair` -/
def pair (p : Parser α) (q : Parser β) : Parser (α × β) := fun i =>
  (p i).bind fun i a => (q i).map fun b => (a, b)

/-- `nom::sequence::preceded` -/
def preceded (p : Parser α) (q : Parser β) : Parser β := fun i => (p i).bind fun i _ => q i

/-- `nom::sequence::terminated` -/
def terminated (p : Parser α) (q : Parser β) : Parser α := fun i =>
  (p i).bind fun i a => (q i).map fun _ => a

/-- `nom::combinator::opt` -/
def opt (p : Parser α) : Parser (Option α) := fun i => ((p i).map some).orElse (.ok i none)

/-- the loop of `nom::multi::separated_list0`; a round starts with the separator, and if that is
not followed by an element the list ends before it.  (The infinite loop check of nom concerns
separators that consume nothing.) -/
def separatedList0 (sep : Parser β) (p : Parser α) : Parser (List α) := fun i =>
  match p i with
  | .error _ => .ok i []
  | .failure e => .failure e
  | .panic => .panic
  | .noFuel => .noFuel
  | .ok i1 a => (manyGo c!"SeparatedList" (preceded sep p) (i1.length + 1) i1).map (a :: ·)

/-- `nom::combinator::eof` -/
def eof : Parser Unit := fun i =>
  match i with
  | [] => .ok [] ()
  | _ => .error (.nomError c!"Eof" (firstRange i))

/-! ### Tokens -/

/-- `kind` (src/parser.rs:101-107); returns the text at the range. -/
def kind (k : TokenKind) : Parser Tok := fun i =>
  match i with
  | t :: i => if t.kind = k then .ok i t else .error .internalError
  | [] => .error .internalError

/-- `text` (src/parser.rs:109-115) -/
def text (s : Str) : Parser Tok := fun i =>
  match i with
  | t :: i => if t.text = s then .ok i t else .error .internalError
  | [] => .error .internalError

/-- `empty` (src/parser.rs:117-124) -/
def empty : Parser Unit := fun i =>
  match i with
  | [] => .ok [] ()
  | _ => .error .internalError

/-- `no_terminating_punctuation` (src/parser.rs:228-246) -/
def noTermPunct (C : Ctx) : Parser Unit := fun i =>
  match i with
  | t :: _ =>
    if t.kind = .punctuation ∧
        t.text ∈ [c!";", c!",", c!"=", c!"]", c!")", c!"}", c!"|"] then
      .error (expect C i c!"a non-terminating punctuation")
    else .ok i ()
  | [] => .ok i ()

/-- `parse_symbol` (src/parser.rs:248-251) -/
def parseSymbol : Parser Str := fun i => (kind .symbol i).map Tok.text

/-- `parse_integer` (src/parser.rs:253-259); the message of the number parser is abbreviated. -/
def parseInteger : Parser I64 := fun i =>
  (kind .integerLiteral i).bind fun i t =>
    match parseI64 t.text with
    | some n => .ok i n
    | none => .failure (.expected t.range c!"integer" (some c!"error"))

/-- `parse_float` (src/parser.rs:261-272); the message of the number parser is abbreviated. -/
def parseFloat (C : Ctx) : Parser F64 := fun i =>
  (kind .floatLiteral i).bind fun i t =>
    match C.plat.fParse t.text with
    | some n => .ok i n
    | none => .failure (.expected t.range c!"float" (some c!"error"))

/-- `parse_boolean` (src/parser.rs:274-279) -/
def parseBoolean : Parser Bool := fun i => (kind .booleanLiteral i).map fun t => t.text = c!"True"

/-- `()` (src/parser.rs:284-293) -/
def unitParens (C : Ctx) : Parser Unit := fun i =>
  match i with
  | a :: b :: r =>
    if a.text = c!"(" ∧ b.text = c!")" then .ok r () else .error (expect C i c!"None or ()")
  | _ => .error (expect C i c!"None or ()")

/-- `parse_none` (src/parser.rs:281-294) -/
def parseNone (C : Ctx) : Parser Unit := fun i =>
  ((text c!"None" i).map fun _ => ()).orElseAny (unitParens C i)

/-- `parse_string` (src/parser.rs:312-318): `unwrap` panics. -/
def parseString : Parser Str := fun i =>
  (kind .stringLiteral i).bind fun i t =>
    match unescape t.text with
    | some s => .ok i s
    | none => .panic

/-- `parse_operator` (src/parser.rs:734-738) -/
def parseOperator : Parser Str := fun i => (kind .operator i).map Tok.text

/-- `parse_operator_as_symbol` (src/parser.rs:740-742) -/
def operatorAsSymbol : Parser Expr := fun i => (parseOperator i).map .symbol

/-! ### Operators -/

/-- the `while let Some(..) = list.pop()` loops (src/parser.rs:640-649, 720-729, 757-766, 784-793) -/
def leftFold (head : Expr) : List (Tok × Expr) → Expr
  | [] => head
  | (op, item) :: l => leftFold (.group (.apply (.symbol op.text) [head, item])) l

section
variable (C : Ctx) (one : Parser Expr)

/-- `parse_expression_prec_two` (src/parser.rs:797-817) -/
def precTwo : Parser Expr := fun i =>
  (noTermPunct C i).bind fun _ _ =>
  (one i).bind fun i head =>
  (many0 (preceded (text c!"@") (alt one [operatorAsSymbol])) i).bind fun i args =>
  .ok i (if args.isEmpty then head else .apply (.symbol c!"@") (head :: args))

/-- `parse_expression_prec_three` (src/parser.rs:770-795) -/
def precThree : Parser Expr := fun i =>
  (noTermPunct C i).bind fun _ _ =>
  (precTwo C one i).bind fun i head =>
  (many0 (pair (alt (text c!"*") [text c!"//", text c!"%"]) (precTwo C one)) i).bind fun i list =>
  .ok i (leftFold head list)

/-- `parse_expression_prec_four` (src/parser.rs:744-768) -/
def precFour : Parser Expr := fun i =>
  (noTermPunct C i).bind fun _ _ =>
  (precThree C one i).bind fun i head =>
  (many0 (pair (alt (text c!"+") [text c!"-"]) (precThree C one)) i).bind fun i list =>
  .ok i (leftFold head list)

/-- `parse_not` (src/parser.rs:304-310) -/
def parseNot : Parser Expr := fun i =>
  (text c!"!" i).bind fun i _ => (precFour C one i).map fun x => .apply (.symbol c!"!") [x]

/-- the part of a range after its start: `text("to")`, then the end (src/parser.rs:659-674,
696-712) -/
def rangeEnd (head : Expr) (i : List Tok) : PR Expr :=
  ((precFour C one i).orFail (expect C i c!"a valid range expression")).map fun to =>
    .apply (.symbol c!"to") [head, to]

/-- `parse_expression_prec_five` (src/parser.rs:677-732) -/
def precFive : Parser Expr := fun i =>
  (noTermPunct C i).bind fun _ _ =>
  (precFour C one i).bind fun i head =>
  (many0 (pair (alt (text c!"==") [text c!"!=", text c!">=", text c!"<=", text c!">", text c!"<"])
    (precFour C one)) i).bind fun i list =>
  if list.isEmpty then
    match text c!"to" i with
    | .ok i _ => rangeEnd C one head i
    | _ => (parseNot C one i).orElseAny (.ok i head)
  else .ok i (leftFold head list)

/-- `parse_expression_prec_six` (src/parser.rs:628-652) -/
def precSix : Parser Expr := fun i =>
  (noTermPunct C i).bind fun _ _ =>
  (precFive C one i).bind fun i head =>
  (many0 (pair (alt (text c!"&&") [text c!"||"]) (precFive C one)) i).bind fun i list =>
  .ok i (leftFold head list)

/-- `parse_range` (src/parser.rs:654-675) -/
def parseRange : Parser Expr := fun i =>
  (noTermPunct C i).bind fun _ _ =>
  (precFour C one i).bind fun i head =>
  (text c!"to" i).bind fun i _ => rangeEnd C one head i

/-- `parse_apply` (src/parser.rs:526-531) -/
def parseApply : Parser Expr := fun i =>
  (alt (precTwo C one) [operatorAsSymbol] i).bind fun i f =>
  (many1 (precFive C one) i).bind fun i args => .ok i (.apply f args)

/-- `parse_apply_operator` (src/parser.rs:533-542) -/
def parseApplyOperator : Parser Expr := fun i =>
  (operatorAsSymbol i).bind fun i f =>
  (many0 (precFive C one) i).bind fun i args =>
  .ok i (if args.isEmpty then f else .apply f args)

/-- `parse_if` (src/parser.rs:452-488); the fuel bounds the number of `else if`s. -/
def parseIfN : Nat → Parser Expr
  | 0, _ => .noFuel
  | n + 1, i =>
    (text c!"if" i).bind fun i _ =>
    ((precSix C one i).orFail (expect C i c!"condition expression")).bind fun i cond =>
    ((precFour C one i).orFail (expect C i c!"then expression")).bind fun i t =>
    (opt (preceded (text c!"else") (alt (parseIfN n) [precFour C one])) i).bind fun i e =>
    .ok i (.ite cond t (match e with
      | some e => .group e
      | none => .none))

/-- `parse_if`; the fuel suffices because every `if` consumes a token. -/
def parseIf : Parser Expr := fun i => parseIfN C one (i.length + 1) i

end

/-! ### Statements and expressions, given the parser for `parse_expression` -/

section
variable (C : Ctx) (expr : Parser Expr)

/-- `parse_statement` (src/parser.rs:185-201) -/
def parseStatement : Parser Expr := fun i =>
  (expr i).bind fun i e =>
    match text c!";" i with
    | .ok i _ => .ok i e
    | _ =>
      match e with
      | .for_ .. => .ok i e
      | .ite .. => .ok i e
      | _ => .error (expect C i c!";")

/-- `parse_script_tokens` (src/parser.rs:203-226) -/
def parseScriptTokens (requireEof : Bool) : Parser Expr := fun i =>
  (many0 (parseStatement C expr) i).bind fun i exprs =>
  (opt (terminated expr (opt (text c!";"))) i).bind fun i last =>
  let exprs := exprs ++ last.toList
  if requireEof then
    ((eof i).orError (expect C i c!"end of input")).map fun _ => .do_ exprs
  else .ok i (.do_ exprs)

/-- `parse_block` (src/parser.rs:511-524) -/
def parseBlock : Parser Expr := fun i =>
  (text c!"{" i).bind fun i _ =>
  (parseScriptTokens C expr false i).bind fun i e =>
  ((text c!"}" i).orFail (expect C i c!"`}`" (some c!"no matching `}`"))).map fun _ => e

/-- `parse_assign` (src/parser.rs:320-341) -/
def parseAssign : Parser Expr := fun i =>
  (text c!"let" i).bind fun i _ =>
  ((alt parseSymbol [parseOperator] i).orFail (expect C i c!"symbol")).bind fun i x =>
  ((text c!"=" i).orFail (expect C i c!"`=`")).bind fun i _ =>
  (expr i).map fun e => .assign x e

/-- `parse_group` (src/parser.rs:343-357) -/
def parseGroup : Parser Expr := fun i =>
  (text c!"(" i).bind fun i _ =>
  (expr i).bind fun i e =>
  ((alt (fun i => (text c!")" i).map fun _ => ()) [empty] i).orFail
    (expect C i c!"`)`" (some c!"no matching parentheses"))).map fun _ => .group e

/-- `parse_list` (src/parser.rs:359-372) -/
def parseList : Parser Expr := fun i =>
  (text c!"[" i).bind fun i _ =>
  (separatedList0 (text c!",") expr i).bind fun i l =>
  ((text c!"]" i).orFail (expect C i c!"`]`" (some c!"no matching `]`"))).map fun _ => .list l

/-- one entry of a map literal (src/parser.rs:378-382) -/
def parseEntry : Parser (Str × Expr) := fun i =>
  (alt parseSymbol [parseOperator] i).bind fun i k =>
  (text c!"=" i).bind fun i _ => (expr i).map fun e => (k, e)

/-- `parse_map` (src/parser.rs:374-407); the collected pairs become a `BTreeMap`, so a later entry
replaces an earlier one with the same key. -/
def parseMap : Parser Expr := fun i =>
  (text c!"{" i).bind fun i _ =>
  (separatedList0 (text c!",") (parseEntry expr) i).bind fun i l =>
  (if l.isEmpty then
      (text c!"}" i).orError (expect C i c!"`}`" (some c!"no matching `}`"))
    else (text c!"}" i).orFail (expect C i c!"`}`" (some c!"no matching `}`"))).map fun _ =>
    .map (BMap.ofList l)

/-- `parse_callable` (src/parser.rs:490-509) -/
def parseCallable : Parser Expr := fun i =>
  (parseSymbol i).bind fun i x =>
  (alt (text c!"->") [text c!"~>"] i).bind fun i op =>
  ((expr i).orFail (expect C i c!"an expression")).map fun body =>
    if op.text = c!"->" then .lambda x body [] [] else .macro_ x body

end

section
variable (C : Ctx) (one : Parser Expr)

/-- `parse_for_loop` (src/parser.rs:409-450); `expr` is `parse_expression` -/
def parseFor (expr : Parser Expr) : Parser Expr := fun i =>
  (text c!"for" i).bind fun i _ =>
  ((parseSymbol i).orFail (expect C i c!"symbol")).bind fun i x =>
  ((text c!"in" i).orFail (expect C i c!"`in` keyword")).bind fun i _ =>
  ((alt (parseRange C one) [precFour C one] i).orFail
    (expect C i c!"iterable expression")).bind fun i l =>
  ((parseBlock C expr i).orFail (expect C i c!"block")).map fun body => .for_ x l body

/-- `parse_expression_prec_seven` (src/parser.rs:615-626); `expr` is `parse_expression` -/
def precSeven (expr : Parser Expr) : Parser Expr := fun i =>
  (noTermPunct C i).bind fun _ _ =>
  alt (parseFor C one expr) [parseIf C one, parseAssign C expr, parseCallable C expr,
    parseApply C one, parseApplyOperator C one, precSix C one] i

/-- the loop over the pipeline operators (src/parser.rs:560-600): `<<` goes before the last
argument (there always is one) -/
def pipeArgs : List Expr → List (Tok × Expr) → List Expr
  | args, [] => args
  | args, (op, item) :: l =>
    if op.text = c!"<<" then
      match args.getLast? with
      | some a => pipeArgs (args.dropLast ++ [.apply (.symbol c!"<<") [item], a]) l
      | none => pipeArgs [.apply (.symbol c!"<<") [item]] l
    else if op.text = c!"|" then pipeArgs (args ++ [item]) l
    else pipeArgs (args ++ [.apply (.symbol op.text) [item]]) l

/-- `parse_expression` (src/parser.rs:544-613) with the right-hand side of its own recursive calls
given.  After a non-empty loop there are at least two arguments. -/
def exprStep (expr : Parser Expr) : Parser Expr := fun i =>
  (noTermPunct C i).bind fun _ _ =>
  (precSeven C one expr i).bind fun i head =>
  (many0 (pair (alt (text c!"|") [text c!">>>", text c!">>", text c!"<<"])
    (precSeven C one expr)) i).bind fun i list =>
  .ok i (if list.isEmpty then head
    else
      match pipeArgs [head] list with
      | [a] => a
      | args => .group (.apply (.symbol c!"|") args))

/-- `parse_expression`: the fuel bounds the recursion through `let`, lambdas and the bodies of
loops. -/
def exprN : Nat → Parser Expr
  | 0, _ => .noFuel
  | n + 1, i => exprStep C one (exprN n) i

/-- `parse_expression`; the fuel suffices because each of these recursive calls comes after a
consumed token. -/
def parseExpr : Parser Expr := fun i => exprN C one (i.length + 1) i

/-- `parse_quote` (src/parser.rs:296-302) -/
def parseQuote : Parser Expr := fun i =>
  (text c!"'" i).bind fun i _ => (precTwo C one i).map .quote

/-- `parse_expression_prec_one` (src/parser.rs:819-833), with the parser `one` for the atoms
further in -/
def oneStep : Parser Expr :=
  alt (parseGroup C (parseExpr C one)) [parseQuote C one, parseMap C (parseExpr C one),
    parseBlock C (parseExpr C one), parseList C (parseExpr C one),
    fun i => (parseBoolean i).map .bool,
    fun i => (parseNone C i).map fun _ => .none,
    fun i => (parseFloat C i).map .float,
    fun i => (parseInteger i).map .int,
    fun i => (parseString i).map .str,
    fun i => (parseSymbol i).map .symbol]

end

/-- `parse_expression_prec_one`; the fuel bounds the nesting of brackets and quotes -/
def parseOne (C : Ctx) : Nat → Parser Expr
  | 0, _ => .noFuel
  | n + 1, i => oneStep C (parseOne C n) i

/-! ### Scripts -/

/-- `Result<Expression, nom::Err<SyntaxError>>`; `hard` tells a `Failure` from an `Error`. -/
inductive Result
  | ok (e : Expr)
  | err (hard : Bool) (e : SyntaxError)
  | panic
  | noFuel

/-- `Token::text` (src/tokens.rs:99-101); `none` is a panic -/
def attach (src : Str) (t : Token) : Option Tok :=
  (sliceStr src t.range.start t.range.stop).map fun s => ⟨t.kind, s, t.range⟩

/-- all tokens with their texts -/
def attachAll (src : Str) : List Token → Option (List Tok)
  | [] => some []
  | t :: ts =>
    match attach src t, attachAll src ts with
    | some a, some l => some (a :: l)
    | _, _ => none

/-- `is_symbol_like` (src/parser.rs:172-183) -/
def isSymbolLike : TokenKind → Bool
  | .symbol | .keyword | .operator | .booleanLiteral | .floatLiteral | .integerLiteral => true
  | _ => false

/-- the loop over neighbouring tokens (src/parser.rs:144-159); `StrSlice::join` of adjacent ranges
gives the range from the start of the first to the end of the second -/
def touching : List Tok → Option SyntaxError
  | a :: b :: l =>
    if isSymbolLike a.kind ∧ isSymbolLike b.kind ∧ a.text ≠ c!"@" ∧ b.text ≠ c!"@" then
      some (.expected ⟨a.range.start, b.range.stop⟩ c!"whitespace" (some b.text))
    else touching (b :: l)
  | _ => none

/-- neither whitespace nor a comment (src/parser.rs:162) -/
def isSolid (t : Tok) : Bool := t.kind ≠ .whitespace && t.kind ≠ .comment

/-- `parse_script_tokens(_, true)`, the nesting of brackets bounded by the fuel -/
def scriptN (C : Ctx) (fuel : Nat) (i : List Tok) : Result :=
  match parseScriptTokens C (parseExpr C (parseOne C fuel)) true i with
  | .ok _ e => .ok e
  | .error e => .err false e
  | .failure e => .err true e
  | .panic => .panic
  | .noFuel => .noFuel

end Parse

open Parse in
/-- `parse_script` (src/parser.rs:126-170); the fuel suffices for every text. -/
def parseScript (P : Plat) (src : Str) : Parse.Result :=
  match tokenize src with
  | .ok (ts, ds) =>
    let ds := ds.filter fun d => d ≠ .valid
    if ds ≠ [] then .err true (.tokenizationErrors ds)
    else
      match attachAll src ts with
      | none => .panic
      | some l =>
        match touching l with
        | some e => .err true e
        | none =>
          let l := l.filter isSolid
          scriptN ⟨P, ⟨utf8Len src, utf8Len src⟩⟩ (l.length + 1) l
  | .noFuel => .noFuel
  | _ => .panic

/-- `parse` (src/bin.rs:433-443) and the end of `parse_expr` (src/binary/init/parse_module.rs:21-30) -/
def parseText (P : Plat) (src : Str) : Outcome Expr :=
  match parseScript P src with
  | .ok e => .ok e
  | .err _ e => .err (.syntaxError src e)
  | .panic => .panic
  | .noFuel => .noFuel

end Dune
