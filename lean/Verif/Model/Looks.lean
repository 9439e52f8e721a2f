import Verif.Model.Parser
/-!
How often the parser looks at the next token: the parser of `Verif/Model/Parser.lean` once more, each
function with a counter.  One look is one call of `kind`, `text`, `empty`, `eof`,
`no_terminating_punctuation` or of a parser of literals (src/parser.rs:101-124, 228-294, 312-318), or
of the test for `()`.  The number of looks is a lower bound for the running time.  That the results are
those of the other model is proved in `Verif/Proof/Looks.lean`.
-/

namespace Dune.Looks
open Parse

/-- the looks so far and the result -/
abbrev LR (α : Type) := Nat × PR α

/-- A parser that counts. -/
abbrev Looker (α : Type) := List Tok → LR α

variable {α β : Type}

/-- one look -/
def look (p : Parser α) : Looker α := fun i => (1, p i)

namespace LR

/-- the `?` operator -/
def bind (r : LR α) (f : List Tok → α → LR β) : LR β :=
  match r with
  | (n, .ok i a) => (n + (f i a).1, (f i a).2)
  | (n, .error e) => (n, .error e)
  | (n, .failure e) => (n, .failure e)
  | (n, .panic) => (n, .panic)
  | (n, .noFuel) => (n, .noFuel)

def pure (i : List Tok) (a : α) : LR α := (0, .ok i a)

def map (f : α → β) (r : LR α) : LR β := (r.1, r.2.map f)

def orFail (r : LR α) (e : SyntaxError) : LR α := (r.1, r.2.orFail e)

def orError (r : LR α) (e : SyntaxError) : LR α := (r.1, r.2.orError e)

def orElse (r s : LR α) : LR α :=
  match r with
  | (n, .error _) => (n + s.1, s.2)
  | r => r

def orElseAny (r s : LR α) : LR α :=
  match r with
  | (n, .error _) => (n + s.1, s.2)
  | (n, .failure _) => (n + s.1, s.2)
  | r => r

/-- after `n` more looks -/
def add (n : Nat) (r : LR α) : LR α := (n + r.1, r.2)

end LR

/-! ### nom -/

def altGo (i : List Tok) : SyntaxError → List (Looker α) → LR α
  | err, [] => (0, .error (.nomErrorBy c!"Alt" (firstRange i) err))
  | err, p :: ps =>
    match p i with
    | (n, .error e) => (altGo i (errOr err e) ps).add n
    | r => r

def alt (p : Looker α) (ps : List (Looker α)) : Looker α := fun i =>
  match p i with
  | (n, .error e) => (altGo i e ps).add n
  | r => r

def manyGo (kind : Str) (p : Looker α) : Nat → Looker (List α)
  | 0, _ => (0, .noFuel)
  | n + 1, i =>
    match p i with
    | (k, .error _) => (k, .ok i [])
    | (k, .failure e) => (k, .failure e)
    | (k, .panic) => (k, .panic)
    | (k, .noFuel) => (k, .noFuel)
    | (k, .ok i1 a) =>
      if i1.length = i.length then (k, .error (.nomError kind (firstRange i)))
      else ((manyGo kind p n i1).map (a :: ·)).add k

def many0 (p : Looker α) : Looker (List α) := fun i => manyGo c!"Many0" p (i.length + 1) i

def many1 (p : Looker α) : Looker (List α) := fun i =>
  match p i with
  | (k, .error e) => (k, .error (.nomErrorBy c!"Many1" (firstRange i) e))
  | (k, .failure e) => (k, .failure e)
  | (k, .panic) => (k, .panic)
  | (k, .noFuel) => (k, .noFuel)
  | (k, .ok i1 a) => ((manyGo c!"Many1" p (i1.length + 1) i1).map (a :: ·)).add k

def pair (p : Looker α) (q : Looker β) : Looker (α × β) := fun i =>
  (p i).bind fun i a => (q i).map fun b => (a, b)

def preceded (p : Looker α) (q : Looker β) : Looker β := fun i => (p i).bind fun i _ => q i

def terminated (p : Looker α) (q : Looker β) : Looker α := fun i =>
  (p i).bind fun i a => (q i).map fun _ => a

def opt (p : Looker α) : Looker (Option α) := fun i => ((p i).map some).orElse (LR.pure i none)

def separatedList0 (sep : Looker β) (p : Looker α) : Looker (List α) := fun i =>
  match p i with
  | (k, .error _) => (k, .ok i [])
  | (k, .failure e) => (k, .failure e)
  | (k, .panic) => (k, .panic)
  | (k, .noFuel) => (k, .noFuel)
  | (k, .ok i1 a) =>
    ((manyGo c!"SeparatedList" (preceded sep p) (i1.length + 1) i1).map (a :: ·)).add k

/-! ### Tokens -/

def text (s : Str) : Looker Tok := look (Parse.text s)

def noTermPunct (C : Ctx) : Looker Unit := look (Parse.noTermPunct C)

def parseSymbol : Looker Str := look Parse.parseSymbol

def parseOperator : Looker Str := look Parse.parseOperator

def operatorAsSymbol : Looker Expr := look Parse.operatorAsSymbol

def parseNone (C : Ctx) : Looker Unit := fun i =>
  ((text c!"None" i).map fun _ => ()).orElseAny (look (unitParens C) i)

/-! ### Operators -/

section

variable (C : Ctx) (one : Looker Expr)

def precTwo : Looker Expr := fun i =>
  (noTermPunct C i).bind fun _ _ =>
  (one i).bind fun i head =>
  (many0 (preceded (text c!"@") (alt one [operatorAsSymbol])) i).bind fun i args =>
  LR.pure i (if args.isEmpty then head else .apply (.symbol c!"@") (head :: args))

def precThree : Looker Expr := fun i =>
  (noTermPunct C i).bind fun _ _ =>
  (precTwo C one i).bind fun i head =>
  (many0 (pair (alt (text c!"*") [text c!"//", text c!"%"]) (precTwo C one)) i).bind fun i list =>
  LR.pure i (leftFold head list)

def precFour : Looker Expr := fun i =>
  (noTermPunct C i).bind fun _ _ =>
  (precThree C one i).bind fun i head =>
  (many0 (pair (alt (text c!"+") [text c!"-"]) (precThree C one)) i).bind fun i list =>
  LR.pure i (leftFold head list)

def parseNot : Looker Expr := fun i =>
  (text c!"!" i).bind fun i _ => (precFour C one i).map fun x => .apply (.symbol c!"!") [x]

def rangeEnd (head : Expr) (i : List Tok) : LR Expr :=
  ((precFour C one i).orFail (expect C i c!"a valid range expression")).map fun to =>
    .apply (.symbol c!"to") [head, to]

def precFive : Looker Expr := fun i =>
  (noTermPunct C i).bind fun _ _ =>
  (precFour C one i).bind fun i head =>
  (many0 (pair (alt (text c!"==") [text c!"!=", text c!">=", text c!"<=", text c!">", text c!"<"])
    (precFour C one)) i).bind fun i list =>
  if list.isEmpty then
    match text c!"to" i with
    | (n, .ok i _) => (rangeEnd C one head i).add n
    | (n, _) => ((parseNot C one i).orElseAny (LR.pure i head)).add n
  else LR.pure i (leftFold head list)

def precSix : Looker Expr := fun i =>
  (noTermPunct C i).bind fun _ _ =>
  (precFive C one i).bind fun i head =>
  (many0 (pair (alt (text c!"&&") [text c!"||"]) (precFive C one)) i).bind fun i list =>
  LR.pure i (leftFold head list)

def parseRange : Looker Expr := fun i =>
  (noTermPunct C i).bind fun _ _ =>
  (precFour C one i).bind fun i head =>
  (text c!"to" i).bind fun i _ => rangeEnd C one head i

def parseApply : Looker Expr := fun i =>
  (alt (precTwo C one) [operatorAsSymbol] i).bind fun i f =>
  (many1 (precFive C one) i).bind fun i args => LR.pure i (.apply f args)

def parseApplyOperator : Looker Expr := fun i =>
  (operatorAsSymbol i).bind fun i f =>
  (many0 (precFive C one) i).bind fun i args =>
  LR.pure i (if args.isEmpty then f else .apply f args)

def parseIfN : Nat → Looker Expr
  | 0, _ => (0, .noFuel)
  | n + 1, i =>
    (text c!"if" i).bind fun i _ =>
    ((precSix C one i).orFail (expect C i c!"condition expression")).bind fun i cond =>
    ((precFour C one i).orFail (expect C i c!"then expression")).bind fun i t =>
    (opt (preceded (text c!"else") (alt (parseIfN n) [precFour C one])) i).bind fun i e =>
    LR.pure i (.ite cond t (match e with
      | some e => .group e
      | none => .none))

def parseIf : Looker Expr := fun i => parseIfN C one (i.length + 1) i

end

/-! ### Statements and expressions -/

section

variable (C : Ctx) (expr : Looker Expr)

def parseStatement : Looker Expr := fun i =>
  (expr i).bind fun i e =>
    match text c!";" i with
    | (n, .ok i _) => (n, .ok i e)
    | (n, _) =>
      match e with
      | .for_ .. => (n, .ok i e)
      | .ite .. => (n, .ok i e)
      | _ => (n, .error (expect C i c!";"))

def parseScriptTokens (requireEof : Bool) : Looker Expr := fun i =>
  (many0 (parseStatement C expr) i).bind fun i exprs =>
  (opt (terminated expr (opt (text c!";"))) i).bind fun i last =>
  let exprs := exprs ++ last.toList
  if requireEof then
    ((look eof i).orError (expect C i c!"end of input")).map fun _ => .do_ exprs
  else LR.pure i (.do_ exprs)

def parseBlock : Looker Expr := fun i =>
  (text c!"{" i).bind fun i _ =>
  (parseScriptTokens C expr false i).bind fun i e =>
  ((text c!"}" i).orFail (expect C i c!"`}`" (some c!"no matching `}`"))).map fun _ => e

def parseAssign : Looker Expr := fun i =>
  (text c!"let" i).bind fun i _ =>
  ((alt parseSymbol [parseOperator] i).orFail (expect C i c!"symbol")).bind fun i x =>
  ((text c!"=" i).orFail (expect C i c!"`=`")).bind fun i _ =>
  (expr i).map fun e => .assign x e

def parseGroup : Looker Expr := fun i =>
  (text c!"(" i).bind fun i _ =>
  (expr i).bind fun i e =>
  ((alt (fun i => (text c!")" i).map fun _ => ()) [look empty] i).orFail
    (expect C i c!"`)`" (some c!"no matching parentheses"))).map fun _ => .group e

def parseList : Looker Expr := fun i =>
  (text c!"[" i).bind fun i _ =>
  (separatedList0 (text c!",") expr i).bind fun i l =>
  ((text c!"]" i).orFail (expect C i c!"`]`" (some c!"no matching `]`"))).map fun _ => .list l

def parseEntry : Looker (Str × Expr) := fun i =>
  (alt parseSymbol [parseOperator] i).bind fun i k =>
  (text c!"=" i).bind fun i _ => (expr i).map fun e => (k, e)

def parseMap : Looker Expr := fun i =>
  (text c!"{" i).bind fun i _ =>
  (separatedList0 (text c!",") (parseEntry expr) i).bind fun i l =>
  (if l.isEmpty then
      (text c!"}" i).orError (expect C i c!"`}`" (some c!"no matching `}`"))
    else (text c!"}" i).orFail (expect C i c!"`}`" (some c!"no matching `}`"))).map fun _ =>
    .map (BMap.ofList l)

def parseCallable : Looker Expr := fun i =>
  (parseSymbol i).bind fun i x =>
  (alt (text c!"->") [text c!"~>"] i).bind fun i op =>
  ((expr i).orFail (expect C i c!"an expression")).map fun body =>
    if op.text = c!"->" then .lambda x body [] [] else .macro_ x body

end

section

variable (C : Ctx) (one : Looker Expr)

def parseFor (expr : Looker Expr) : Looker Expr := fun i =>
  (text c!"for" i).bind fun i _ =>
  ((parseSymbol i).orFail (expect C i c!"symbol")).bind fun i x =>
  ((text c!"in" i).orFail (expect C i c!"`in` keyword")).bind fun i _ =>
  ((alt (parseRange C one) [precFour C one] i).orFail
    (expect C i c!"iterable expression")).bind fun i l =>
  ((parseBlock C expr i).orFail (expect C i c!"block")).map fun body => .for_ x l body

def precSeven (expr : Looker Expr) : Looker Expr := fun i =>
  (noTermPunct C i).bind fun _ _ =>
  alt (parseFor C one expr) [parseIf C one, parseAssign C expr, parseCallable C expr,
    parseApply C one, parseApplyOperator C one, precSix C one] i

def exprStep (expr : Looker Expr) : Looker Expr := fun i =>
  (noTermPunct C i).bind fun _ _ =>
  (precSeven C one expr i).bind fun i head =>
  (many0 (pair (alt (text c!"|") [text c!">>>", text c!">>", text c!"<<"])
    (precSeven C one expr)) i).bind fun i list =>
  LR.pure i (if list.isEmpty then head
    else
      match pipeArgs [head] list with
      | [a] => a
      | args => .group (.apply (.symbol c!"|") args))

def exprN : Nat → Looker Expr
  | 0, _ => (0, .noFuel)
  | n + 1, i => exprStep C one (exprN n) i

def parseExpr : Looker Expr := fun i => exprN C one (i.length + 1) i

def parseQuote : Looker Expr := fun i =>
  (text c!"'" i).bind fun i _ => (precTwo C one i).map .quote

def oneStep : Looker Expr :=
  alt (parseGroup C (parseExpr C one)) [parseQuote C one, parseMap C (parseExpr C one),
    parseBlock C (parseExpr C one), parseList C (parseExpr C one),
    fun i => (look parseBoolean i).map .bool,
    fun i => (parseNone C i).map fun _ => .none,
    fun i => (look (parseFloat C) i).map .float,
    fun i => (look parseInteger i).map .int,
    fun i => (look parseString i).map .str,
    fun i => (parseSymbol i).map .symbol]

end

def parseOne (C : Ctx) : Nat → Looker Expr
  | 0, _ => (0, .noFuel)
  | n + 1, i => oneStep C (parseOne C n) i

/-- `parse_script_tokens(_, true)` -/
def scriptN (C : Ctx) (fuel : Nat) (i : List Tok) : Nat × Result :=
  match parseScriptTokens C (parseExpr C (parseOne C fuel)) true i with
  | (n, .ok _ e) => (n, .ok e)
  | (n, .error e) => (n, .err false e)
  | (n, .failure e) => (n, .err true e)
  | (n, .panic) => (n, .panic)
  | (n, .noFuel) => (n, .noFuel)

/-- `parse_script` (src/parser.rs:126-170), with the number of looks at tokens.  Texts that are
rejected before (lexical errors, words that touch) are not looked at. -/
def parseScript (P : Plat) (src : Str) : Nat × Result :=
  match tokenize src with
  | .ok (ts, ds) =>
    let ds := ds.filter fun d => d ≠ .valid
    if ds ≠ [] then (0, .err true (.tokenizationErrors ds))
    else
      match attachAll src ts with
      | none => (0, .panic)
      | some l =>
        match touching l with
        | some e => (0, .err true e)
        | none =>
          let l := l.filter isSolid
          scriptN ⟨P, ⟨utf8Len src, utf8Len src⟩⟩ (l.length + 1) l
  | .noFuel => (0, .noFuel)
  | _ => (0, .panic)

end Dune.Looks
