import Verif.Spec.Lex
import Verif.Spec.Literal

/-!
The grammar of the language, stated without the parser: which expression a sequence of words stands
for.  Operators of one level associate to the left; the levels, from the tightest, are field access,
products, sums, comparisons and logic; application binds tighter than logic but its arguments are
comparisons.
-/

namespace Dune.Spec

/-- The nonterminals. -/
inductive NT
  /-- a literal, a name, or anything in brackets -/
  | base
  /-- the fields after `@` -/
  | fields
  /-- an operand: field access, quotation -/
  | two
  | prod | sum
  /-- a chain of comparisons -/
  | rel
  /-- comparisons and ranges -/
  | cmp
  | logic
  /-- the arguments of an application -/
  | args
  /-- a stage of a pipeline -/
  | seven
  /-- the further stages of a pipeline, each with its operator -/
  | pipes
  /-- what may only be the last stage: it extends as far as possible -/
  | stage
  /-- conditional -/
  | cond
  /-- a statement that needs no semicolon -/
  | ctrl
  | expr
  /-- elements of a list -/
  | items
  /-- entries of a map -/
  | entries
  | stmts

/-- What a nonterminal stands for. -/
def NT.Val : NT → Type
  | .fields | .args | .items | .stmts => List Expr
  | .pipes => List (Str × Expr)
  | .entries => List (Str × Expr)
  | _ => Expr

/-- punctuation -/
def pw (s : Str) : Word := (.punctuation, s)
/-- operator -/
def ow (s : Str) : Word := (.operator, s)
/-- keyword -/
def kw (s : Str) : Word := (.keyword, s)

def mulOps : List Str := [c!"*", c!"//", c!"%"]
def addOps : List Str := [c!"+", c!"-"]
def relOps : List Str := [c!"==", c!"!=", c!">=", c!"<=", c!">", c!"<"]
def logicOps : List Str := [c!"&&", c!"||"]

/-- `|` sends a value on to the next stage, `>>` and `>>>` to a file; `<<` reads one. -/
def pipeOps : List Str := [c!"|", c!">>>", c!">>", c!"<<"]

/-- Operators that may start an application, or be named. -/
def opNames : List Str :=
  mulOps ++ addOps ++ relOps ++ logicOps ++ [c!"!", c!"|", c!"<<", c!">>", c!">>>", c!"to"]

/-- Texts with a meaning of their own; they are never the text of a name or literal. -/
def reserved : List Str :=
  opNames ++ [c!"@", c!";", c!",", c!"=", c!"]", c!")", c!"}", c!"(", c!"[", c!"{", c!"'", c!"->",
    c!"~>", c!"None", c!"then", c!"else", c!"let", c!"for", c!"if", c!"in"]

/-- Literals and names. -/
inductive Atom (P : Plat) : Word → Expr → Prop
  | int {t n} : parseI64 t = some n → Atom P (.integerLiteral, t) (.int n)
  | float {t x} : P.fParse t = some x → t ∉ reserved → Atom P (.floatLiteral, t) (.float x)
  | true_ : Atom P (.booleanLiteral, c!"True") (.bool true)
  | false_ : Atom P (.booleanLiteral, c!"False") (.bool false)
  | none : Atom P (kw c!"None") .none
  | str {t v} : Lex.StrLit t v → Atom P (.stringLiteral, t) (.str v)
  | name {x} : x ∉ reserved → Atom P (.symbol, x) (.symbol x)

/-- The word is a name that can be defined: a symbol or an operator. -/
def Named (w : Word) : Prop :=
  (w.1 = .symbol ∧ w.2 ∉ reserved) ∨ (w.1 = .operator ∧ w.2 ∈ opNames)

/-- The application of an infix operator. -/
def infix_ (op : Str) (x y : Expr) : Expr := .group (.apply (.symbol op) [x, y])

/-- The words of a chain of operators and operands: `u op v op v …` -/
def chainWords (u : List Word) (l : List (Str × List Word × Expr)) : List Word :=
  u ++ l.flatMap fun p => ow p.1 :: p.2.1

/-- The operators of a chain are applied from left to right. -/
def chainValue (x : Expr) (l : List (Str × List Word × Expr)) : Expr :=
  l.foldl (fun x p => infix_ p.1 x p.2.2) x

/-- The stages of a pipeline, left to right.  A stage after `|` is the next one; a file after `>>`
or `>>>` becomes a stage that writes it; a file after `<<` becomes a stage that reads it, just before
the stage to its left. -/
def pipeStages (done : List Expr) (cur : Expr) : List (Str × Expr) → List Expr
  | [] => done ++ [cur]
  | (op, y) :: l =>
    if op = c!"<<" then pipeStages (done ++ [.apply (.symbol c!"<<") [y]]) cur l
    else if op = c!"|" then pipeStages (done ++ [cur]) y l
    else pipeStages (done ++ [cur]) (.apply (.symbol op) [y]) l

/-- `G P k ws v`: the words `ws` form a `k` that stands for `v`. -/
inductive G (P : Plat) : (k : NT) → List Word → k.Val → Prop
  -- bracketed things
  | atom {w x} : Atom P w x → G P .base [w] x
  | unit : G P .base [pw c!"(", pw c!")"] Expr.none
  | group {u x} : G P .expr u x → G P .base (pw c!"(" :: (u ++ [pw c!")"])) (Expr.group x)
  | list0 : G P .base [pw c!"[", pw c!"]"] (Expr.list [])
  | list {u l} : G P .items u l → G P .base (pw c!"[" :: (u ++ [pw c!"]"])) (Expr.list l)
  | map0 : G P .base [pw c!"{", pw c!"}"] (Expr.map [])
  | map {u l} : G P .entries u l →
      G P .base (pw c!"{" :: (u ++ [pw c!"}"])) (Expr.map (BMap.ofList l))
  | block {u l} : G P .stmts u l → u ≠ [] →
      G P .base (pw c!"{" :: (u ++ [pw c!"}"])) (Expr.do_ l)
  | item {u x} : G P .expr u x → G P .items u [x]
  | items {u x v l} : G P .expr u x → G P .items v l → G P .items (u ++ pw c!"," :: v) (x :: l)
  | entry {w u x} : Named w → G P .expr u x → G P .entries (w :: pw c!"=" :: u) [(w.2, x)]
  | entries {w u x v l} : Named w → G P .expr u x → G P .entries v l →
      G P .entries (w :: pw c!"=" :: (u ++ pw c!"," :: v)) ((w.2, x) :: l)
  -- operands
  | base {u x} : G P .base u x → G P .two u x
  | quote {u x} : G P .two u x → G P .two (pw c!"'" :: u) (Expr.quote x)
  | access {u x v l} : G P .base u x → G P .fields v l →
      G P .two (u ++ v) (Expr.apply (.symbol c!"@") (x :: l))
  | field {u x} : G P .base u x → G P .fields (ow c!"@" :: u) [x]
  | fieldOp {op} : op ∈ opNames → G P .fields [ow c!"@", ow op] [Expr.symbol op]
  | fieldsOp {op v l} : op ∈ opNames → G P .fields v l →
      G P .fields (ow c!"@" :: ow op :: v) (Expr.symbol op :: l)
  | fields {u x v l} : G P .base u x → G P .fields v l → G P .fields (ow c!"@" :: (u ++ v)) (x :: l)
  -- infix operators
  | two {u x} : G P .two u x → G P .prod u x
  | mul {u x op v y} : G P .prod u x → op ∈ mulOps → G P .two v y →
      G P .prod (u ++ ow op :: v) (infix_ op x y)
  | prod {u x} : G P .prod u x → G P .sum u x
  | add {u x op v y} : G P .sum u x → op ∈ addOps → G P .prod v y →
      G P .sum (u ++ ow op :: v) (infix_ op x y)
  | sum {u x} : G P .sum u x → G P .rel u x
  | compare {u x op v y} : G P .rel u x → op ∈ relOps → G P .sum v y →
      G P .rel (u ++ ow op :: v) (infix_ op x y)
  | rel {u x} : G P .rel u x → G P .cmp u x
  | range {u x v y} : G P .sum u x → G P .sum v y →
      G P .cmp (u ++ ow c!"to" :: v) (Expr.apply (.symbol c!"to") [x, y])
  -- (an operand before `!` is dropped: property C13)
  | dropped {u x v y} : G P .sum u x → G P .sum v y →
      G P .cmp (u ++ ow c!"!" :: v) (Expr.apply (.symbol c!"!") [y])
  | cmp {u x} : G P .cmp u x → G P .logic u x
  | logic {u x op v y} : G P .logic u x → op ∈ logicOps → G P .cmp v y →
      G P .logic (u ++ ow op :: v) (infix_ op x y)
  -- application
  | arg {u x} : G P .cmp u x → G P .args u [x]
  | args {u x v l} : G P .cmp u x → G P .args v l → G P .args (u ++ v) (x :: l)
  | noCall {u x} : G P .logic u x → G P .seven u x
  | call {u f v l} : G P .two u f → G P .args v l → G P .seven (u ++ v) (Expr.apply f l)
  | opCall {op v l} : op ∈ opNames → G P .args v l →
      G P .seven (ow op :: v) (Expr.apply (.symbol op) l)
  | opName {op} : op ∈ opNames → G P .seven [ow op] (Expr.symbol op)
  -- pipelines
  | pipe1 {op v y} : op ∈ pipeOps → G P .seven v y → G P .pipes (ow op :: v) [(op, y)]
  | pipeLast {op v y} : op ∈ pipeOps → G P .stage v y → G P .pipes (ow op :: v) [(op, y)]
  | pipes {op v y w l} : op ∈ pipeOps → G P .seven v y → G P .pipes w l →
      G P .pipes (ow op :: (v ++ w)) ((op, y) :: l)
  -- conditionals and loops
  | ite {c x t y} : G P .logic c x → G P .sum t y →
      G P .cond (kw c!"if" :: (c ++ t)) (Expr.ite x y .none)
  | iteElse {c x t y e z} : G P .logic c x → G P .sum t y → G P .sum e z →
      G P .cond (kw c!"if" :: (c ++ (t ++ kw c!"else" :: e))) (Expr.ite x y (.group z))
  | elseIf {c x t y e z} : G P .logic c x → G P .sum t y → G P .cond e z →
      G P .cond (kw c!"if" :: (c ++ (t ++ kw c!"else" :: e))) (Expr.ite x y (.group z))
  | cond {u x} : G P .cond u x → G P .ctrl u x
  | for_ {x u l b s} : x ∉ reserved → G P .sum u l → G P .stmts b s →
      G P .ctrl (kw c!"for" :: (.symbol, x) :: kw c!"in" :: (u ++ pw c!"{" :: (b ++ [pw c!"}"])))
        (Expr.for_ x l (.do_ s))
  | forRange {x u l v m b s} : x ∉ reserved → G P .sum u l → G P .sum v m → G P .stmts b s →
      G P .ctrl (kw c!"for" :: (.symbol, x) :: kw c!"in" ::
          (u ++ ow c!"to" :: (v ++ pw c!"{" :: (b ++ [pw c!"}"]))))
        (Expr.for_ x (.apply (.symbol c!"to") [l, m]) (.do_ s))
  -- expressions
  | seven {u x} : G P .seven u x → G P .expr u x
  | pipe {u x v l} : G P .seven u x → G P .pipes v l →
      G P .expr (u ++ v) (Expr.group (.apply (.symbol c!"|") (pipeStages [] x l)))
  | stage {u x} : G P .stage u x → G P .expr u x
  | stageLet {w u x} : Named w → G P .expr u x →
      G P .stage (kw c!"let" :: w :: pw c!"=" :: u) (Expr.assign w.2 x)
  | stageLambda {x u b} : x ∉ reserved → G P .expr u b →
      G P .stage ((.symbol, x) :: pw c!"->" :: u) (Expr.lambda x b [] [])
  | stageMacro {x u b} : x ∉ reserved → G P .expr u b →
      G P .stage ((.symbol, x) :: pw c!"~>" :: u) (Expr.macro_ x b)
  | stageCtrl {u x} : G P .ctrl u x → G P .stage u x
  -- statements
  | done : G P .stmts [] []
  | last {u x} : G P .expr u x → G P .stmts u [x]
  | stmt {u x v l} : G P .expr u x → G P .stmts v l → G P .stmts (u ++ pw c!";" :: v) (x :: l)
  | ctrlStmt {u x v l} : G P .ctrl u x → G P .stmts v l →
      (∀ w r, v = w :: r → w.2 ∉ opNames) → G P .stmts (u ++ v) (x :: l)

variable {P : Plat} {u : List Word}

theorem G.let_ {w : Word} {x : Expr} (hw : Named w) (h : G P .expr u x) :
    G P .expr (kw c!"let" :: w :: pw c!"=" :: u) (Expr.assign w.2 x) := .stage (.stageLet hw h)

theorem G.lambda {x : Str} {b : Expr} (hx : x ∉ reserved) (h : G P .expr u b) :
    G P .expr ((.symbol, x) :: pw c!"->" :: u) (Expr.lambda x b [] []) := .stage (.stageLambda hx h)

theorem G.macro_ {x : Str} {b : Expr} (hx : x ∉ reserved) (h : G P .expr u b) :
    G P .expr ((.symbol, x) :: pw c!"~>" :: u) (Expr.macro_ x b) := .stage (.stageMacro hx h)

theorem G.ctrl {x : Expr} (h : G P .ctrl u x) : G P .expr u x := .stage (.stageCtrl h)

end Dune.Spec
