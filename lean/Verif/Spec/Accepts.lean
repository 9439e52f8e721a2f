import Verif.Spec.Scan

/-!
What a text must be for the parser to take it, stated without the parser.  `G` says what scripts
mean; `A` has in addition the forms that the parser also takes: redirections, statements as stages
of a pipeline, and operators as names wherever a name may stand.
-/

namespace Dune.Spec

/-- Every operator. -/
def allOps : List Str := c!"@" :: opNames

/-- The word can be given a value: a symbol or any operator. -/
def NamedAny (w : Word) : Prop :=
  (w.1 = .symbol ∧ w.2 ∉ reserved) ∨ (w.1 = .operator ∧ w.2 ∈ allOps)

/-- `A P k ws v`: the words `ws` can be taken as a `k` that stands for `v`. -/
inductive A (P : Plat) : (k : NT) → List Word → k.Val → Prop
  -- bracketed things
  | atom {w x} : Atom P w x → A P .base [w] x
  | unit : A P .base [pw c!"(", pw c!")"] Expr.none
  | group {u x} : A P .expr u x → A P .base (pw c!"(" :: (u ++ [pw c!")"])) (Expr.group x)
  | list0 : A P .base [pw c!"[", pw c!"]"] (Expr.list [])
  | list {u l} : A P .items u l → A P .base (pw c!"[" :: (u ++ [pw c!"]"])) (Expr.list l)
  | map0 : A P .base [pw c!"{", pw c!"}"] (Expr.map [])
  | map {u l} : A P .entries u l →
      A P .base (pw c!"{" :: (u ++ [pw c!"}"])) (Expr.map (BMap.ofList l))
  | block {u l} : A P .stmts u l → u ≠ [] →
      A P .base (pw c!"{" :: (u ++ [pw c!"}"])) (Expr.do_ l)
  | quote {u x} : A P .two u x → A P .base (pw c!"'" :: u) (Expr.quote x)
  | item {u x} : A P .expr u x → A P .items u [x]
  | items {u x v l} : A P .expr u x → A P .items v l → A P .items (u ++ pw c!"," :: v) (x :: l)
  | entry {w u x} : NamedAny w → A P .expr u x → A P .entries (w :: pw c!"=" :: u) [(w.2, x)]
  | entries {w u x v l} : NamedAny w → A P .expr u x → A P .entries v l →
      A P .entries (w :: pw c!"=" :: (u ++ pw c!"," :: v)) ((w.2, x) :: l)
  -- operands
  | base {u x} : A P .base u x → A P .two u x
  | access {u x v l} : A P .base u x → A P .fields v l →
      A P .two (u ++ v) (Expr.apply (.symbol c!"@") (x :: l))
  | field {u x} : A P .base u x → A P .fields (ow c!"@" :: u) [x]
  | fieldOp {op} : op ∈ allOps → A P .fields [ow c!"@", ow op] [Expr.symbol op]
  | fields {u v} {l m : List Expr} : A P .fields u l → A P .fields v m → A P .fields (u ++ v) (l ++ m)
  -- infix operators
  | two {u x} : A P .two u x → A P .prod u x
  | mul {u x op v y} : A P .prod u x → op ∈ mulOps → A P .two v y →
      A P .prod (u ++ ow op :: v) (infix_ op x y)
  | prod {u x} : A P .prod u x → A P .sum u x
  | add {u x op v y} : A P .sum u x → op ∈ addOps → A P .prod v y →
      A P .sum (u ++ ow op :: v) (infix_ op x y)
  | sum {u x} : A P .sum u x → A P .rel u x
  | compare {u x op v y} : A P .rel u x → op ∈ relOps → A P .sum v y →
      A P .rel (u ++ ow op :: v) (infix_ op x y)
  | rel {u x} : A P .rel u x → A P .cmp u x
  | range {u x v y} : A P .sum u x → A P .sum v y →
      A P .cmp (u ++ ow c!"to" :: v) (Expr.apply (.symbol c!"to") [x, y])
  | dropped {u x v y} : A P .sum u x → A P .sum v y →
      A P .cmp (u ++ ow c!"!" :: v) (Expr.apply (.symbol c!"!") [y])
  | cmp {u x} : A P .cmp u x → A P .logic u x
  | logic {u x op v y} : A P .logic u x → op ∈ logicOps → A P .cmp v y →
      A P .logic (u ++ ow op :: v) (infix_ op x y)
  -- application
  | arg {u x} : A P .cmp u x → A P .args u [x]
  | args {u x v l} : A P .cmp u x → A P .args v l → A P .args (u ++ v) (x :: l)
  | noCall {u x} : A P .logic u x → A P .seven u x
  | call {u f v l} : A P .two u f → A P .args v l → A P .seven (u ++ v) (Expr.apply f l)
  | opCall {op v l} : op ∈ allOps → A P .args v l →
      A P .seven (ow op :: v) (Expr.apply (.symbol op) l)
  | opName {op} : op ∈ allOps → A P .seven [ow op] (Expr.symbol op)
  -- conditionals and loops
  | ite {c x t y} : A P .logic c x → A P .sum t y →
      A P .cond (kw c!"if" :: (c ++ t)) (Expr.ite x y .none)
  | iteElse {c x t y e z} : A P .logic c x → A P .sum t y → A P .sum e z →
      A P .cond (kw c!"if" :: (c ++ (t ++ kw c!"else" :: e))) (Expr.ite x y (.group z))
  | elseIf {c x t y e z} : A P .logic c x → A P .sum t y → A P .cond e z →
      A P .cond (kw c!"if" :: (c ++ (t ++ kw c!"else" :: e))) (Expr.ite x y (.group z))
  | cond {u x} : A P .cond u x → A P .ctrl u x
  | for_ {x u l b s} : x ∉ reserved → A P .sum u l → A P .stmts b s →
      A P .ctrl (kw c!"for" :: (.symbol, x) :: kw c!"in" :: (u ++ pw c!"{" :: (b ++ [pw c!"}"])))
        (Expr.for_ x l (.do_ s))
  | forRange {x u l v m b s} : x ∉ reserved → A P .sum u l → A P .sum v m → A P .stmts b s →
      A P .ctrl (kw c!"for" :: (.symbol, x) :: kw c!"in" ::
          (u ++ ow c!"to" :: (v ++ pw c!"{" :: (b ++ [pw c!"}"]))))
        (Expr.for_ x (.apply (.symbol c!"to") [l, m]) (.do_ s))
  -- stages
  | let_ {w u x} : NamedAny w → A P .expr u x →
      A P .seven (kw c!"let" :: w :: pw c!"=" :: u) (Expr.assign w.2 x)
  | lambda {x u b} : x ∉ reserved → A P .expr u b →
      A P .seven ((.symbol, x) :: pw c!"->" :: u) (Expr.lambda x b [] [])
  | macro_ {x u b} : x ∉ reserved → A P .expr u b →
      A P .seven ((.symbol, x) :: pw c!"~>" :: u) (Expr.macro_ x b)
  | ctrl {u x} : A P .ctrl u x → A P .seven u x
  -- expressions
  | seven {u x} : A P .seven u x → A P .expr u x
  | pipe {u x} {l : List (Str × List Word × Expr)} : A P .seven u x → l ≠ [] →
      (∀ p ∈ l, p.1 ∈ pipeOps) → (∀ p ∈ l, A P .seven p.2.1 p.2.2) →
      A P .expr (chainWords u l) (Expr.group (.apply (.symbol c!"|") (pipeStages [] x
        (l.map fun p => (p.1, p.2.2)))))
  -- statements
  | done : A P .stmts [] []
  | last {u x} : A P .expr u x → A P .stmts u [x]
  | stmt {u x v l} : A P .expr u x → A P .stmts v l → A P .stmts (u ++ pw c!";" :: v) (x :: l)
  | ctrlStmt {u x v l} : A P .ctrl u x → A P .stmts v l → A P .stmts (u ++ v) (x :: l)

/-- Well nested brackets. -/
inductive Nested : List Word → Prop
  | nil : Nested []
  | word {w} : w ∉ [c!"(", c!")", c!"[", c!"]", c!"{", c!"}"].map pw → Nested [w]
  | round {u} : Nested u → Nested (pw c!"(" :: (u ++ [pw c!")"]))
  | square {u} : Nested u → Nested (pw c!"[" :: (u ++ [pw c!"]"]))
  | curly {u} : Nested u → Nested (pw c!"{" :: (u ++ [pw c!"}"]))
  | append {u v} : Nested u → Nested v → Nested (u ++ v)

/-- A string without its closing quote. -/
def OpenString (w : Word) : Prop := w.1 = .stringLiteral ∧ ∃ b v, Lex.Denotes b v ∧ w.2 = '"' :: b

/-- Words as they are written, where only the last may be a string that is not closed. -/
def Written (ws : List Word) : Prop :=
  ∀ u w v, ws = u ++ w :: v → Lexeme w ∨ v = [] ∧ OpenString w

end Dune.Spec
