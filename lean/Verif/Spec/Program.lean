import Verif.Spec.Grammar
import Verif.Model.Text

/-!
A small language of integer programs, with its own meaning: what a reader expects of assignments,
functions, conditionals, counting loops and printing, stated without the evaluator; and which words
write down a program.
-/

namespace Dune.Spec.Calc

/-- Integer operators. -/
inductive Op
  | add | sub | mul | div | rem

def Op.text : Op → Str
  | .add => c!"+"
  | .sub => c!"-"
  | .mul => c!"*"
  | .div => c!"//"
  | .rem => c!"%"

/-- Comparisons. -/
inductive Rel
  | eq | ne | lt | le | gt | ge

def Rel.text : Rel → Str
  | .eq => c!"=="
  | .ne => c!"!="
  | .lt => c!"<"
  | .le => c!"<="
  | .gt => c!">"
  | .ge => c!">="

def Rel.holds : Rel → Int → Int → Bool
  | .eq, x, y => decide (x = y)
  | .ne, x, y => decide (x ≠ y)
  | .lt, x, y => decide (x < y)
  | .le, x, y => decide (x ≤ y)
  | .gt, x, y => decide (x > y)
  | .ge, x, y => decide (x ≥ y)

inductive Arith
  | lit (z : Int)
  | var (x : Str)
  | bin (o : Op) (a b : Arith)
  /-- `f a …` -/
  | call (f : Str) (args : List Arith)

inductive Cond
  | cmp (r : Rel) (a b : Arith)
  | and (c d : Cond)
  | or (c d : Cond)

/-- What a function computes. -/
inductive Fn
  | ret (a : Arith)
  /-- `if c { t } else { e }` -/
  | ite (c : Cond) (t e : Fn)

mutual

inductive Stmt
  /-- `let x = a` -/
  | set (x : Str) (a : Arith)
  /-- `let f = x -> … -> b` -/
  | fn (f : Str) (params : List Str) (b : Fn)
  /-- `println a` -/
  | print (a : Arith)
  /-- `if c { t }` -/
  | when (c : Cond) (t : Block)
  /-- `if c { t } else { e }` -/
  | ite (c : Cond) (t e : Block)
  /-- `for x in a to b { body }` -/
  | loop (x : Str) (a b : Arith) (body : Block)

inductive Block
  | nil
  | cons (s : Stmt) (r : Block)

end

/-! ### Meaning -/

/-- What comes of a computation. -/
inductive Ans (α : Type)
  | ok (a : α)
  /-- an error message -/
  | error
  /-- the shell dies -/
  | crash
  /-- a variable was read that holds no integer, or something was called that is no function of as many
  integers: nothing is claimed -/
  | open_

/-- Go on with the result, if there is one. -/
def Ans.bind {α β : Type} : Ans α → (α → Ans β) → Ans β
  | .ok a, f => f a
  | .error, _ => .error
  | .crash, _ => .crash
  | .open_, _ => .open_

/-- the integers of 64 bits -/
def Small (z : Int) : Prop := -2 ^ 63 ≤ z ∧ z < 2 ^ 63

instance (z : Int) : Decidable (Small z) := by unfold Small; infer_instance

/-- the exact result, or an error if it does not fit -/
def exact (z : Int) : Ans Int := if Small z then .ok z else .error

/-- Every operator is exact or fails; division rounds toward zero and fails for a zero divisor; the
remainder has the sign of the dividend, and kills the shell for a zero divisor and for the one
quotient that does not fit. -/
def Op.apply : Op → Int → Int → Ans Int
  | .add, x, y => exact (x + y)
  | .sub, x, y => exact (x - y)
  | .mul, x, y => exact (x * y)
  | .div, x, y => if y = 0 then .error else exact (x.tdiv y)
  | .rem, x, y =>
    if y = 0 ∨ (x = -2 ^ 63 ∧ y = -1) then .crash else .ok (x.tmod y)

/-- What a variable holds: an integer, or a function of `n` integers. -/
inductive Val
  | int (z : Int)
  | fn (n : Nat) (f : List Int → Ans Int)

/-- The variables that hold integers and functions. -/
abbrev Vars := Str → Option Val

def Vars.set (σ : Vars) (x : Str) (v : Val) : Vars := fun y => if y = x then some v else σ y

/-- Parameters are set to arguments, one after the other. -/
def Vars.bind (σ : Vars) : List Str → List Int → Vars
  | p :: ps, z :: zs => (σ.set p (.int z)).bind ps zs
  | _, _ => σ

mutual

/-- Operands and arguments are computed from left to right, and the first failure is the result. -/
def Arith.eval (σ : Vars) : Arith → Ans Int
  | .lit z => .ok z
  | .var x =>
    match σ x with
    | some (.int z) => .ok z
    | _ => .open_
  | .bin o a b =>
    match a.eval σ with
    | .ok x =>
      match b.eval σ with
      | .ok y => o.apply x y
      | r => r
    | r => r
  | .call f args =>
    match σ f with
    | some (.fn n g) => if args.length = n then (Arith.evals σ args).bind g else .open_
    | _ => .open_

def Arith.evals (σ : Vars) : List Arith → Ans (List Int)
  | [] => .ok []
  | a :: l => (a.eval σ).bind fun z => (Arith.evals σ l).bind fun zs => .ok (z :: zs)

end

/-- Both sides of `&&` and `||` are always computed. -/
def Cond.eval (σ : Vars) : Cond → Ans Bool
  | .cmp r a b =>
    match a.eval σ with
    | .ok x =>
      match b.eval σ with
      | .ok y => .ok (r.holds x y)
      | .error => .error
      | .crash => .crash
      | .open_ => .open_
    | .error => .error
    | .crash => .crash
    | .open_ => .open_
  | .and c d =>
    match c.eval σ with
    | .ok x =>
      match d.eval σ with
      | .ok y => .ok (x && y)
      | r => r
    | r => r
  | .or c d =>
    match c.eval σ with
    | .ok x =>
      match d.eval σ with
      | .ok y => .ok (x || y)
      | r => r
    | r => r

def Fn.eval (σ : Vars) : Fn → Ans Int
  | .ret a => a.eval σ
  | .ite c t e => (c.eval σ).bind fun b => if b then t.eval σ else e.eval σ

/-- The variables, and the numbers printed so far. -/
structure State where
  vars : Vars
  out : List Int

/-- Run `f` with `x` set to `z`, `z + 1`, … (`n` numbers), until it fails. -/
def count (f : State → Ans Unit × State) (x : Str) : Int → Nat → State → Ans Unit × State
  | _, 0, s => (.ok (), s)
  | z, n + 1, s =>
    match f ⟨s.vars.set x (.int z), s.out⟩ with
    | (.ok (), s') => count f x (z + 1) n s'
    | r => r

mutual

/-- There is one set of variables: what a branch or a loop body sets is set afterwards too, and so
is the loop variable.  A function computes with the variables as they were when it was defined. -/
def Stmt.run : Stmt → State → Ans Unit × State
  | .set x a, s =>
    match a.eval s.vars with
    | .ok z => (.ok (), ⟨s.vars.set x (.int z), s.out⟩)
    | .error => (.error, s)
    | .crash => (.crash, s)
    | .open_ => (.open_, s)
  | .fn f ps b, s =>
    (.ok (), ⟨s.vars.set f (.fn ps.length fun zs => b.eval (s.vars.bind ps zs)), s.out⟩)
  | .print a, s =>
    match a.eval s.vars with
    | .ok z => (.ok (), ⟨s.vars, s.out ++ [z]⟩)
    | .error => (.error, s)
    | .crash => (.crash, s)
    | .open_ => (.open_, s)
  | .when c t, s =>
    match c.eval s.vars with
    | .ok true => t.run s
    | .ok false => (.ok (), s)
    | .error => (.error, s)
    | .crash => (.crash, s)
    | .open_ => (.open_, s)
  | .ite c t e, s =>
    match c.eval s.vars with
    | .ok true => t.run s
    | .ok false => e.run s
    | .error => (.error, s)
    | .crash => (.crash, s)
    | .open_ => (.open_, s)
  | .loop x a b body, s =>
    match a.eval s.vars with
    | .ok y =>
      match b.eval s.vars with
      | .ok z => count body.run x y (z - y).toNat s
      | .error => (.error, s)
      | .crash => (.crash, s)
      | .open_ => (.open_, s)
    | .error => (.error, s)
    | .crash => (.crash, s)
    | .open_ => (.open_, s)

def Block.run : Block → State → Ans Unit × State
  | .nil, s => (.ok (), s)
  | .cons x r, s =>
    match x.run s with
    | (.ok (), s') => r.run s'
    | res => res

end

/-! ### Texts

The index `d` bounds how deeply a text is nested, where a call is nested deeper than the body of the
function.  `Γ` says for the names of functions how many parameters they have and how deeply they are
nested; so no function is defined in terms of itself. -/

/-- Names of functions: the number of parameters and the depth. -/
abbrev Funs := Str → Option (Nat × Nat)

/-- levels of formulas, from the tightest; a whole formula may be a call without parentheses -/
inductive Lvl
  | atom | prod | sum | whole | args

abbrev Lvl.Val : Lvl → Type
  | .args => List Arith
  | _ => Arith

/-- Which words write down a formula: `*`, `//` and `%` bind tighter than `+` and `-`, operators of
one level associate to the left, parentheses group; arguments are sums. -/
inductive Formula (Γ : Funs) : (l : Lvl) → Nat → List Word → l.Val → Prop
  | lit {d t n} : parseI64 t = some n → Formula Γ .atom d [(.integerLiteral, t)] (Arith.lit n.val)
  | var {d x} : x ∉ reserved → x ≠ c!"CWD" → Formula Γ .atom d [(.symbol, x)] (Arith.var x)
  | paren {d u a} : Formula Γ .whole d u a → Formula Γ .atom (d + 1) (pw c!"(" :: (u ++ [pw c!")"])) a
  | atom {d u a} : Formula Γ .atom d u a → Formula Γ .prod d u a
  | mul {d u a o v b} : Formula Γ .prod d u a → o ∈ [Op.mul, .div, .rem] → Formula Γ .atom d v b →
      Formula Γ .prod (d + 1) (u ++ ow o.text :: v) (Arith.bin o a b)
  | prod {d u a} : Formula Γ .prod d u a → Formula Γ .sum d u a
  | add {d u a o v b} : Formula Γ .sum d u a → o ∈ [Op.add, .sub] → Formula Γ .prod d v b →
      Formula Γ .sum (d + 1) (u ++ ow o.text :: v) (Arith.bin o a b)
  | sum {d u a} : Formula Γ .sum d u a → Formula Γ .whole d u a
  | call {d f v l n} : f ∉ reserved → f ≠ c!"CWD" → Γ f = some (List.length l, n) → n ≤ d →
      Formula Γ .args d v l →
      Formula Γ .whole (d + List.length l) ((.symbol, f) :: v) (Arith.call f l)
  | arg {d u a} : Formula Γ .sum d u a → Formula Γ .args d u [a]
  | args {d u a v l} : Formula Γ .sum d u a → Formula Γ .args d v l →
      Formula Γ .args d (u ++ v) (List.cons a l)

/-- Which words write down a condition: a comparison or one in parentheses (`false`), or a chain of
such (`true`). -/
inductive Test (Γ : Funs) : Bool → Nat → List Word → Cond → Prop
  | cmp {d u a r v b} : Formula Γ .sum d u a → Formula Γ .sum d v b →
      Test Γ false (d + 1) (u ++ ow (Rel.text r) :: v) (.cmp r a b)
  | paren {d u c} : Test Γ true d u c → Test Γ false (d + 1) (pw c!"(" :: (u ++ [pw c!")"])) c
  | one {d u c} : Test Γ false d u c → Test Γ true d u c
  | and {d u c v e} : Test Γ true d u c → Test Γ false d v e →
      Test Γ true (d + 1) (u ++ ow c!"&&" :: v) (.and c e)
  | or {d u c v e} : Test Γ true d u c → Test Γ false d v e →
      Test Γ true (d + 1) (u ++ ow c!"||" :: v) (.or c e)

/-- Which words write down the body of a function. -/
inductive Body (Γ : Funs) : Nat → List Word → Fn → Prop
  | ret {d u a} : Formula Γ .whole d u a → Body Γ d u (.ret a)
  | ite {d c b t x e y} : Test Γ true d c b → Body Γ d t x → t ≠ [] → Body Γ d e y → e ≠ [] →
      Body Γ (d + 1) (kw c!"if" :: (c ++ ((pw c!"{" :: (t ++ [pw c!"}"])) ++
        kw c!"else" :: (pw c!"{" :: (e ++ [pw c!"}"]))))) (.ite b x y)

/-- Kinds of texts: statements that end with a semicolon, conditionals, statements with braces,
blocks. -/
inductive Kind
  | simple | cond | braced | block

def Kind.Val : Kind → Type
  | .block => Block
  | _ => Stmt

/-- `x` may be set by a program: it has no meaning of its own. -/
def Variable (x : Str) : Prop := x ∉ reserved ∧ x ≠ c!"println" ∧ x ≠ c!"CWD"

instance (x : Str) : Decidable (Variable x) := by unfold Variable; infer_instance

/-- Which words write down a program.  (A `let` of a function ends with a semicolon too.) -/
inductive Code (Γ : Funs) : (k : Kind) → Nat → List Word → k.Val → Prop
  | set {d x u a} : Variable x → Formula Γ .whole d u a →
      Code Γ .simple (d + 1) (kw c!"let" :: (.symbol, x) :: pw c!"=" :: u) (Stmt.set x a)
  | fn {d f ps p u b n} : Variable f → (∀ x ∈ p :: ps, Variable x) → Body Γ n u b →
      Γ f = some (List.length (p :: ps), n) →
      Code Γ .simple (d + 1) (kw c!"let" :: (.symbol, f) :: pw c!"=" ::
        ((p :: ps).flatMap (fun x => [(.symbol, x), pw c!"->"]) ++ u)) (Stmt.fn f (p :: ps) b)
  | print {d u a} : Formula Γ .sum d u a →
      Code Γ .simple (d + 1) ((.symbol, c!"println") :: u) (Stmt.print a)
  | when {d u c t p} : Test Γ true d u c → Code Γ .block d t p → t ≠ [] →
      Code Γ .cond (d + 1) (kw c!"if" :: (u ++ pw c!"{" :: (t ++ [pw c!"}"]))) (Stmt.when c p)
  | ite {d u c t p e q} : Test Γ true d u c → Code Γ .block d t p → t ≠ [] → Code Γ .block d e q → e ≠ [] →
      Code Γ .cond (d + 1) (kw c!"if" :: (u ++ ((pw c!"{" :: (t ++ [pw c!"}"])) ++
        kw c!"else" :: (pw c!"{" :: (e ++ [pw c!"}"]))))) (Stmt.ite c p q)
  | elif {d u c t p e s} : Test Γ true d u c → Code Γ .block d t p → t ≠ [] → Code Γ .cond d e s →
      Code Γ .cond (d + 1) (kw c!"if" :: (u ++ ((pw c!"{" :: (t ++ [pw c!"}"])) ++ kw c!"else" :: e)))
        (Stmt.ite c p (.cons s .nil))
  | cond {d u s} : Code Γ .cond d u s → Code Γ .braced d u s
  | loop {d x u a v b t p} : Variable x → Formula Γ .sum d u a → Formula Γ .sum d v b →
      Code Γ .block d t p →
      Code Γ .braced (d + 1) (kw c!"for" :: (.symbol, x) :: kw c!"in" ::
          (u ++ ow c!"to" :: (v ++ pw c!"{" :: (t ++ [pw c!"}"])))) (Stmt.loop x a b p)
  | done {d} : Code Γ .block d [] Block.nil
  | last {d u s} : Code Γ .simple d u s → Code Γ .block (d + 1) u (Block.cons s .nil)
  | simple {d u s v r} : Code Γ .simple d u s → Code Γ .block (d + 1) v r →
      Code Γ .block (d + 1) (u ++ pw c!";" :: v) (Block.cons s r)
  | semi {d u s v r} : Code Γ .braced d u s → Code Γ .block (d + 1) v r →
      Code Γ .block (d + 1) (u ++ pw c!";" :: v) (Block.cons s r)
  | braced {d u s v r} : Code Γ .braced d u s → Code Γ .block (d + 1) v r →
      Code Γ .block (d + 1) (u ++ v) (Block.cons s r)

/-! ### The shell -/

/-- The environment holds the integers of `σ`.  (`CWD` is the current directory.) -/
def Tracks (env : Env) (σ : Vars) : Prop :=
  ∀ x z, x ≠ c!"CWD" → σ x = some (.int z) → ∃ i : I64, i.val = z ∧ env.get x = some (.int i)

/-- There are no functions yet. -/
def NoFns (σ : Vars) : Prop := ∀ x n f, σ x ≠ some (.fn n f)

/-- The lines printed for these numbers. -/
def printed (out : List Int) : Str := (out.map fun z => (toString z).toList ++ c!"\n").flatten

/-- The shell ends a run in the way, with the variables and with the output that are given; `t` is
what was on the screen before. A failure leaves what was set and printed until then. -/
def Ended {W : Type} (shown : W → Str) (t : Str) (r : Ans Unit × State)
    (res : Outcome Expr × Env × W) : Prop :=
  (match r.1 with
    | .ok _ => ∃ v, res.1 = .ok v
    | .error => ∃ msg, res.1 = .err (.customError msg)
    | .crash => res.1 = .panic
    | .open_ => True) ∧
  (match r.1 with
    | .open_ => True
    | _ => Tracks res.2.1 r.2.vars ∧ shown res.2.2 = t ++ printed r.2.out)

/-! ### Several texts, one after the other -/

/-- Programs run one after the other; an error ends only the program, a crash everything. -/
def session : List Block → State → List (Ans Unit) × State
  | [], s => ([], s)
  | p :: l, s =>
    match p.run s with
    | (.ok _, s') => (.ok () :: (session l s').1, (session l s').2)
    | (.error, s') => (.error :: (session l s').1, (session l s').2)
    | (a, s') => ([a], s')

/-- Texts entered one after the other, until one kills the shell. -/
def turns {W : Type} (run : Str → M W Expr) : List Str → Env → W → List (Outcome Expr) × Env × W
  | [], env, w => ([], env, w)
  | s :: l, env, w =>
    match run s env w with
    | (.ok v, env', w') => (.ok v :: (turns run l env' w').1, (turns run l env' w').2)
    | (.err m, env', w') => (.err m :: (turns run l env' w').1, (turns run l env' w').2)
    | (o, env', w') => ([o], env', w')

/-- An end is the one a program should have. -/
def Ends : Ans Unit → Outcome Expr → Prop
  | .ok _, o => ∃ v, o = .ok v
  | .error, o => ∃ msg, o = .err (.customError msg)
  | .crash, o => o = .panic
  | .open_, _ => True

end Dune.Spec.Calc
