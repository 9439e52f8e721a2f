import Verif.Spec.Grammar

/-!
How deep brackets are nested in a program, counting only brackets at the start of an expression.
-/

namespace Dune.Spec

/-- loops and conditionals -/
def Control : Expr → Prop
  | .for_ .. => True
  | .ite .. => True
  | _ => False

/-- `Bracketed P n u x`: the words `u` form an expression that stands for `x` and has `n` levels of
brackets, one inside the other, each opening where an expression starts.  A block counts twice.  What
follows a bracket in its expression, and the rest of a list, map or block, is free. -/
inductive Bracketed (P : Plat) : Nat → List Word → Expr → Prop
  /-- any expression -/
  | expr {u x} : G P .expr u x → Bracketed P 0 u x
  /-- `( … )` -/
  | paren {n u y v x} : Bracketed P n u y → G P .logic (pw c!"(" :: (u ++ pw c!")" :: v)) x →
      Bracketed P (n + 1) (pw c!"(" :: (u ++ pw c!")" :: v)) x
  /-- `[ …` -/
  | list {n u y c v x} : Bracketed P n u y → c ∈ [c!"]", c!","] →
      G P .logic (pw c!"[" :: (u ++ pw c :: v)) x → Bracketed P (n + 1) (pw c!"[" :: (u ++ pw c :: v)) x
  /-- `{ key = …` -/
  | map {n w u y c v x} : Named w → Bracketed P n u y → c ∈ [c!"}", c!","] →
      G P .logic (pw c!"{" :: w :: pw c!"=" :: (u ++ pw c :: v)) x →
      Bracketed P (n + 1) (pw c!"{" :: w :: pw c!"=" :: (u ++ pw c :: v)) x
  /-- `{ … ; … ; … }`: the last expression of a block -/
  | block {n u y v x} {stmts : List (List Word × Expr)} : (∀ p ∈ stmts, G P .expr p.1 p.2) →
      Bracketed P n u y → ¬ Control y →
      G P .logic (pw c!"{" :: (stmts.flatMap (fun p => p.1 ++ [pw c!";"]) ++ (u ++ pw c!"}" :: v))) x →
      Bracketed P (n + 2)
        (pw c!"{" :: (stmts.flatMap (fun p => p.1 ++ [pw c!";"]) ++ (u ++ pw c!"}" :: v))) x
  /-- the body of a function -/
  | lambda {n x u b} : x ∉ reserved → Bracketed P n u b →
      Bracketed P n ((.symbol, x) :: pw c!"->" :: u) (.lambda x b [] [])
  /-- the value of a definition -/
  | let_ {n w u x} : Named w → Bracketed P n u x →
      Bracketed P n (kw c!"let" :: w :: pw c!"=" :: u) (.assign w.2 x)

/-- the words are literals or names -/
def PlainWords (P : Plat) (ws : List Word) : Prop := ∀ w ∈ ws, ∃ x, Atom P w x

/-- the words of commands, each with a semicolon -/
def commandWords (cs : List (List Word)) : List Word := cs.flatMap fun c => c ++ [pw c!";"]

end Dune.Spec
