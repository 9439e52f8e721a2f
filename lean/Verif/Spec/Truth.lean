import Verif.Model.Arith

/-!
Which values count as true, which names a piece of code mentions, and which number a floating-point
value stands for; said independently of the functions of the model.
-/

namespace Dune.Spec

/-- The values that count as true in a condition. -/
inductive Truthy : Expr → Prop
  | int {i : I64} : i.val ≠ 0 → Truthy (.int i)
  /-- all but the two zeros; a NaN counts as true -/
  | float {f : F64} : f.bits ≠ 0x0000000000000000 → f.bits ≠ 0x8000000000000000 → Truthy (.float f)
  | str {s : Str} : s ≠ [] → Truthy (.str s)
  | bytes {b : List UInt8} : b ≠ [] → Truthy (.bytes b)
  | bool : Truthy (.bool true)
  | list {l : List Expr} : l ≠ [] → Truthy (.list l)
  | map {m : List (Str × Expr)} : m ≠ [] → Truthy (.map m)
  | lambda {p : Str} {body : Expr} {bs : List (Str × Expr)} {ps : List (List (Str × Expr))} :
    Truthy (.lambda p body bs ps)
  | macro_ {p : Str} {body : Expr} : Truthy (.macro_ p body)
  | builtin {nm : Str} {id : BId} {hlp : Str} : Truthy (.builtin nm id hlp)

/-- `Part e x`: `x` is written directly inside `e`. -/
inductive Part : Expr → Expr → Prop
  | forList {x : Str} {l body : Expr} : Part (.for_ x l body) l
  | forBody {x : Str} {l body : Expr} : Part (.for_ x l body) body
  | statement {l : List Expr} {e : Expr} : e ∈ l → Part (.do_ l) e
  | item {l : List Expr} {e : Expr} : e ∈ l → Part (.list l) e
  | entry {m : List (Str × Expr)} {k : Str} {e : Expr} : (k, e) ∈ m → Part (.map m) e
  | group {e : Expr} : Part (.group e) e
  | quote {e : Expr} : Part (.quote e) e
  | function {p : Str} {body : Expr} {bs : List (Str × Expr)} {ps : List (List (Str × Expr))} :
    Part (.lambda p body bs ps) body
  | macro_ {p : Str} {body : Expr} : Part (.macro_ p body) body
  | assign {x : Str} {e : Expr} : Part (.assign x e) e
  | condition {c t e : Expr} : Part (.ite c t e) c
  | then_ {c t e : Expr} : Part (.ite c t e) t
  | else_ {c t e : Expr} : Part (.ite c t e) e
  | applied {f : Expr} {args : List Expr} : Part (.apply f args) f
  | argument {f a : Expr} {args : List Expr} : a ∈ args → Part (.apply f args) a

/-- The name is used somewhere in the expression, however deep. -/
inductive Mentions : Expr → Str → Prop
  | here (x : Str) : Mentions (.symbol x) x
  | inside {e e' : Expr} {x : Str} : Part e e' → Mentions e' x → Mentions e x

/-! Binary64: one bit for the sign, 11 for the exponent, 52 for the fraction. -/

def exponentOf (f : F64) : Nat := f.bits.toNat / 2 ^ 52 % 2 ^ 11
def fractionOf (f : F64) : Nat := f.bits.toNat % 2 ^ 52

/-- the exponent is all ones and the fraction is not zero -/
def IsNaN (f : F64) : Prop := exponentOf f = 2047 ∧ fractionOf f ≠ 0

instance : DecidablePred IsNaN := fun _ => inferInstanceAs (Decidable (_ ∧ _))

/-- The number a floating-point value stands for, in multiples of the smallest positive one
(2^-1074): the fraction itself for the exponent 0, and otherwise a leading one and the fraction,
shifted by the exponent.  The infinities come out beyond all other numbers. -/
def multiples (f : F64) : Int :=
  (if f.bits.toNat < 2 ^ 63 then 1 else -1) *
    if exponentOf f = 0 then (fractionOf f : Int)
    else ((2 ^ 52 + fractionOf f) * 2 ^ (exponentOf f - 1) : Nat)

end Dune.Spec
