import Verif.Spec.Readable

/-!
Which code can be printed and read again, and what it is read as.
-/

namespace Dune.Spec

mutual

/-- What the printed form of code is read as: a function forgets the variables it has captured, and the
`else` branch of a conditional is read as if in parentheses. -/
def reread : Expr → Expr
  | .group e => .group (reread e)
  | .quote e => .quote (reread e)
  | .list l => .list (rereads l)
  | .do_ l => .do_ (rereads l)
  | .apply f l => .apply (reread f) (rereads l)
  | .lambda p b _ _ => .lambda p (reread b) [] []
  | .macro_ p b => .macro_ p (reread b)
  | .assign x e => .assign x (reread e)
  | .ite c t e => .ite (reread c) (reread t) (.group (reread e))
  | .for_ x l b => .for_ x (reread l) (reread b)
  | e => e

def rereads : List Expr → List Expr
  | [] => []
  | e :: l => reread e :: rereads l

end

/-- Operands may stand anywhere; the other statements only in brackets, after `->`, `~>` and `=`, and
between semicolons. -/
inductive Place
  | operand | stmt

/-- Code that can be printed and read again, and where its printed form may stand. -/
inductive ShownCode (P : Plat) : Place → Expr → Prop
  | int (n) : ShownCode P .operand (.int n)
  | bool (b) : ShownCode P .operand (.bool b)
  | none : ShownCode P .operand .none
  | str {s} : (∀ c ∈ s, readableChar P c) → ShownCode P .operand (.str s)
  | name {x} : Lexeme (.symbol, x) → ShownCode P .operand (.symbol x)
  | quote {e} : ShownCode P .operand e → ShownCode P .operand (.quote e)
  | group {e} : ShownCode P .stmt e → ShownCode P .operand (.group e)
  | list {l} : (∀ e ∈ l, ShownCode P .stmt e) → ShownCode P .operand (.list l)
  | block {l} : l ≠ [] → (∀ e ∈ l, ShownCode P .stmt e) → ShownCode P .operand (.do_ l)
  | operand {e} : ShownCode P .operand e → ShownCode P .stmt e
  | op {s} : s ∈ opNames → ShownCode P .stmt (.symbol s)
  | call {f l} : ShownCode P .operand f → l ≠ [] → (∀ e ∈ l, ShownCode P .operand e) →
      ShownCode P .stmt (.apply f l)
  | opCall {s l} : s ∈ opNames → l ≠ [] → (∀ e ∈ l, ShownCode P .operand e) →
      ShownCode P .stmt (.apply (.symbol s) l)
  | lambda {x b bs ps} : Lexeme (.symbol, x) → ShownCode P .stmt b →
      ShownCode P .stmt (.lambda x b bs ps)
  | macro_ {x b} : Lexeme (.symbol, x) → ShownCode P .stmt b → ShownCode P .stmt (.macro_ x b)
  | let_ {x e} : Lexeme (.symbol, x) → ShownCode P .stmt e → ShownCode P .stmt (.assign x e)
  | letOp {s e} : s ∈ opNames → ShownCode P .stmt e → ShownCode P .stmt (.assign s e)
  | ite {c t e} : ShownCode P .operand c → ShownCode P .operand t → ShownCode P .operand e →
      ShownCode P .stmt (.ite c t e)
  | for_ {x l s} : Lexeme (.symbol, x) → ShownCode P .operand l →
      (∀ e ∈ s, ShownCode P .stmt e) → ShownCode P .stmt (.for_ x l (.do_ s))

end Dune.Spec
