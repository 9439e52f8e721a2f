import Verif.Spec.Scan
import Verif.Model.Fmt

/-! Values whose printed form can be read back, stated without printer and parser. -/

namespace Dune.Spec

/-- A character whose printed form in a string can be read back.  (NUL is printed as `\0`, which is
not an escape of the language; escapes of more than five hexadecimal digits are not read.) -/
def readableChar (P : Plat) (c : Char) : Prop :=
  c ≠ Char.ofNat 0 ∧ (P.escNonAscii c = true → c.toNat < 0x100000)

/-- Values built from integers, booleans, `None`, strings, names, lists, quotes and groups. -/
inductive Readable (P : Plat) : Expr → Prop
  | int (n) : Readable P (.int n)
  | bool (b) : Readable P (.bool b)
  | none : Readable P .none
  | str {s} : (∀ c ∈ s, readableChar P c) → Readable P (.str s)
  | name {x} : Lexeme (.symbol, x) → Readable P (.symbol x)
  | list {l} : (∀ e ∈ l, Readable P e) → Readable P (.list l)
  | quote {e} : Readable P e → Readable P (.quote e)
  | group {e} : Readable P e → Readable P (.group e)

/-- How the user writes a string: double quotes and backslashes are preceded by a backslash. -/
def quoted (s : Str) : Str :=
  '"' :: s.flatMap (fun c => if c = '"' ∨ c = '\\' then ['\\', c] else [c]) ++ ['"']

end Dune.Spec
