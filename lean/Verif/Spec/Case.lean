import Verif.Model.Str
import Mathlib.Data.List.Forall2

/-! Small letters and capitals, for ASCII text. -/

namespace Dune.Spec

def Ascii (s : Str) : Prop := ∀ c ∈ s, c.toNat < 128

def smallLetters : Str := c!"abcdefghijklmnopqrstuvwxyz"
def capitals : Str := c!"ABCDEFGHIJKLMNOPQRSTUVWXYZ"
def numerals : Str := c!"0123456789"

/-- `d` is `c`, as a capital if it is a letter. -/
inductive AsCapital : Char → Char → Prop
  | letter (i : Nat) {c d : Char} : smallLetters[i]? = some c → capitals[i]? = some d → AsCapital c d
  | other {c : Char} : c ∉ smallLetters → AsCapital c c

/-- `d` is `c`, as a small letter if it is a letter. -/
inductive AsSmall : Char → Char → Prop
  | letter (i : Nat) {c d : Char} : capitals[i]? = some c → smallLetters[i]? = some d → AsSmall c d
  | other {c : Char} : c ∉ capitals → AsSmall c c

/-- At this position of the text a word may start: it is the first one, or follows a space. -/
def MayStart (space : Char → Prop) (s : Str) (i : Nat) : Prop :=
  i = 0 ∨ ∃ e, s[i - 1]? = some e ∧ space e

end Dune.Spec
