import Verif.Model.Stage

/-! What a program does with its whole input, and kinds of programs. -/

namespace Dune.Spec

open Dune.Stage

variable {Q : Type}

/-- `Replies act m q i o r`: from `q`, with `i` still to be read, the program exits after `m` actions,
having written `o`, and leaves `r` unread. -/
inductive Replies (act : Q → Act Q) : Nat → Q → List UInt8 → List UInt8 → List UInt8 → Prop
  | exit {q i} : act q = .exit → Replies act 1 q i [] i
  | read {m q k b i o r} : act q = .read k → Replies act m (k (some b)) i o r →
      Replies act (m + 1) q (b :: i) o r
  | readEnd {m q k o r} : act q = .read k → Replies act m (k none) [] o r → Replies act (m + 1) q [] o r
  | write {m q b q' i o r} : act q = .write b q' → Replies act m q' i o r →
      Replies act (m + 1) q i (b :: o) r

/-- A program that writes nothing before the end of its input, like `sort` or `wc`. -/
def Patient (act : Q → Act Q) (q : Q) : Prop :=
  ∃ S : Q → Prop, S q ∧ ∀ q, S q → act q = .exit ∨ ∃ k, act q = .read k ∧ ∀ b, S (k (some b))

/-- A program that goes on reading for as long as there is input, and holds back at most `h` bytes, like
`cat` (`h` is the size of its buffer): `lag q` is how many more bytes it has read than written. -/
def Prompt (act : Q → Act Q) (q : Q) (h : Nat) : Prop :=
  ∃ (S : Q → Prop) (lag : Q → Nat), S q ∧ ∀ q, S q → lag q ≤ h ∧
    ((∃ k, act q = .read k ∧ ∀ b, S (k (some b)) ∧ lag (k (some b)) = lag q + 1) ∨
     ∃ b q', act q = .write b q' ∧ S q' ∧ lag q ≤ lag q' + 1)

/-- The shell goes on no more. -/
def Ended (c : Conf Q) : Prop := c.shell = .failed ∨ ∃ g, c.shell = .done g

/-- Nobody can go on. -/
def Stuck (cap : Nat) (last : Bool) (act : Q → Act Q) (c : Conf Q) : Prop := ∀ d, ¬Step cap last act c d

end Dune.Spec
