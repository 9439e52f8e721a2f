/-!
One program of a pipeline that is not the first, seen from close up (`pipe_builtin`,
src/binary/init/operator_module.rs:349-420): the shell writes the whole input into the program's
standard input, only then closes it (`wait` and `wait_with_output` of the Rust standard library drop
the handle), and then collects the output (unless the program is the last one and writes to the
terminal) until the program ends.  The model `pipeB` takes all this as a single request.

A pipe is a queue of at most `cap` bytes (64 KiB on Linux); whoever writes to a full pipe or reads from
an empty one that is not closed has to wait.  The program is any automaton that reads, writes and exits.
The scheduler chooses who goes on.

Simplifications: bytes are moved one at a time; standard error, `flush` (which does nothing here) and a
program that closes its ends of the pipes before it exits are left out.
-/

namespace Dune.Stage

/-- What a program does next; reading gives no byte at the end of the input. -/
inductive Act (Q : Type)
  | read (k : Option UInt8 → Q)
  | write (b : UInt8) (q : Q)
  | exit

/-- Where the shell is. -/
inductive Shell
  /-- in `write_all` (356), with these bytes to go -/
  | writing (rest : List UInt8)
  /-- in `wait_with_output` (392), with these bytes read -/
  | collecting (got : List UInt8)
  /-- in `wait` (380) -/
  | waiting
  /-- the program has ended and this was collected -/
  | done (got : List UInt8)
  /-- `write_all` gave an error (357-360) -/
  | failed

structure Conf (Q : Type) where
  shell : Shell
  /-- the pipe to the program -/
  inp : List UInt8
  /-- no more will be written to it -/
  closed : Bool
  /-- the state of the program, until it exits -/
  prog : Option Q
  /-- the pipe from the program; of the last program, what it has written to the terminal -/
  out : List UInt8

variable {Q : Type}

/-- The program has been started. -/
def init (q : Q) (input : List UInt8) : Conf Q := ⟨.writing input, [], false, some q, []⟩

/-- A step of the shell or of the program. -/
inductive Step (cap : Nat) (last : Bool) (act : Q → Act Q) : Conf Q → Conf Q → Prop
  | put {b r i q o} : i.length < cap →
      Step cap last act ⟨.writing (b :: r), i, false, some q, o⟩ ⟨.writing r, i ++ [b], false, some q, o⟩
  /-- nobody is left to read -/
  | broken {b r i o} : Step cap last act ⟨.writing (b :: r), i, false, none, o⟩ ⟨.failed, i, false, none, o⟩
  | close {i p o} : Step cap last act ⟨.writing [], i, false, p, o⟩
      ⟨if last then .waiting else .collecting [], i, true, p, o⟩
  | collect {g i c p b o} : Step cap last act ⟨.collecting g, i, c, p, b :: o⟩ ⟨.collecting (g ++ [b]), i, c, p, o⟩
  | collected {g i c} : Step cap last act ⟨.collecting g, i, c, none, []⟩ ⟨.done g, i, c, none, []⟩
  | waited {i c o} : Step cap last act ⟨.waiting, i, c, none, o⟩ ⟨.done [], i, c, none, o⟩
  | read {s b i c q k o} : act q = .read k →
      Step cap last act ⟨s, b :: i, c, some q, o⟩ ⟨s, i, c, some (k (some b)), o⟩
  | readEnd {s q k o} : act q = .read k →
      Step cap last act ⟨s, [], true, some q, o⟩ ⟨s, [], true, some (k none), o⟩
  | write {s i c q b q' o} : act q = .write b q' → last = true ∨ o.length < cap →
      Step cap last act ⟨s, i, c, some q, o⟩ ⟨s, i, c, some q', o ++ [b]⟩
  | exit {s i c q o} : act q = .exit → Step cap last act ⟨s, i, c, some q, o⟩ ⟨s, i, c, none, o⟩

/-- After so many steps. -/
inductive Steps (cap : Nat) (last : Bool) (act : Q → Act Q) : Nat → Conf Q → Conf Q → Prop
  | zero {c} : Steps cap last act 0 c c
  | succ {n c d e} : Steps cap last act n c d → Step cap last act d e → Steps cap last act (n + 1) c e

end Dune.Stage
