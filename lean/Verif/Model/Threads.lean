/-!
The threads of the interactive shell (src/bin.rs:452-455 and 655-683): the main thread and the
Ctrl-C handlers all run `repl`, sharing the environment and the line editor, each behind a
`Mutex`.

A step of the system is a step of one thread, chosen by the scheduler.  What a thread does while it
holds both locks (prompt, reading a line, evaluation) is any number of small steps `act` on the
shared data `S` and its own data `L` (the pending lines).  Thread 0 is the main thread; when it
panics or when any thread calls `exit`, the process is ended.

Simplification: `Mutex::lock` is a single step that is possible when the mutex is free; a thread
that panics while holding a guard poisons that mutex, and `lock().unwrap()` on a poisoned mutex
panics.
-/

namespace Dune.Threads

/-- Where a thread is. -/
inductive PC
  /-- not started: Ctrl-C has not been pressed for it -/
  | idle
  /-- at `atomic_env.lock().unwrap()` (line 453) -/
  | wantEnv
  /-- at `atomic_rl.lock().unwrap()` (line 454), holding the environment -/
  | wantRl
  /-- in the body (455-531), holding both -/
  | body
  /-- at the end of the body the guards are dropped in reverse order: the editor has been released -/
  | dropEnv
  /-- the thread has panicked -/
  | dead
deriving DecidableEq

/-- The body of the loop: small steps on the data of the thread and on the shared data. -/
structure Body (L S : Type) where
  act : L → S → L → S → Prop
  /-- the end of the iteration is reached -/
  finished : L → Prop
  /-- the data at the beginning of the next iteration -/
  next : L → L

/-- The state of the process. -/
structure Conf (L S : Type) where
  pc : Nat → PC
  loc : Nat → L
  shared : S
  /-- which thread holds the mutex of the environment, of the editor -/
  envBy : Option Nat
  rlBy : Option Nat
  envPoisoned : Bool
  rlPoisoned : Bool
  ended : Bool

variable {L S : Type}

/-- change the value at one thread -/
def put {α : Type} (f : Nat → α) (t : Nat) (a : α) : Nat → α := fun u => if u = t then a else f u

/-- What a step does. -/
inductive Ev
  | start
  | lockEnv
  | panicEnv
  | lockRl
  | panicRl
  | act
  | crash
  | exit
  | releaseRl
  | releaseEnv
deriving DecidableEq

/-- One step of thread `t`. -/
inductive Step (B : Body L S) (t : Nat) : Ev → Conf L S → Conf L S → Prop
  /-- Ctrl-C: a handler starts `repl` (src/bin.rs:674-676) -/
  | start {c} : c.ended = false → c.pc t = .idle →
      Step B t .start c { c with pc := put c.pc t .wantEnv }
  | lockEnv {c} : c.ended = false → c.pc t = .wantEnv → c.envBy = none → c.envPoisoned = false →
      Step B t .lockEnv c { c with pc := put c.pc t .wantRl, envBy := some t }
  /-- `lock().unwrap()` on the poisoned environment -/
  | panicEnv {c} : c.ended = false → c.pc t = .wantEnv → c.envBy = none → c.envPoisoned = true →
      Step B t .panicEnv c { c with pc := put c.pc t .dead, ended := t == 0 }
  | lockRl {c} : c.ended = false → c.pc t = .wantRl → c.rlBy = none → c.rlPoisoned = false →
      Step B t .lockRl c { c with pc := put c.pc t .body, rlBy := some t }
  /-- `lock().unwrap()` on the poisoned editor: the guard of the environment is dropped -/
  | panicRl {c} : c.ended = false → c.pc t = .wantRl → c.rlBy = none → c.rlPoisoned = true →
      Step B t .panicRl c { c with pc := put c.pc t .dead, envBy := none, envPoisoned := true, ended := t == 0 }
  | act {c l' s'} : c.ended = false → c.pc t = .body → ¬ B.finished (c.loc t) →
      B.act (c.loc t) c.shared l' s' →
      Step B t .act c { c with loc := put c.loc t l', shared := s' }
  /-- a panic in the body drops both guards -/
  | crash {c} : c.ended = false → c.pc t = .body → ¬ B.finished (c.loc t) →
      Step B t .crash c { c with
        pc := put c.pc t .dead
        envBy := none
        rlBy := none
        envPoisoned := true
        rlPoisoned := true
        ended := t == 0 }
  /-- `exit` in the body -/
  | exit {c} : c.ended = false → c.pc t = .body → ¬ B.finished (c.loc t) →
      Step B t .exit c { c with ended := true }
  | releaseRl {c} : c.ended = false → c.pc t = .body → B.finished (c.loc t) →
      Step B t .releaseRl c { c with
        pc := put c.pc t .dropEnv
        rlBy := none
        loc := put c.loc t (B.next (c.loc t)) }
  | releaseEnv {c} : c.ended = false → c.pc t = .dropEnv →
      Step B t .releaseEnv c { c with pc := put c.pc t .wantEnv, envBy := none }

/-- The beginning of `repl` in the main thread (src/bin.rs:679). -/
def init (l : L) (s : S) : Conf L S where
  pc t := if t = 0 then .wantEnv else .idle
  loc _ := l
  shared := s
  envBy := none
  rlBy := none
  envPoisoned := false
  rlPoisoned := false
  ended := false

/-- What can happen from the beginning, under any schedule. -/
inductive Reachable (B : Body L S) (l : L) (s : S) : Conf L S → Prop
  | init : Reachable B l s (init l s)
  | step {c c' t k} : Reachable B l s c → Step B t k c c' → Reachable B l s c'

end Dune.Threads
