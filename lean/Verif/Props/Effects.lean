import Verif.Proof.Builtins
import Verif.Proof.Effects
import Verif.Model.Parser
import Verif.Spec.Demo

/-! Property C89: which functions can touch the outside world, and how. -/

namespace Dune.Props

open Spec

variable {W : Type} {P : Plat} {H : Host W} {L : Lib}

/-- The world with a spy which notes whether a request of the given kind was made. -/
def spy (H : Host W) (k : Effect) : Host (W × Bool) where
  io op w := ((H.io op w.1).1, (H.io op w.1).2, w.2 || decide (kind op = k))

/-- C89: if a run makes a request of a kind other than starting a command, then it calls a function
which the table lists for this kind: with these functions, and only these, replaced by an exit with
status `c`, the run exits with status `c`, whatever `c` is. -/
theorem C89_culprit {k : Effect} (hk : k ≠ .command) {n : Nat} {e : Expr} {env : Env} {w : W}
    (h : (evalN P (spy H k) (stdB P L) n e env (w, false)).2.2.2 = true) (c : Int) :
    (evalN P (spy H k) (without [k] c P L) n e env (w, false)).1 = .exit c := by
  rcases without_sim (H := spy H k) (E := [k]) (c := c) (L := L) (P := P) n e env (w, false) with h' | h'
  · exact h'
  · have := (without_keeps (P := P) (H := spy H k) (E := [k]) (c := c) (L := L)
      (I := fun w => w.2 = false) (X := fun _ => True) (fun op w hop hw => by
        simp only [spy, hw, Bool.false_or, decide_eq_false_iff_not]
        rintro rfl
        rcases hop with hop | hop
        · exact hk hop
        · exact hop (by simp)) trivial (fun _ _ => trivial) n e env (w, false) rfl).1
    rw [h', h] at this
    cases this

/-- C89: a fact about the outside world that holds before a run and that is kept by commands and by
all requests except those of the kinds `E` holds after the run too, if no function listed for a kind
in `E` is called; in this case the run is the same with and without these functions. -/
theorem C89_keeps {E : List Effect} {I : W → Prop}
    (hI : ∀ op w, kind op = .command ∨ kind op ∉ E → I w → I (H.io op w).2) {c : Int} {n : Nat}
    {e : Expr} {env : Env} {w : W} (hw : I w)
    (h : (evalN P H (without E c P L) n e env w).1 ≠ .exit c) :
    evalN P H (stdB P L) n e env w = evalN P H (without E c P L) n e env w ∧
      I (evalN P H (stdB P L) n e env w).2.2 := by
  rcases without_sim (H := H) (E := E) (c := c) (L := L) (P := P) n e env w with h' | h'
  · exact absurd h' h
  · exact ⟨h'.symm, h' ▸ (without_keeps (X := fun _ => True) hI trivial (fun _ _ => trivial)
      n e env w hw).1⟩

/-- C89: only `exit` and `input` (at the end of the input) leave the shell (the parser handed to the library does not). -/
theorem C89_leave (hL : ∀ s c, L.parse s ≠ .exit c) {d : Int} {n : Nat} {e : Expr} {env : Env} {w : W}
    (h : (evalN P H (stdB P L) n e env w).1 = .exit d) (c : Int) :
    (evalN P H (without [.leave] c P L) n e env w).1 = .exit c := by
  rcases without_sim (H := H) (E := [.leave]) (c := c) (L := L) (P := P) n e env w with h' | h'
  · exact h'
  · have := (without_keeps (P := P) (H := H) (E := [.leave]) (c := c) (L := L) (I := fun _ => True)
      (X := (· = c)) (fun _ _ _ _ => trivial) rfl (by
        rintro (h | ⟨s, c, h⟩)
        · exact absurd (by simp) h
        · exact absurd h (hL s c)) n e env w trivial).2 d (h' ▸ h)
    rw [h', h, this]

/-! ### The table is exact -/

/-- A world in which paths are canonical and the log level is 5. -/
def answerHost : Host Unit where
  io op w := (match op with
    | .canonicalize p => .str p
    | .getLogLevel => .int (.lit 5)
    | _ => .unit, w)

/-- Does the call make a request of kind `k`? -/
def Does (k : Effect) (id : BId) (args : List Expr) : Prop :=
  (evalN Demo.plat (spy answerHost k) (stdB Demo.plat Demo.lib) 2 (.apply (.builtin [] id []) args)
    ⟨[], []⟩ ((), false)).2.2.2 = true

set_option maxRecDepth 100000 in
/-- C89: every entry of the table is needed: each function listed for a kind can make a request of
this kind. -/
theorem C89_exact {id : BId} {k : Effect} (h : mayDo id k = true) (hid : ∀ n, id ≠ .other n)
    (hk : k ≠ .leave) : ∃ args, Does k id args := by
  cases id <;> cases k <;> first
    | exact absurd h Bool.false_ne_true
    | exact absurd rfl hk
    | exact absurd rfl (hid _)
    | exact ⟨[], rfl⟩
    | exact ⟨[.str []], rfl⟩
    | exact ⟨[.str [], .str []], rfl⟩
    | exact ⟨[.int (.lit 1)], rfl⟩
    | exact ⟨[.str [], .int (.lit 1)], rfl⟩
    | exact ⟨[.int (.lit 1), .int (.lit 2)], rfl⟩
    | exact ⟨[.list [.none, .none]], rfl⟩
    | exact ⟨[.int (.lit 1), .int (.lit 2), .str c!"a"], rfl⟩
    | exact ⟨[.symbol c!"a", .symbol c!"b"], rfl⟩

/-- `exit` leaves the shell. -/
example (w : W) : (evalN P H (stdB P L) 1 (.apply (.builtin [] .exit_ []) []) ⟨[], []⟩ w).1 = .exit 0 := rfl

/-! ### Instances -/

/-- `fn@map (x -> fs@write "f" x) [1]`, with the functions as values -/
def mapWrite : Expr :=
  .apply (.builtin [] .fMap []) [
    .lambda c!"x" (.apply (.builtin [] .fsWrite []) [.str c!"f", .symbol c!"x"]) [] [],
    .list [.int (.lit 1)]]

set_option maxRecDepth 100000 in
example : (evalN Demo.plat (spy answerHost .writeFiles) (stdB Demo.plat Demo.lib) 3 mapWrite ⟨[], []⟩
    ((), false)).2.2.2 = true := rfl

example (c : Int) : (evalN Demo.plat (spy answerHost .writeFiles)
    (without [.writeFiles] c Demo.plat Demo.lib) 3 mapWrite ⟨[], []⟩ ((), false)).1 = .exit c :=
  C89_culprit (by simp) (by set_option maxRecDepth 100000 in rfl) c

/-- A world of which only writing changes anything. -/
def writtenHost : Host (List Str) where
  io op w := match op with
    | .writeFile p _ => (.unit, p :: w)
    | _ => (.unit, w)

/-- `list@rev [1, echo 2]`: nothing is written. -/
def revEcho : Expr :=
  .apply (.builtin [] .lRev []) [.list [.int (.lit 1),
    .apply (.builtin [] .println []) [.int (.lit 2)]]]

set_option maxRecDepth 100000 in
example : (evalN Demo.plat writtenHost (stdB Demo.plat Demo.lib) 3 revEcho ⟨[], []⟩ [c!"a"]).2.2 =
    [c!"a"] :=
  (C89_keeps (E := [.writeFiles]) (c := 0) (I := (· = [c!"a"])) (by
    intro op w hop hw
    cases op <;> first | exact hw | simp [kind] at hop) rfl (by
      have : (evalN Demo.plat writtenHost (without [.writeFiles] 0 Demo.plat Demo.lib) 3 revEcho
        ⟨[], []⟩ [c!"a"]).1 = .ok (.list [.none, .int (.lit 1)]) := rfl
      rw [this]
      simp)).2

/-- The parser of the shell does not leave it. -/
example : ∀ s c, parseText P s ≠ .exit c := by
  intro s c
  rw [parseText]
  split <;> simp

/-! ### Instances: the hypotheses can be met -/

example := C89_leave (P := Demo.plat) (H := Demo.host) (L := Demo.lib) (n := 1) (w := []) (env := ⟨[], []⟩)
  (e := .apply (.builtin [] .exit_ []) []) (d := 0) nofun rfl 7

end Dune.Props
