import Verif.Props.Repl
import Verif.Props.Basics
import Verif.Props.Compare

/-! Property C61, continued: what the prompt does with the value of an accepted text. -/

namespace Dune.Props

open Spec Repl

variable {W : Type} {P : Plat} {H : Host W} {ev : Expr → M W Expr}

/-- A value that is shown as it is. -/
def ShownAsIs : Expr → Prop
  | .symbol _ | .none | .macro_ .. => False
  | _ => True

/-- C61: the value of an accepted text is shown once, on a line of its own, and is not evaluated
again: code is shown, not run. -/
theorem C61_shown {L : Lib} {n : Nat} {env env1 : Env} {w w1 : W} {shown : W → Str} {ls : List Str}
    {e v : Expr} (hs : Std env1) (hc : Console H shown) (hv : ShownAsIs v)
    (he : evalN P H (stdB P L) (n + 1) e env w = (.ok v, env1, w1)) :
    ∃ w2, finish P H (evalN P H (stdB P L) (n + 1)) (.run ls e) env w = (.ok (), env1, w2) ∧
      shown w2 = shown w1 ++ display P v ++ c!"\n" := by
  obtain ⟨w2, h1, _, h2⟩ := C71_report (P := P) (L := L) (n := n) hs hc
    (evalN_quote n v env1 w1)
  refine ⟨w2, ?_, h2 (by rintro rfl; exact hv)⟩
  simp only [finish, runAccepted]
  rw [M.bind_ok (a := .ok v) (env' := env1) (w' := w1) (by rw [M.catch_, he])]
  cases v <;> first
    | exact hv.elim
    | (simp only [showValue]
       rw [M.bind_ok (a := .ok .none) (env' := env1) (w' := w2) (by rw [M.catch_, h1])]
       rfl)

/-- C61: for `None` nothing is shown. -/
theorem C61_none {env env1 : Env} {w w1 : W} {ls : List Str} {e : Expr}
    (he : ev e env w = (.ok .none, env1, w1)) :
    finish P H ev (.run ls e) env w = (.ok (), env1, w1) := by
  simp only [finish, runAccepted]
  rw [M.bind_ok (a := .ok .none) (env' := env1) (w' := w1) (by rw [M.catch_, he])]
  rfl

/-- C61: if the value is a name, it is run as a program (or function) without arguments. -/
theorem C61_name {env env1 env2 : Env} {w w1 w2 : W} {ls : List Str} {e v : Expr} {x : Str}
    (he : ev e env w = (.ok (.symbol x), env1, w1))
    (hx : ev (.apply (.symbol x) []) env1 w1 = (.ok v, env2, w2)) :
    finish P H ev (.run ls e) env w = (.ok (), env2, w2) := by
  simp only [finish, runAccepted]
  rw [M.bind_ok (a := .ok (.symbol x)) (env' := env1) (w' := w1) (by rw [M.catch_, he])]
  simp only [showValue]
  rw [M.bind_ok (a := .ok v) (env' := env2) (w' := w2) (by rw [M.catch_, hx])]
  rfl

/-- C61: an error of the evaluation is shown on standard error, and the prompt goes on. -/
theorem C61_error {env env1 : Env} {w w1 w2 : W} {ls : List Str} {e : Expr} {er : Error} {s : Str}
    {r : IORes} (he : ev e env w = (.err er, env1, w1)) (hd : displayError P er = some s)
    (hp : H.io (.eprint (s ++ c!"\n")) w1 = (r, w2)) (hr : ∀ x, r ≠ .err x) :
    finish P H ev (.run ls e) env w = (.ok (), env1, w2) := by
  simp only [finish, runAccepted]
  rw [M.bind_ok (a := .error er) (env' := env1) (w' := w1) (by rw [M.catch_, he])]
  simp only [showValue, eprintError, hd, eprintLine]
  rw [M.bind_ok (a := r) (env' := env1) (w' := w2) (by simp only [M.io, hp])]
  cases r <;> first | exact absurd rfl (hr _) | rfl

/-- `''(exit 3)` has code as its value, which is shown and not run -/
example : ∃ w2, finish Demo.plat Demo.host (evalN Demo.plat Demo.host (stdB Demo.plat Demo.lib) 1)
      (.run [c!"''(exit 3)"] (.quote (.group (.apply (.symbol c!"exit") [.int (.lit 3)])))) Demo.env [] =
        (.ok (), Demo.env, w2) ∧
      demoShown w2 = display Demo.plat (.group (.apply (.symbol c!"exit") [.int (.lit 3)])) ++ c!"\n" :=
  C61_shown demo_std demo_console (v := .group _) trivial (evalN_quote ..)

/-! ### Instances: the hypotheses can be met -/

example := C61_none (P := Demo.plat) (H := Demo.host) (ev := evalN Demo.plat Demo.host (stdB Demo.plat Demo.lib) 1)
  (env := Demo.env) (w := []) (ls := [c!"let x = 1"]) (e := .assign c!"x" (.int (.lit 1))) rfl

example := C61_name (P := Demo.plat) (H := Demo.host) (ev := evalN Demo.plat Demo.host (stdB Demo.plat Demo.lib) 1)
  (env := Demo.env) (w := []) (ls := [c!"ls"]) (e := .symbol c!"ls") rfl rfl

end Dune.Props
