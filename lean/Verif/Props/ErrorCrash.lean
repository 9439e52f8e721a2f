import Verif.Props.Startup
import Verif.Props.Errors
import Verif.Proof.KernelRfl

/-! C65: a message that cannot be printed ends the shell. -/

namespace Dune.Props

open Spec

section

variable {W : Type} {P : Plat} {H : Host W} {ev : Expr → M W Expr} {env env0 : Env} {w w0 w1 : W}
  {S : Main.Setup} {rs : List Repl.Reading}

/-- C65.  A script with such an error crashes the shell, which writes nothing about it. -/
theorem C65_script_crash (hst : Starts P ev env env0 w w0) (hP : P.overflowChecks = true) {f m b v : Str}
    (hb : Lex.Denotes (m ++ '\n' :: b) v) (hm : InLine m) (hl : '\n' ∉ b) (hlong : 72 ≤ b.length)
    (hf : Reads H f (c!"let \"" ++ m ++ c!"\n" ++ b ++ c!"\"") w0 w1) :
    Main.main P H ev S { file := some f } rs env w = (.panic, env0, w1) := by
  obtain ⟨e, hp, hd⟩ := C65_crash hP hb hm hl hlong
  have h : Main.orPrint P H [] (Main.runFile P H ev f) env0 w0 = (.panic, env0, w1) := by
    simp only [Main.orPrint]
    rw [M.bind_ok (a := .error e) (env' := env0) (w' := w1) (by
      simp only [M.catch_, (runFile_text hf).trans (runText_err hp)])]
    simp only [Main.eprintErrorAs, hd]
    rfl
  rw [main_file, M.bind_ok hst, M.bind_panic h]

theorem joinStr_newline : ∀ ls : List Str, joinStr c!"\n" ls = List.intercalate c!"\n" ls
  | [] => rfl
  | [l] => by simp [joinStr, List.intercalate]
  | l :: l' :: ls => by
    rw [joinStr, joinStr_newline (l' :: ls)]
    simp [List.intercalate, List.intersperse]

/-- C65.  At the prompt, giving up an unfinished text with a blank line crashes the shell if its message cannot be
printed. -/
theorem C65_prompt_crash {lines : List Str} {e : Error}
    (hp : parseText P (List.intercalate c!"\n" (lines ++ [[]])) = .err e) (hd : displayError P e = none) : Repl.takeLine P H ev lines [] env w = (.panic, env, w) := by
  rw [← joinStr_newline] at hp
  simp only [Repl.takeLine, hp, if_true, eprintError, hd]
  rfl

end

example : Main.main Demo.plat
    (mainHost (some (c!"let \"" ++ c!"a" ++ c!"\n" ++ List.replicate 80 'b' ++ c!"\"")) true)
    (mainEv (some (c!"let \"" ++ c!"a" ++ c!"\n" ++ List.replicate 80 'b' ++ c!"\"")) true) mainSetup
    { file := some c!"a.dune" } [] Demo.env [] = (.panic, started Demo.env, [.readFile c!"a.dune"]) :=
  C65_script_crash (main_starts _ _) rfl (v := 'a' :: '\n' :: List.replicate 80 'b') (by
    refine .char (by decide) (by decide) (.char (by decide) (by decide) ?_)
    generalize 80 = n
    induction n with
    | zero => exact .nil
    | succ n ih => exact .char (by decide) (by decide) ih) (by unfold InLine; decide) (by simp) (by simp) rfl

/-- The lines `let "a` and `bb…b"`, followed by a blank line. -/
example (ev : Expr → M Nat Expr) (H : Host Nat) (env : Env) (w : Nat) :
    Repl.takeLine Demo.plat H ev [c!"let \"a", List.replicate 80 'b' ++ c!"\""] [] env w = (.panic, env, w) := by
  have h : (match parseText Demo.plat (List.intercalate c!"\n" ([c!"let \"a", List.replicate 80 'b' ++ c!"\""] ++ [[]])) with
      | .err e => (displayError Demo.plat e).isNone
      | _ => false) = true := by decide +kernel
  split at h
  case h_2 => cases h
  rename_i e hp
  exact C65_prompt_crash hp (Option.isNone_iff_eq_none.mp h)

end Dune.Props
