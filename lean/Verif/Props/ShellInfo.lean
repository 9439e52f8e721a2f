import Verif.Model.ShellInfo
import Verif.Proof.Start
import Verif.Props.Basics

/-! C127: the module `shell`. -/

namespace Dune.Props

open Spec Init

theorem start_shell (X : Machine) (S : ShellInfo) :
    (start (withShell X S)).get c!"shell" = some (.map (BMap.ofList (shellModule X S))) := (start_get _).trans rfl

/-- The lines of a text. -/
inductive LineOf (s : Str) : Str → Prop
  | mk (a b : Str) : '\n' ∉ s → (a = [] ∨ a.getLast? = some '\n') → (b = [] ∨ b.head? = some '\n') → LineOf s (a ++ s ++ b)

theorem suggestion_line {i : Nat} (h : i < suggestions.length) :
    suggestions.getD i [] ≠ [] ∧ LineOf (suggestions.getD i []) suggestionsText := by
  have h6 : suggestions.length = 6 := by decide +kernel
  rw [h6] at h
  have key : ∀ i < 6, ∃ j k, suggestions.getD i [] ≠ [] ∧ '\n' ∉ suggestions.getD i [] ∧
      suggestionsText = suggestionsText.take j ++ suggestions.getD i [] ++ suggestionsText.drop k ∧
      (suggestionsText.take j = [] ∨ (suggestionsText.take j).getLast? = some '\n') ∧
      (suggestionsText.drop k = [] ∨ (suggestionsText.drop k).head? = some '\n') := by
    intro i hi
    refine ⟨((suggestions.take i).map fun s => s.length + 1).sum,
      ((suggestions.take i).map fun s => s.length + 1).sum + (suggestions.getD i []).length, ?_⟩
    revert i
    decide +kernel
  obtain ⟨j, k, h0, h1, h2, h3, h4⟩ := key i h
  refine ⟨h0, ?_⟩
  have := LineOf.mk (s := suggestions.getD i []) _ _ h1 h3 h4
  rwa [← h2] at this

section

variable {W : Type} {P : Plat} {H : Host W} {L : Lib} {n : Nat} {w : W} {X : Machine} {S : ShellInfo}

theorem evalN_shell {f : Str} {v : Expr} (h : BMap.get? (BMap.ofList (shellModule X S)) f = some v) :
    evalN P H (stdB P L) (n + 1) (member c!"shell" f) (start (withShell X S)) w =
      (.ok v, start (withShell X S), w) :=
  evalD_member (k := 799) ((start_std (X := withShell X S)).op (Init.b c!"@" .index) (by mem_tac)) (start_shell X S) h

/-- C127.  `shell@suggestion` is a line of the file of suggestions, and not empty.  It is the same line whenever it is
asked for (refuted: that there is a new suggestion each time). -/
theorem C127_suggestion (hp : S.pick < suggestions.length) : ∃ s : Str, s ≠ [] ∧ LineOf s suggestionsText ∧
    ∀ (n : Nat) (w : W), evalN P H (stdB P L) (n + 1) (member c!"shell" c!"suggestion") (start (withShell X S)) w =
      (.ok (.str s), start (withShell X S), w) :=
  ⟨_, (suggestion_line hp).1, (suggestion_line hp).2, fun _ _ => evalN_shell rfl⟩

/-- C127.  `shell@prelude` is the path of `.dune-prelude` in the home directory if this file was there when the shell
started, and `None` otherwise or if there is no home directory. -/
theorem C127_prelude : ∃ v, evalN P H (stdB P L) (n + 1) (member c!"shell" c!"prelude") (start (withShell X S)) w =
      (.ok v, start (withShell X S), w) ∧
    (∀ home p, X.home = some home → S.preludeThere = true → Resolved home c!".dune-prelude" p → v = .str p) ∧
    (X.home = none ∨ S.preludeThere = false → v = .none) := by
  refine ⟨_, evalN_shell rfl, fun home p h h' hp => ?_, fun h => ?_⟩
  · rw [h]
    simp only [h', if_true]
    rw [hp.join]
  · rcases h with h | h
    · rw [h]
    · cases X.home with
      | none => rfl
      | some home => simp [h]

/-- C127, refuted: that `shell@prelude` tells whether the file is there.  When it was not there at the start, the answer
is `None` in every world, also after the shell has written the file. -/
theorem C127_stale_refuted (h : S.preludeThere = false) (w : W) :
    evalN P H (stdB P L) (n + 1) (member c!"shell" c!"prelude") (start (withShell X S)) w =
      (.ok .none, start (withShell X S), w) := by
  obtain ⟨v, h1, -, h2⟩ := C127_prelude (P := P) (H := H) (L := L) (n := n) (w := w) (X := X) (S := S)
  rw [h1, h2 (.inr h)]

/-- C127.  `shell@version` is the version of the shell, `shell@path` the path of the program or `None`, and
`shell@git` and `shell@homepage` are the same address. -/
theorem C127_constants : ∃ a : Str,
    evalN P H (stdB P L) (n + 1) (member c!"shell" c!"version") (start (withShell X S)) w =
      (.ok (.str S.version), start (withShell X S), w) ∧
    evalN P H (stdB P L) (n + 1) (member c!"shell" c!"path") (start (withShell X S)) w =
      (.ok ((S.exe.map Expr.str).getD .none), start (withShell X S), w) ∧
    evalN P H (stdB P L) (n + 1) (member c!"shell" c!"git") (start (withShell X S)) w =
      (.ok (.str a), start (withShell X S), w) ∧
    evalN P H (stdB P L) (n + 1) (member c!"shell" c!"homepage") (start (withShell X S)) w =
      (.ok (.str a), start (withShell X S), w) :=
  ⟨_, evalN_shell rfl, (evalN_shell rfl).trans (by cases S.exe <;> rfl), evalN_shell rfl, evalN_shell rfl⟩

end

/-! ### Instances: the hypotheses can be met -/

def infoMachine : Machine := ⟨some c!"/home/me", none, none, none, none, fun _ => [], .none, .none⟩

example := C127_suggestion (P := Demo.plat) (H := Demo.host) (L := Demo.lib) (X := infoMachine)
  (S := ⟨c!"0.1.9", none, false, 5⟩) (by decide +kernel)

example := C127_stale_refuted (P := Demo.plat) (H := Demo.host) (L := Demo.lib) (n := 1) (X := infoMachine)
  (S := ⟨c!"0.1.9", none, false, 5⟩) rfl []

example : evalN Demo.plat Demo.host (stdB Demo.plat Demo.lib) 2 (member c!"shell" c!"prelude")
    (start (withShell infoMachine ⟨c!"0.1.9", none, true, 5⟩)) [] =
      (.ok (.str c!"/home/me/.dune-prelude"), start (withShell infoMachine ⟨c!"0.1.9", none, true, 5⟩), []) := by
  obtain ⟨v, h, h1, -⟩ := C127_prelude (P := Demo.plat) (H := Demo.host) (L := Demo.lib) (n := 1) (w := [])
    (X := infoMachine) (S := ⟨c!"0.1.9", none, true, 5⟩)
  rw [h, h1 c!"/home/me" _ rfl rfl (.relative _ _ (by decide) (by decide) (by decide))]
  rfl

end Dune.Props
