import Verif.Model.Main
import Verif.Props.Text
import Mathlib.Data.List.Infix

/-! C81: the hints shown after the cursor while a line is typed. -/

namespace Dune.Props

/-- The commands that are proposed, in this order. -/
def proposals : List Str := [
  c!"exit 0", c!"ls ", c!"rm -ri ", c!"cp -r ", c!"head ", c!"tail ", c!"cd ", c!"clear"]

/-- `cmd` is the first of the commands that contains the line. -/
def FirstWith (line cmd : Str) : Prop :=
  ∃ before after, proposals = before ++ cmd :: after ∧ line <:+: cmd ∧ ∀ c ∈ before, ¬ line <:+: c

/-! ### Helper lemmas -/

theorem contains_infix {line cmd : Str} : containsStr line cmd = true ↔ line <:+: cmd := by
  rw [containsStr_iff]
  constructor
  · rintro ⟨a, b, h⟩
    exact ⟨a, b, h.symm⟩
  · rintro ⟨a, b, h⟩
    exact ⟨a, b, h.symm⟩

theorem find_first {line cmd : Str} (h : FirstWith line cmd) :
    Hint.cmds.find? (fun cmd => containsStr line cmd) = some cmd := by
  obtain ⟨before, after, h1, h2, h3⟩ := h
  have : Hint.cmds = before ++ cmd :: after := h1
  rw [this, List.find?_append]
  have hb : before.find? (fun cmd => containsStr line cmd) = none := by
    rw [List.find?_eq_none]
    intro c hc
    rw [contains_infix]
    exact h3 c hc
  rw [hb, Option.none_or, List.find?_cons_of_pos (contains_infix.2 h2)]

theorem trim_prefix : ∀ cmd ∈ proposals, ∀ line ∈ cmd.inits, line ≠ [] →
    line ++ Hint.trimStartMatches line cmd.length cmd = cmd := by decide

/-! ### Hints -/

/-- C81.  If the line is the beginning of the first command that contains it, the hint completes it to
that command. -/
theorem C81_completes {line cmd : Str} (history : Option Str) (hb : trim line ≠ [])
    (hf : FirstWith line cmd) (hp : line <+: cmd) :
    ∃ rest, Hint.hint history line = some rest ∧ line ++ rest = cmd := by
  refine ⟨_, by rw [Hint.hint, if_neg hb, find_first hf], ?_⟩
  have hm : cmd ∈ proposals := by
    obtain ⟨b, a, h, _⟩ := hf
    rw [h]
    simp
  refine trim_prefix cmd hm line ((List.mem_inits _ _).2 hp) ?_
  rintro rfl
  exact hb rfl

/-- C81.  If the line is somewhere else in that command, the hint is the whole command, and accepting
it gives the line followed by the command. -/
theorem C81_wrong {line cmd : Str} (history : Option Str) (hb : trim line ≠ [])
    (hf : FirstWith line cmd) (hp : ¬ line <+: cmd) :
    Hint.hint history line = some cmd := by
  rw [Hint.hint, if_neg hb, find_first hf]
  have : ∀ n, Hint.trimStartMatches line n cmd = cmd
    | 0 => rfl
    | n + 1 => by
      rw [Hint.trimStartMatches, if_neg]
      rwa [List.isPrefixOf_iff_prefix]
  simp only [this]

/-- C81.  In all other cases the hint comes from the history. -/
theorem C81_history {line : Str} (history : Option Str)
    (h : trim line = [] ∨ ∀ cmd ∈ proposals, ¬ line <:+: cmd) :
    Hint.hint history line = history := by
  by_cases hb : trim line = []
  · rw [Hint.hint, if_pos hb]
  · rw [Hint.hint, if_neg hb]
    have : Hint.cmds.find? (fun cmd => containsStr line cmd) = none := by
      rw [List.find?_eq_none]
      intro c hc
      rw [contains_infix]
      exact h.resolve_left hb c hc
    rw [this]

/-- `cl` is completed to `clear`. -/
example : Hint.hint none c!"cl" = some c!"ear" := rfl

/-- After `t` the hint is `exit 0`, so that the line would be `texit 0`. -/
theorem C81_witness : FirstWith c!"t" c!"exit 0" ∧ ¬ c!"t" <+: c!"exit 0" ∧
    Hint.hint none c!"t" = some c!"exit 0" :=
  ⟨⟨[], _, rfl, ⟨c!"exi", c!" 0", rfl⟩, by simp⟩, by decide, rfl⟩

example : FirstWith c!"cl" c!"clear" :=
  ⟨[c!"exit 0", c!"ls ", c!"rm -ri ", c!"cp -r ", c!"head ", c!"tail ", c!"cd "], [], rfl,
    ⟨[], c!"ear", rfl⟩, by decide⟩

example : ∀ cmd ∈ proposals, ¬ c!"git" <:+: cmd := by decide

/-! ### Instances: the hypotheses can be met -/

example := C81_completes (line := c!"cl") (cmd := c!"clear") none (by decide)
  ⟨[c!"exit 0", c!"ls ", c!"rm -ri ", c!"cp -r ", c!"head ", c!"tail ", c!"cd "], [], rfl,
    ⟨[], c!"ear", rfl⟩, by decide⟩ (by decide)

example := C81_wrong (line := c!"xit") (cmd := c!"exit 0") none (by decide)
  ⟨[], _, rfl, ⟨c!"e", c!" 0", rfl⟩, by decide⟩ (by decide)

end Dune.Props
