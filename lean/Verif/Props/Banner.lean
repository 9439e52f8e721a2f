import Verif.Model.Banner
import Verif.Props.Dashboard

/-! The sign for the time of the day in the banner of the default prelude. -/

namespace Dune.Props

open Spec Spec.Calendar Calc Prelude Repl

/-! ### Specification -/

/-- The sign for an hour: night up to six and after eighteen, morning up to ten, day up to eighteen. -/
def TimeSign (h : Int) (s : Str) : Prop :=
  (h ≤ 6 ∨ 18 < h) ∧ s = c!"🌃" ∨ (6 < h ∧ h ≤ 10) ∧ s = c!"🌅" ∨ (10 < h ∧ h ≤ 18) ∧ s = c!"🌤️ "

/-! ### Proofs -/

/-- `if now@hour <= 6 … else …` -/
def timeBody : Expr :=
  .ite (infix_ c!"<=" (member c!"now" c!"hour") (.int (.lit 6))) (.str c!"🌃")
    (.group (.ite (infix_ c!"<=" (member c!"now" c!"hour") (.int (.lit 10))) (.str c!"🌅")
      (.group (.ite (infix_ c!"<=" (member c!"now" c!"hour") (.int (.lit 18))) (.str c!"🌤️ ") (.group (.str c!"🌃"))))))

theorem timeSign_parse (P : Plat) : parseText P timeSignText = .ok (.do_ [.assign c!"time-emoji" timeBody]) := by kernel_rfl

section

variable {W : Type} {H : Host W} {P : Plat} {L : Lib} {n d1 d2 : Nat} {w : W} {env env' : Env}

theorem yields_le {x y : Expr} {a b : Int} (hf : env.get c!"<=" = some (.builtin c!"<=" .le []))
    (hx : YieldsInt H P L d1 env x a) (hy : YieldsInt H P L d2 env y b) (hd : max d1 d2 ≤ 800) :
    Yields H P L (max d1 d2 + 3) env (infix_ c!"<=" x y) (.bool (decide (a ≤ b))) := by
  obtain ⟨i, rfl, hx⟩ := hx
  obtain ⟨j, rfl, hy⟩ := hy
  refine Run.group (yields_builtin2 hf hx hy (yields_int i) ?_ hd)
  intro ev0 h1 h2 h3 w
  simp only [stdB, Builtins.cmpB, Builtins.evArg, Builtins.arg, List.getElem?_cons_succ,
        List.getElem?_cons_zero, BProg.run_bind, BProg.run_ret, pure_bind, BProg.run_ev]
  rw [M.bind_ok (h1 w), M.bind_ok (h2 w)]
  simp only [Builtins.leE, Expr.partialCmp]
  have e : (decide (i.val < j.val) || decide (i.val = j.val)) = decide (i.val ≤ j.val) := by
    rw [← Bool.decide_or, decide_eq_decide]
    omega
  simp [compare_lt, ← e]

/-- C131.  For every hour, `time-emoji` is the sign of the time of the day. -/
theorem C131_time (hs : Std env) {t : BMap Expr} {h : I64} (hnow : env.get c!"now" = some (.map t))
    (hh : BMap.get? t c!"hour" = some (.int h)) (hn : 60 ≤ n) :
    ∃ s, TimeSign h.val s ∧ Entered H P L n w [timeSignText] env (env.define c!"time-emoji" (.str s)) := by
  have hat := hs.op (Init.b c!"@" .index) (by mem_tac)
  have hle := hs.op (Init.b c!"<=" .le) (by mem_tac)
  have yn : Yields H P L 1 env (.symbol c!"now") (.map t) := yields_symbol hnow
  have yh : YieldsInt H P L 3 env (member c!"now" c!"hour") h.val := ⟨h, rfl, yields_member hat yn (by decide) hh⟩
  have run : Yields H P L 40 env timeBody (.str (if h.val ≤ 6 then c!"🌃" else if h.val ≤ 10 then c!"🌅" else
      if h.val ≤ 18 then c!"🌤️ " else c!"🌃")) := by
    refine Run.mono (Run.iteB (d1 := 30) (yields_le hle yh ⟨.lit 6, rfl, yields_int _⟩ (by decide)) ?_ ?_) (by decide)
    · intro hp
      rw [if_pos (show h.val ≤ 6 from hp)]
      exact (yields_str _).mono (by decide)
    · intro hp
      rw [if_neg (show ¬ h.val ≤ 6 from hp)]
      refine Run.mono (Run.group (Run.iteB (d1 := 20) (yields_le hle yh ⟨.lit 10, rfl, yields_int _⟩ (by decide)) ?_ ?_)) (by decide)
      · intro hp
        rw [if_pos (show h.val ≤ 10 from hp)]
        exact (yields_str _).mono (by decide)
      · intro hp
        rw [if_neg (show ¬ h.val ≤ 10 from hp)]
        refine Run.mono (Run.group (Run.iteB (d1 := 10) (yields_le hle yh ⟨.lit 18, rfl, yields_int _⟩ (by decide)) ?_ ?_)) (by decide)
        · intro hp
          rw [if_pos (show h.val ≤ 18 from hp)]
          exact (yields_str _).mono (by decide)
        · intro hp
          rw [if_neg (show ¬ h.val ≤ 18 from hp)]
          exact Run.mono (yields_str _).group (by decide)
  refine ⟨_, ?_, enter_text (timeSign_parse P) (d := 50)
    (Run.mono (RunDo.block (Run.last (Run.assign run))) (by decide)) (by omega) (.nil _)⟩
  unfold TimeSign
  by_cases a : h.val ≤ 6
  · rw [if_pos a]; exact .inl ⟨.inl a, rfl⟩
  · by_cases b : h.val ≤ 10
    · rw [if_neg a, if_pos b]; exact .inr (.inl ⟨⟨by omega, b⟩, rfl⟩)
    · by_cases c : h.val ≤ 18
      · rw [if_neg a, if_neg b, if_pos c]; exact .inr (.inr ⟨⟨by omega, c⟩, rfl⟩)
      · rw [if_neg a, if_neg b, if_neg c]; exact .inl ⟨.inr (by omega), rfl⟩

end

/-- The signs at three in the morning, and at noon. -/
example : TimeSign 3 c!"🌃" ∧ TimeSign 12 c!"🌤️ " := ⟨.inl ⟨by decide, rfl⟩, .inr (.inr ⟨by decide, rfl⟩)⟩

example : ∃ s, TimeSign 7 s ∧ Entered Demo.host Demo.plat Demo.lib 60 [] [timeSignText]
    (Demo.env.define c!"now" (.map [(c!"hour", .int (.lit 7))]))
    ((Demo.env.define c!"now" (.map [(c!"hour", .int (.lit 7))])).define c!"time-emoji" (.str s)) :=
  C131_time (h := .lit 7) (std_define demo_std (by decide +kernel) (by decide +kernel) (by decide +kernel))
    (by rw [Env.get_define, if_pos rfl]) rfl (by decide)

end Dune.Props
