import Verif.Model.Threads
import Verif.Model.Shell
import Verif.Spec.Demo

/-! Property C62: the threads of the interactive shell. -/

namespace Dune.Props

open Threads

variable {L S : Type} {B : Body L S} {l₀ : L} {s₀ : S} {c c' : Conf L S} {t u : Nat} {k : Ev}

/-- What the locks say about the threads. -/
structure Locks (c : Conf L S) : Prop where
  env : ∀ t, c.envBy = some t ↔ c.pc t = .wantRl ∨ c.pc t = .body ∨ c.pc t = .dropEnv
  rl : ∀ t, c.rlBy = some t ↔ c.pc t = .body
  /-- a poisoned mutex is never entered again -/
  poison : c.envPoisoned = true → c.envBy = none
  poisonRl : c.rlPoisoned = true → c.envPoisoned = true
  main : c.ended = false → c.pc 0 ≠ .idle ∧ c.pc 0 ≠ .dead

theorem put_same {α : Type} (f : Nat → α) (t : Nat) (a : α) : put f t a t = a := by simp [put]
theorem put_other {α : Type} (f : Nat → α) {t u : Nat} (a : α) (h : u ≠ t) : put f t a u = f u := by
  simp [put, h]

theorem locks_step (h : Locks c) (hs : Step B t k c c') : Locks c' := by
  have he := h.env
  have hr := h.rl
  have hp := h.poison
  have hq := h.poisonRl
  have hm := h.main
  have het := he t
  have hrt := hr t
  cases hs <;>
    (refine ⟨fun u => ?_, fun u => ?_, ?_, ?_, ?_⟩ <;>
      first
      | (have heu := he u
         have hru := hr u
         by_cases hu : u = t
         · subst hu; simp_all [put]
         · simp_all [put] <;> grind)
      | (by_cases hu : 0 = t
         · subst hu; simp_all [put]
         · simp_all [put]))

theorem locks_reachable (h : Reachable B l₀ s₀ c) : Locks c := by
  induction h with
  | init =>
    refine ⟨fun u => ?_, fun u => ?_, ?_, ?_, ?_⟩ <;> simp [init] <;> by_cases h : u = 0 <;> simp [h]
  | step _ hs ih => exact locks_step ih hs

/-- C62: under every schedule and with any number of handlers at most one thread is in the body of
the loop, and it holds both locks. -/
theorem C62_exclusive (h : Reachable B l₀ s₀ c) (ht : c.pc t = .body) :
    c.envBy = some t ∧ c.rlBy = some t ∧ ∀ u, c.pc u = .body → u = t := by
  have hl := locks_reachable h
  refine ⟨(hl.env t).2 (.inr (.inl ht)), (hl.rl t).2 ht, fun u hu => ?_⟩
  have h1 := (hl.rl t).2 ht
  rw [(hl.rl u).2 hu] at h1
  exact Option.some.inj h1

/-- C62: as long as the process runs there is no deadlock: some thread that has been started can go
on, without a new Ctrl-C and without crashing in the body, provided the body itself never blocks
(waiting for the user to type is not blocking). -/
theorem C62_no_deadlock (h : Reachable B l₀ s₀ c) (hrun : c.ended = false)
    (hB : ∀ l s, ¬ B.finished l → ∃ l' s', B.act l s l' s') :
    ∃ t k c', Step B t k c c' ∧ k ≠ .start ∧ k ≠ .crash ∧ k ≠ .exit := by
  have hl := locks_reachable h
  cases he : c.envBy with
  | none =>
    -- the main thread waits for the environment, which is free
    have h0 : c.pc 0 = .wantEnv := by
      have hm := hl.main hrun
      have he0 := hl.env 0
      cases hp : c.pc 0 <;> simp_all
    cases hp : c.envPoisoned with
    | false => exact ⟨0, _, _, .lockEnv hrun h0 he hp, by simp, by simp, by simp⟩
    | true => exact ⟨0, _, _, .panicEnv hrun h0 he hp, by simp, by simp, by simp⟩
  | some t =>
    rcases (hl.env t).1 he with ht | ht | ht
    · have hr : c.rlBy = none := by
        cases hr : c.rlBy with
        | none => rfl
        | some u =>
          have hu := (hl.rl u).1 hr
          have h1 := (hl.env u).2 (.inr (.inl hu))
          rw [he] at h1
          rw [Option.some.inj h1, hu] at ht
          cases ht
      cases hp : c.rlPoisoned with
      | false => exact ⟨t, _, _, .lockRl hrun ht hr hp, by simp, by simp, by simp⟩
      | true => exact ⟨t, _, _, .panicRl hrun ht hr hp, by simp, by simp, by simp⟩
    · by_cases hf : B.finished (c.loc t)
      · exact ⟨t, _, _, .releaseRl hrun ht hf, by simp, by simp, by simp⟩
      · obtain ⟨l', s', ha⟩ := hB (c.loc t) c.shared hf
        exact ⟨t, _, _, .act hrun ht hf ha, by simp, by simp, by simp⟩
    · exact ⟨t, _, _, .releaseEnv hrun ht, by simp, by simp, by simp⟩

/-- C62: when a prompt crashes, no thread ever gets a prompt again: whatever the other threads do
next, they die. -/
theorem C62_poisoned (h : Reachable B l₀ s₀ c) (hp : c.envPoisoned = true) :
    (∀ u, c.pc u ≠ .body) ∧ ∀ t k c', Step B t k c c' → c'.envPoisoned = true ∧
      (k = .start ∨ k = .panicEnv ∧ c'.pc t = .dead ∧ (t = 0 → c'.ended = true)) := by
  have hl := locks_reachable h
  have he := hl.poison hp
  have hno : ∀ u, c.pc u ≠ .wantRl ∧ c.pc u ≠ .body ∧ c.pc u ≠ .dropEnv := by
    intro u
    have := hl.env u
    rw [he] at this
    simp only [reduceCtorEq, false_iff, not_or] at this
    exact this
  refine ⟨fun u => (hno u).2.1, fun t k c' hs => ?_⟩
  cases hs with
  | start h0 h1 => exact ⟨hp, .inl rfl⟩
  | panicEnv h0 h1 => exact ⟨hp, .inr ⟨rfl, put_same .., fun h => by simp [h]⟩⟩
  | lockEnv h0 h1 h2 h3 => rw [hp] at h3; cases h3
  | lockRl h0 h1 => exact absurd h1 (hno t).1
  | panicRl h0 h1 => exact absurd h1 (hno t).1
  | act h0 h1 => exact absurd h1 (hno t).2.1
  | crash h0 h1 => exact absurd h1 (hno t).2.1
  | exit h0 h1 => exact absurd h1 (hno t).2.1
  | releaseRl h0 h1 => exact absurd h1 (hno t).2.1
  | releaseEnv h0 h1 => exact absurd h1 (hno t).2.2

/-- The small steps of one unfinished iteration, in one go. -/
inductive Acts (B : Body L S) : L → S → L → S → Prop
  | nil {l s} : Acts B l s l s
  | snoc {l s l1 s1 l2 s2} : Acts B l s l1 s1 → ¬ B.finished l1 → B.act l1 s1 l2 s2 → Acts B l s l2 s2

/-- Executions in which the iterations of the threads never overlap: repeatedly one thread runs a
whole iteration. -/
inductive Serial (B : Body L S) (l : L) (s : S) : (Nat → L) → S → Prop
  | init : Serial B l s (fun _ => l) s
  | iterate {loc sh l' s'} (t : Nat) : Serial B l s loc sh → Acts B (loc t) sh l' s' → B.finished l' →
      Serial B l s (put loc t (B.next l')) s'

/-- The data of the threads and the shared data come from iterations that do not overlap, but for
the one going on. -/
def Serialized (B : Body L S) (l : L) (s : S) (c : Conf L S) : Prop :=
  (c.envPoisoned = false ∧ (∀ u, c.pc u ≠ .body) ∧ Serial B l s c.loc c.shared) ∨
    ∃ t loc sh, Serial B l s loc sh ∧ Acts B (loc t) sh (c.loc t) c.shared ∧
      (∀ u, u ≠ t → c.loc u = loc u) ∧ (c.envPoisoned = false → c.pc t = .body)

/-- C62: whatever the schedule, the shell behaves as if the iterations of the threads were run one
after the other, each as a whole: none sees the environment in the middle of another's. -/
theorem C62_serial (h : Reachable B l₀ s₀ c) : Serialized B l₀ s₀ c := by
  induction h with
  | init =>
    refine .inl ⟨rfl, fun u => ?_, .init⟩
    by_cases hu : u = 0 <;> simp [init, hu]
  | @step c c' t k hr hs ih =>
    have hl := locks_reachable hr
    rcases ih with ⟨hp, hno, hser⟩ | ⟨v, loc, sh, hser, hacts, hsame, hbody⟩
    · have key : ∀ (pc : PC), pc ≠ .body → ∀ u, put c.pc t pc u ≠ .body := by
        intro pc hpc u
        by_cases hu : u = t
        · subst hu; rwa [put_same]
        · rw [put_other _ _ hu]; exact hno u
      cases hs with
      | start h0 h1 => exact .inl ⟨hp, key _ (by simp), hser⟩
      | lockEnv h0 h1 => exact .inl ⟨hp, key _ (by simp), hser⟩
      | panicEnv h0 h1 h2 h3 => rw [hp] at h3; cases h3
      | lockRl h0 h1 => exact .inr ⟨t, c.loc, c.shared, hser, .nil, fun _ _ => rfl, fun _ => put_same ..⟩
      | panicRl h0 h1 h2 h3 =>
        have := hl.poisonRl h3
        rw [hp] at this
        cases this
      | act h0 h1 => exact absurd h1 (hno t)
      | crash h0 h1 => exact absurd h1 (hno t)
      | exit h0 h1 => exact absurd h1 (hno t)
      | releaseRl h0 h1 => exact absurd h1 (hno t)
      | releaseEnv h0 h1 => exact .inl ⟨hp, key _ (by simp), hser⟩
    · by_cases hp : c.envPoisoned = true
      · -- nobody is in the body any more
        have he := hl.poison hp
        have hno : c.pc t ≠ .wantRl ∧ c.pc t ≠ .body ∧ c.pc t ≠ .dropEnv := by
          have := hl.env t
          rw [he] at this
          simpa only [reduceCtorEq, false_iff, not_or] using this
        have hp' : ¬ c.envPoisoned = false := by simp [hp]
        cases hs with
        | start h0 h1 => exact .inr ⟨v, loc, sh, hser, hacts, hsame, fun h => absurd h hp'⟩
        | panicEnv h0 h1 => exact .inr ⟨v, loc, sh, hser, hacts, hsame, fun h => absurd h hp'⟩
        | lockEnv h0 h1 h2 h3 => exact absurd h3 hp'
        | lockRl h0 h1 => exact absurd h1 hno.1
        | panicRl h0 h1 => exact absurd h1 hno.1
        | act h0 h1 => exact absurd h1 hno.2.1
        | crash h0 h1 => exact absurd h1 hno.2.1
        | exit h0 h1 => exact absurd h1 hno.2.1
        | releaseRl h0 h1 => exact absurd h1 hno.2.1
        | releaseEnv h0 h1 => exact absurd h1 hno.2.2
      · simp only [Bool.not_eq_true] at hp
        have hv := hbody hp
        have hev := (hl.env v).2 (.inr (.inl hv))
        -- a thread that holds the environment or the editor is `v`
        have huniq : ∀ u, c.pc u = .wantRl ∨ c.pc u = .body ∨ c.pc u = .dropEnv → u = v := by
          intro u hu
          have := (hl.env u).2 hu
          rw [hev] at this
          exact (Option.some.inj this).symm
        have keep : ∀ pc, t ≠ v → put c.pc t pc v = .body := by
          intro pc htv
          rw [put_other _ _ (Ne.symm htv), hv]
        have htv : ∀ {p}, c.pc t = p → p ≠ .body → t ≠ v := by
          intro p h1 h2 h3
          rw [h3, hv] at h1
          exact h2 h1.symm
        cases hs with
        | start h0 h1 =>
          exact .inr ⟨v, loc, sh, hser, hacts, hsame, fun _ => keep _ (htv h1 (by simp))⟩
        | lockEnv h0 h1 h2 => rw [hev] at h2; cases h2
        | panicEnv h0 h1 h2 => rw [hev] at h2; cases h2
        | lockRl h0 h1 => exact absurd (huniq t (.inl h1)) (htv h1 (by simp))
        | panicRl h0 h1 => exact absurd (huniq t (.inl h1)) (htv h1 (by simp))
        | act h0 h1 h2 h3 =>
          obtain rfl := huniq t (.inr (.inl h1))
          refine .inr ⟨t, loc, sh, hser, ?_, ?_, fun _ => h1⟩
          · simp only [put_same]
            exact .snoc hacts h2 h3
          · intro u hu
            simp only [put_other _ _ hu]
            exact hsame u hu
        | crash h0 h1 => exact .inr ⟨v, loc, sh, hser, hacts, hsame, fun h => by simp at h⟩
        | exit h0 h1 => exact .inr ⟨v, loc, sh, hser, hacts, hsame, fun _ => hv⟩
        | releaseRl h0 h1 h2 =>
          obtain rfl := huniq t (.inr (.inl h1))
          refine .inl ⟨hp, fun u => ?_, ?_⟩
          · by_cases hu : u = t
            · subst hu; simp only [put_same]; simp
            · simp only [put_other _ _ hu]
              exact fun h => hu (huniq u (.inr (.inl h)))
          · have := Serial.iterate t hser hacts h2
            have heq : put loc t (B.next (c.loc t)) = put c.loc t (B.next (c.loc t)) := by
              funext u
              by_cases hu : u = t
              · subst hu; rw [put_same, put_same]
              · rw [put_other _ _ hu, put_other _ _ hu, hsame u hu]
            rwa [heq] at this
        | releaseEnv h0 h1 => exact absurd (huniq t (.inr (.inr h1))) (htv h1 (by simp))

/-- C62 promises no more: locks are not fair. However often the main thread runs through its loop, a
handler may still be waiting where it was. -/
theorem C62_unfair (hB : ∀ l s, ¬ B.finished l → ∃ l' s', B.act l s l' s' ∧ B.finished l')
    (h0 : ∀ l, ¬ B.finished (B.next l)) (hl : ¬ B.finished l₀) (n : Nat) :
    ∃ c, Reachable B l₀ s₀ c ∧ c.pc 1 = .wantEnv ∧ c.pc 0 = .wantEnv ∧ c.envBy = none ∧
      c.ended = false ∧
      ∃ cs : List (Conf L S), cs.length = n ∧ ∀ d ∈ cs, Reachable B l₀ s₀ d ∧ d.pc 0 = .body ∧
        d.pc 1 = .wantEnv := by
  suffices ∃ c, Reachable B l₀ s₀ c ∧ c.pc 1 = .wantEnv ∧ c.pc 0 = .wantEnv ∧ c.envBy = none ∧
      c.rlBy = none ∧ c.envPoisoned = false ∧ c.rlPoisoned = false ∧ c.ended = false ∧
      ¬ B.finished (c.loc 0) ∧
      ∃ cs : List (Conf L S), cs.length = n ∧ ∀ d ∈ cs, Reachable B l₀ s₀ d ∧ d.pc 0 = .body ∧
        d.pc 1 = .wantEnv by
    obtain ⟨c, h1, h2, h3, h4, _, _, _, h5, _, h6⟩ := this
    exact ⟨c, h1, h2, h3, h4, h5, h6⟩
  induction n with
  | zero =>
    exact ⟨_, .step .init (.start (t := 1) rfl rfl), rfl, rfl, rfl, rfl, rfl, rfl, rfl, hl, [], rfl,
      by simp⟩
  | succ n ih =>
    obtain ⟨c, h1, h2, h3, h4, h5, h6, h7, h8, h9, cs, h10, h11⟩ := ih
    obtain ⟨l', s', ha, hf⟩ := hB (c.loc 0) c.shared h9
    have r1 := Reachable.step h1 (.lockEnv (t := 0) h8 h3 h4 h6)
    have r2 := Reachable.step r1 (.lockRl (t := 0) h8 rfl h5 h7)
    have r3 := Reachable.step r2 (.act (t := 0) h8 rfl h9 ha)
    have r4 := Reachable.step r3 (.releaseRl (t := 0) h8 rfl hf)
    have r5 := Reachable.step r4 (.releaseEnv (t := 0) h8 rfl)
    exact ⟨_, r5, h2, rfl, rfl, rfl, h6, h7, h8, h0 _, _ :: cs, congrArg (· + 1) h10, by
      simp only [List.forall_mem_cons]
      exact ⟨⟨r3, rfl, h2⟩, h11⟩⟩

/-- The loop of `repl` as such a body, an iteration being a single step: the data of a thread are
its pending lines and whether the iteration is done, the shared data are the environment and the
world. -/
def replBody {W : Type} (P : Plat) (H : Host W) (ev : Expr → M W Expr) :
    Body (List Str × Bool) (Env × W) where
  act l s l' s' := l.2 = false ∧ l'.2 = true ∧
    ∃ r, Repl.iteration P H ev l.1 r s.1 s.2 = (.ok l'.1, s'.1, s'.2)
  finished l := l.2 = true
  next l := (l.1, false)

/-- Both the main thread and a handler are running, and the main thread is in the loop. -/
example (env : Env) (w : List IOp) : ∃ c, Reachable (replBody Demo.plat Demo.host fun _ =>
    pure .none) ([], false) (env, w) c ∧ c.pc 0 = .body ∧ c.pc 1 = .wantEnv ∧ c.ended = false :=
  ⟨_, .step (.step (.step .init (.start (t := 1) rfl rfl)) (.lockEnv (t := 0) rfl rfl rfl rfl))
    (.lockRl (t := 0) rfl rfl rfl rfl), rfl, rfl, rfl⟩

/-- A prompt has crashed in a handler. -/
example (env : Env) (w : List IOp) : ∃ c, Reachable (replBody Demo.plat Demo.host fun _ =>
    pure .none) ([], false) (env, w) c ∧ c.envPoisoned = true ∧ c.ended = false :=
  ⟨_, .step (.step (.step (.step .init (.start (t := 1) rfl rfl)) (.lockEnv (t := 1) rfl rfl rfl rfl))
    (.lockRl (t := 1) rfl rfl rfl rfl)) (.crash (t := 1) rfl rfl (by simp [replBody, init])), rfl, rfl⟩

/-- A body that always comes to its end: a counter. -/
def counterBody : Body Bool Nat where
  act l s l' s' := l = false ∧ l' = true ∧ s' = s + 1
  finished l := l = true
  next _ := false

example : ∃ c, Reachable counterBody false 7 c ∧ c.pc 1 = .wantEnv ∧ c.pc 0 = .wantEnv ∧
    c.envBy = none ∧ c.ended = false ∧
    ∃ cs : List (Conf Bool Nat), cs.length = 100 ∧ ∀ d ∈ cs, Reachable counterBody false 7 d ∧
      d.pc 0 = .body ∧ d.pc 1 = .wantEnv :=
  C62_unfair (B := counterBody) (fun l s h => ⟨true, s + 1, ⟨by simpa [counterBody] using h, rfl, rfl⟩, rfl⟩)
    (fun l => by simp [counterBody]) (by simp [counterBody]) 100

/-! ### Instances: the hypotheses can be met -/

example (env : Env) (w : List IOp) := C62_exclusive (t := 0)
  (B := replBody Demo.plat Demo.host fun _ => pure .none) (l₀ := ([], false)) (s₀ := (env, w))
  (.step (.step (.step .init (.start (t := 1) rfl rfl)) (.lockEnv (t := 0) rfl rfl rfl rfl))
    (.lockRl (t := 0) rfl rfl rfl rfl)) rfl

example (env : Env) (w : List IOp) := C62_poisoned
  (B := replBody Demo.plat Demo.host fun _ => pure .none) (l₀ := ([], false)) (s₀ := (env, w))
  (.step (.step (.step (.step .init (.start (t := 1) rfl rfl)) (.lockEnv (t := 1) rfl rfl rfl rfl))
    (.lockRl (t := 1) rfl rfl rfl rfl)) (.crash (t := 1) rfl rfl (by simp [replBody, init]))) rfl

example := C62_no_deadlock (B := counterBody) (l₀ := false) (s₀ := 7)
  (.step (.step (.step .init (.start (t := 1) rfl rfl)) (.lockEnv (t := 1) rfl rfl rfl rfl))
    (.lockRl (t := 1) rfl rfl rfl rfl)) rfl
  (fun l s h => ⟨true, s + 1, by simpa [counterBody] using h, rfl, rfl⟩)

end Dune.Props
