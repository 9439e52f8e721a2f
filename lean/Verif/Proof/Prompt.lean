import Verif.Spec.Prompt
import Verif.Proof.Monad

/-! Splitting typed lines into chunks. -/

namespace Dune

open Spec

theorem joinStr_eq (ls : List Str) : joinStr c!"\n" ls = textOfLines ls := by
  induction ls with
  | nil => rfl
  | cons a l ih =>
    cases l with
    | nil => simp [joinStr, textOfLines, List.intercalate]
    | cons b l =>
      rw [joinStr, ih]
      simp [textOfLines, List.intercalate, List.intersperse]

variable {parse : Str → Outcome Expr}

theorem waiting_nil : Waiting parse [] := by
  intro pre l post h
  simp at h

theorem append_cons_inj {α : Type} {a b x y : List α} {l m : α} (h : a ++ l :: x = b ++ m :: y) :
    (a = b ∧ l = m ∧ x = y) ∨ (∃ z, b = a ++ l :: z) ∨ ∃ z, a = b ++ m :: z := by
  rcases List.append_eq_append_iff.1 h with ⟨c, h1, h2⟩ | ⟨c, h1, h2⟩
  · cases c with
    | nil =>
      simp only [List.nil_append, List.cons.injEq, List.append_nil] at h1 h2
      exact .inl ⟨h1.symm, h2.1, h2.2⟩
    | cons d c =>
      simp only [List.cons_append, List.cons.injEq] at h2
      exact .inr (.inl ⟨c, by rw [h1, ← h2.1]⟩)
  · cases c with
    | nil =>
      simp only [List.nil_append, List.cons.injEq, List.append_nil] at h1 h2
      exact .inl ⟨h1, h2.1.symm, h2.2.symm⟩
    | cons d c =>
      simp only [List.cons_append, List.cons.injEq] at h2
      exact .inr (.inr ⟨c, by rw [h1, ← h2.1]⟩)

theorem waiting_snoc {pre : List Str} {l : Str} {e : Error} (h : Waiting parse pre) (hl : l ≠ [])
    (he : parse (textOfLines (pre ++ [l])) = .err e) : Waiting parse (pre ++ [l]) := by
  intro a m b hab
  rcases append_cons_inj hab with ⟨h1, h2, _⟩ | ⟨z, hz⟩ | ⟨z, hz⟩
  · subst h1 h2
    exact ⟨hl, e, he⟩
  · rw [hz] at hab
    have := congrArg List.length hab
    simp at this
  · exact h a m z hz

theorem waiting_prefix {pre post : List Str} (h : Waiting parse (pre ++ post)) : Waiting parse pre :=
  fun a m b hab => h a m (b ++ post) (by rw [hab]; simp)

/-- every sequence of lines splits into chunks and a rest -/
theorem chunks_exist : ∀ (ls pre : List Str), Waiting parse pre → ∃ (cs : List Chunk) (rest : List Str),
    pre ++ ls = cs.flatMap Chunk.lines ++ rest ∧ (∀ c ∈ cs, c.Ok parse) ∧
      (Waiting parse rest ∨ Crash parse rest) := by
  intro ls
  induction ls with
  | nil => exact fun pre hp => ⟨[], pre, by simp, by simp, .inl hp⟩
  | cons l ls ih =>
    intro pre hp
    have key : ∀ (c : Chunk), c.lines = pre ++ [l] → c.Ok parse →
        ∃ (cs : List Chunk) (rest : List Str), pre ++ l :: ls = cs.flatMap Chunk.lines ++ rest ∧
          (∀ c ∈ cs, c.Ok parse) ∧ (Waiting parse rest ∨ Crash parse rest) := by
      intro c hc hok
      obtain ⟨cs, rest, h1, h2, h3⟩ := ih [] waiting_nil
      rw [List.nil_append] at h1
      refine ⟨c :: cs, rest, ?_, by simpa using ⟨hok, h2⟩, h3⟩
      rw [List.flatMap_cons, hc, h1]
      simp
    cases hq : parse (textOfLines (pre ++ [l])) with
    | ok e => exact key (.run (pre ++ [l]) e) rfl (.run hp hq)
    | err e =>
      by_cases h0 : l = []
      · subst h0
        exact key (.drop (pre ++ [[]]) e) rfl (.drop hp hq)
      · obtain ⟨cs, rest, h1, h2, h3⟩ := ih (pre ++ [l]) (waiting_snoc hp h0 hq)
        exact ⟨cs, rest, by rw [← h1]; simp, h2, h3⟩
    | _ => exact ⟨[], pre ++ l :: ls, by simp, by simp, .inr ⟨pre, l, ls, rfl, hp, by simp [hq],
        by simp [hq]⟩⟩

/-- how a chunk ends -/
theorem ok_cases {c : Chunk} (h : c.Ok parse) : ∃ ls l, c.lines = ls ++ [l] ∧ Waiting parse ls ∧
    ¬ (l ≠ [] ∧ ∃ e, parse (textOfLines (ls ++ [l])) = .err e) ∧
    ((∃ e, parse (textOfLines (ls ++ [l])) = .ok e ∧ c = .run (ls ++ [l]) e) ∨
      ∃ e, parse (textOfLines (ls ++ [l])) = .err e ∧ c = .drop (ls ++ [l]) e) := by
  cases h with
  | @run ls l e hw hp => exact ⟨ls, l, rfl, hw, by simp [hp], .inl ⟨e, hp, rfl⟩⟩
  | @drop ls e hw hp => exact ⟨ls, [], rfl, hw, by simp, .inr ⟨e, hp, rfl⟩⟩

/-- the first chunk is determined -/
theorem chunk_unique {c c' : Chunk} (h : c.Ok parse) (h' : c'.Ok parse) {x y : List Str}
    (he : c.lines ++ x = c'.lines ++ y) : c = c' ∧ x = y := by
  obtain ⟨ls, l, h1, h2, h3, h4⟩ := ok_cases h
  obtain ⟨ls', l', h1', h2', h3', h4'⟩ := ok_cases h'
  rw [h1, h1', List.append_assoc, List.append_assoc] at he
  rcases append_cons_inj he with ⟨ha, hb, hc⟩ | ⟨z, hz⟩ | ⟨z, hz⟩
  · subst ha hb
    refine ⟨?_, by simpa using hc⟩
    rcases h4 with ⟨e, hp, rfl⟩ | ⟨e, hp, rfl⟩ <;> rcases h4' with ⟨e', hp', rfl⟩ | ⟨e', hp', rfl⟩ <;>
      rw [hp] at hp' <;> cases hp' <;> rfl
  · exact absurd (h2' ls l z hz) h3
  · exact absurd (h2 ls' l' z hz) h3'

/-- the rest does not begin with a chunk -/
theorem rest_no_chunk {c : Chunk} (h : c.Ok parse) {x : List Str}
    (hr : Waiting parse (c.lines ++ x) ∨ Crash parse (c.lines ++ x)) : False := by
  obtain ⟨ls, l, h1, h2, h3, h4⟩ := ok_cases h
  rw [h1, List.append_assoc] at hr
  rcases hr with hr | ⟨pre, m, post, h5, h6, h7, h8⟩
  · exact h3 (hr ls l x (by simp))
  · rcases append_cons_inj (by simpa using h5) with ⟨ha, hb, _⟩ | ⟨z, hz⟩ | ⟨z, hz⟩
    · subst ha hb
      rcases h4 with ⟨e, hp, _⟩ | ⟨e, hp, _⟩
      · exact h7 e hp
      · exact h8 e hp
    · exact h3 (h6 ls l z hz)
    · obtain ⟨_, e, he⟩ := h2 pre m z hz
      exact h8 e he

theorem chunks_unique : ∀ {cs cs' : List Chunk} {rest rest' : List Str},
    cs.flatMap Chunk.lines ++ rest = cs'.flatMap Chunk.lines ++ rest' →
    (∀ c ∈ cs, c.Ok parse) → (∀ c ∈ cs', c.Ok parse) →
    (Waiting parse rest ∨ Crash parse rest) → (Waiting parse rest' ∨ Crash parse rest') →
    cs = cs' ∧ rest = rest'
  | [], [], _, _, h, _, _, _, _ => ⟨rfl, by simpa using h⟩
  | [], c :: cs, rest, rest', h, _, h2, hr, _ => by
    refine (rest_no_chunk (h2 c (by simp)) (x := cs.flatMap Chunk.lines ++ rest') ?_).elim
    have : rest = c.lines ++ (cs.flatMap Chunk.lines ++ rest') := by simpa using h
    rwa [this] at hr
  | c :: cs, [], rest, rest', h, h1, _, _, hr => by
    refine (rest_no_chunk (h1 c (by simp)) (x := cs.flatMap Chunk.lines ++ rest) ?_).elim
    have : rest' = c.lines ++ (cs.flatMap Chunk.lines ++ rest) := by simpa using h.symm
    rwa [this] at hr
  | c :: cs, c' :: cs', rest, rest', h, h1, h2, hr, hr' => by
    simp only [List.flatMap_cons, List.append_assoc, List.forall_mem_cons] at h h1 h2
    obtain ⟨rfl, h'⟩ := chunk_unique h1.1 h2.1 h
    obtain ⟨rfl, rfl⟩ := chunks_unique h' h1.2 h2.2 hr hr'
    exact ⟨rfl, rfl⟩

end Dune
