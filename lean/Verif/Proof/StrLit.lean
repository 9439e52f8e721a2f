import Verif.Proof.Lex
import Verif.Model.Parser

/-! What a string literal denotes is what unescaping it gives. -/

namespace Dune
open Lex

theorem isHexDigit_ne_brace {c : Char} (h : isHexDigit c = true) : c ≠ '}' := by
  rintro rfl
  revert h
  decide

theorem unescapeGo_denotes {b v : Str} (h : Denotes b v) (tl : Str) (htl : tl = [] ∨ tl = ['"']) :
    ∀ n, b.length + tl.length < n → unescapeGo n true (b ++ tl) = some v := by
  induction h with
  | nil =>
    intro n hn
    rcases htl with rfl | rfl
    · cases n with
      | zero => simp at hn
      | succ n => rfl
    · match n, hn with
      | n + 2, _ => rfl
      | 0, hn => simp at hn
      | 1, hn => simp at hn
  | @char c s v h1 h2 _ ih =>
    intro n hn
    cases n with
    | zero => simp at hn
    | succ n =>
      rw [List.cons_append]
      have := ih n (by simp at hn ⊢; omega)
      rw [unescapeGo.eq_def]
      split
      all_goals first | (rename_i heq; simp_all; done) | skip
      all_goals simp_all
  | @esc e x s v he _ ih =>
    intro n hn
    cases n with
    | zero => simp at hn
    | succ n =>
      have := ih n (by simp at hn ⊢; omega)
      simp only [List.mem_cons, List.not_mem_nil, or_false, Prod.mk.injEq] at he
      rcases he with ⟨rfl, rfl⟩ | ⟨rfl, rfl⟩ | ⟨rfl, rfl⟩ | ⟨rfl, rfl⟩ | ⟨rfl, rfl⟩ | ⟨rfl, rfl⟩ |
        ⟨rfl, rfl⟩ <;> simp [unescapeGo, this]
  | @unicode hex n0 s v h1 h2 hx h4 _ ih =>
    obtain ⟨h3, rfl⟩ := hx.digits
    replace h4 := (isScalar_iff _).2 h4
    intro n hn
    cases n with
    | zero => simp at hn
    | succ n =>
      have := ih n (by simp at hn ⊢; omega)
      have htw : ∀ x, (hex ++ '}' :: x).takeWhile (fun c => c ≠ '}') = hex := by
        intro x
        rw [List.takeWhile_append_of_pos (by simpa using fun c hc => isHexDigit_ne_brace (h3 c hc))]
        simp
      have hdw : ∀ x, (hex ++ '}' :: x).dropWhile (fun c => c ≠ '}') = '}' :: x := by
        intro x
        rw [List.dropWhile_append_of_pos (by simpa using fun c hc => isHexDigit_ne_brace (h3 c hc))]
        simp
      simp only [List.cons_append, List.nil_append, List.append_assoc, unescapeGo, htw, hdw]
      rw [if_pos ⟨h1, by simpa using h3, h4⟩]
      simp [this]

/-- Unescaping a string literal gives what it denotes. -/
theorem unescape_strLit {t v : Str} (h : StrLit t v) : unescape t = some v := by
  obtain ⟨b, hb, rfl | rfl⟩ := h
  · rw [unescape]
    have := unescapeGo_denotes hb [] (.inl rfl) (b.length + 1) (by simp)
    simpa [unescapeGo] using this
  · rw [unescape]
    have := unescapeGo_denotes hb ['"'] (.inr rfl) (b.length + 2) (by simp)
    simpa [unescapeGo] using this
end Dune
