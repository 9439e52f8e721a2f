import Verif.Proof.Flat
import Verif.Props.Literals
import Mathlib.Tactic.Linarith
/-! C101: the running time of the parser. -/

namespace Dune.Props
open Spec Parse

variable {P : Plat} {src : Str}

/-- the looks at tokens when the text is parsed -/
abbrev looks (P : Plat) (src : Str) : Nat := (Looks.parseScript P src).1

theorem looks_words {ws : List Word} (h : Words src ws) : ∃ i : List Tok, i.map Tok.word = ws ∧
    Looks.parseScript P src = Looks.scriptN ⟨P, ⟨utf8Len src, utf8Len src⟩⟩ (i.length + 1) i := by
  obtain ⟨all, hr, hf⟩ := h
  obtain ⟨ts, ds, h1, hv⟩ := hr.valid
  rcases tokenizeN_cases (s := src) (Nat.lt_succ_self _) with ⟨h, _⟩ | ⟨ts', ds', ht, h⟩
  · rw [show tokenize src = _ from h] at h1
    simp at h1
  · have h2 : tokenize src = .ok (ts', ds') := h
    rw [h1] at h2
    simp only [Outcome.ok.injEq, Prod.mk.injEq] at h2
    obtain ⟨rfl, rfl⟩ := h2
    obtain ⟨l, h3, h4, _⟩ := attachAll_tiles ht [] rfl
    rw [List.nil_append] at h3 h4
    obtain ⟨ts2, ds2, h5, h6, h7⟩ := hr.tokens
    rw [h1] at h5
    simp only [Outcome.ok.injEq, Prod.mk.injEq] at h5
    obtain ⟨rfl, rfl⟩ := h5
    have hw := forall₂_words h4.same
    have : all = l.map Tok.word := words_ext (h6.symm.trans hw.1) (h7.symm.trans hw.2)
    subst this
    have ht := touching_none.mpr hr.apart
    have hd : ds.filter (fun d => d ≠ .valid) = [] := by
      rw [List.filter_eq_nil_iff]
      simpa using hv
    refine ⟨l.filter Parse.isSolid, by rw [filter_words, hf], ?_⟩
    rw [Looks.parseScript, h1]
    simp only [hd, h3, ht]
    simp

/-- C101: counting does not change the result: the looks are those of a parser that gives the same
result on every text. -/
theorem C101_counts (P : Plat) (src : Str) : (Looks.parseScript P src).2 = parseScript P src :=
  Looks.parseScript_snd P src

/-- C101: each level of brackets at the start of an expression doubles the looks, whatever stands
after the first statement. -/
theorem C101_doubles {n : Nat} {u r : List Word} {x : Expr} (hw : Words src (u ++ r))
    (h : Bracketed P n u x) (hr : r = [] ∨ ∃ r', r = pw c!";" :: r') : 2 ^ n ≤ looks P src := by
  obtain ⟨i, hi, he⟩ := looks_words (P := P) hw
  obtain ⟨a, b, rfl, ha, hb⟩ := split_append hi
  rw [looks, he]
  refine Looks.nested_script (C := ⟨P, ⟨utf8Len src, utf8Len src⟩⟩) h ha ?_ _ (Nat.lt_succ_self _)
  rcases hr with rfl | ⟨r', rfl⟩
  · exact .inl (by simpa using hb)
  · obtain ⟨t, b, rfl, ht, _⟩ := split_cons hb
    exact .inr ⟨t, b, rfl, ht⟩

/-- C101: commands whose words are literals and names are read in linear time. -/
theorem C101_linear {cs : List (List Word)} (hw : Words src (commandWords cs))
    (h : ∀ c ∈ cs, PlainWords P c ∧ c ≠ []) : looks P src ≤ 31 * (commandWords cs).length + 77 := by
  obtain ⟨i, hi, he⟩ := looks_words (P := P) hw
  rw [looks, he, ← hi, List.length_map]
  exact Looks.flat_script (C := ⟨P, ⟨utf8Len src, utf8Len src⟩⟩) h hi (Nat.lt_succ_self _)

/-! ### Families of texts -/

/-- `( ( … x … ) )` -/
def inParens : Nat → List Word
  | 0 => [(.symbol, c!"x")]
  | n + 1 => pw c!"(" :: (inParens n ++ [pw c!")"])

def inParensValue : Nat → Expr
  | 0 => .symbol c!"x"
  | n + 1 => .group (inParensValue n)

/-- `x -> { x -> { … x … } }` -/
def inBodies : Nat → List Word
  | 0 => [(.symbol, c!"x")]
  | n + 1 => (.symbol, c!"x") :: pw c!"->" :: pw c!"{" :: (inBodies n ++ [pw c!"}"])

def inBodiesValue : Nat → Expr
  | 0 => .symbol c!"x"
  | n + 1 => .lambda c!"x" (.do_ [inBodiesValue n]) [] []

theorem x_logic : G P .logic [(.symbol, c!"x")] (Expr.symbol c!"x") :=
  .cmp (.rel (.sum (.prod (.two (.base (.atom (.name (by decide))))))))

theorem base_logic {u : List Word} {x : Expr} (h : G P .base u x) : G P .logic u x :=
  .cmp (.rel (.sum (.prod (.two (.base h)))))

theorem inParens_nested (P : Plat) (n : Nat) : Bracketed P n (inParens n) (inParensValue n) := by
  induction n with
  | zero => exact .expr (.seven (.noCall x_logic))
  | succ n ih => exact .paren (v := []) ih (base_logic (.group (Looks.nested_expr ih)))

theorem inBodies_nested (P : Plat) (n : Nat) : Bracketed P (2 * n) (inBodies n) (inBodiesValue n) := by
  induction n with
  | zero => exact .expr (.seven (.noCall x_logic))
  | succ n ih =>
    have hc : ¬ Control (inBodiesValue n) := by cases n <;> exact id
    refine .lambda (by decide) (.block (stmts := []) (v := []) (by simp) ih hc (base_logic ?_))
    exact .block (.last (Looks.nested_expr ih)) (by cases n <;> simp [inBodies])

theorem x_lexeme : Lexeme (.symbol, c!"x") ∧ Spec.isSolid (.symbol, c!"x") = true :=
  ⟨.name (by decide) (by decide) (by decide) (by decide) (by decide) (by simp), rfl⟩

theorem pw_lexeme {s : Str} (h : s ∈ [c!"(", c!")", c!"{", c!"}", c!"->", c!";"]) :
    Lexeme (pw s) ∧ Spec.isSolid (pw s) = true :=
  ⟨.punct ((show [c!"(", c!")", c!"{", c!"}", c!"->", c!";"] ⊆ _ by decide) h), rfl⟩

theorem inParens_words (n : Nat) : Words (Spec.spaced (inParens n)) (inParens n) := by
  apply C67_spaced
  induction n with
  | zero => simpa [inParens] using x_lexeme
  | succ n ih =>
    simp only [inParens, List.mem_cons, List.mem_append, List.not_mem_nil, or_false]
    rintro w (rfl | hw | rfl)
    · exact pw_lexeme (by decide)
    · exact ih w hw
    · exact pw_lexeme (by decide)

theorem inBodies_words (n : Nat) : Words (Spec.spaced (inBodies n)) (inBodies n) := by
  apply C67_spaced
  induction n with
  | zero => simpa [inBodies] using x_lexeme
  | succ n ih =>
    simp only [inBodies, List.mem_cons, List.mem_append, List.not_mem_nil, or_false]
    rintro w (rfl | rfl | rfl | hw | rfl)
    · exact x_lexeme
    · exact pw_lexeme (by decide)
    · exact pw_lexeme (by decide)
    · exact ih w hw
    · exact pw_lexeme (by decide)

theorem spaced_append (a b : List Word) : Spec.spaced (a ++ b) = Spec.spaced a ++ Spec.spaced b :=
  List.flatMap_append ..

theorem inParens_length (n : Nat) : (Spec.spaced (inParens n)).length = 4 * n + 2 := by
  induction n with
  | zero => rfl
  | succ n ih =>
    have : Spec.spaced (inParens (n + 1)) =
        c!"( " ++ (Spec.spaced (inParens n) ++ c!") ") := by
      rw [inParens, ← List.singleton_append, spaced_append, spaced_append]; rfl
    rw [this]
    simp only [List.length_append, ih, List.length_cons, List.length_nil]
    omega

theorem inBodies_length (n : Nat) : (Spec.spaced (inBodies n)).length = 9 * n + 2 := by
  induction n with
  | zero => rfl
  | succ n ih =>
    have : Spec.spaced (inBodies (n + 1)) =
        c!"x -> { " ++ (Spec.spaced (inBodies n) ++ c!"} ") := by
      rw [inBodies, show ∀ (a b c : Word) l, a :: b :: c :: l = [a, b, c] ++ l from fun _ _ _ _ => rfl,
        spaced_append, spaced_append]; rfl
    rw [this]
    simp only [List.length_append, ih, List.length_cons, List.length_nil]
    omega

/-- C101: `x` in `n` pairs of parentheses, a text of `4 n + 2` characters that is a correct program,
takes `2 ^ n` looks. -/
theorem C101_parens (P : Plat) (n : Nat) : (Spec.spaced (inParens n)).length = 4 * n + 2 ∧
    parseScript P (Spec.spaced (inParens n)) = .ok (.do_ [inParensValue n]) ∧
    2 ^ n ≤ looks P (Spec.spaced (inParens n)) := by
  refine ⟨inParens_length n, ?_, ?_⟩
  · obtain ⟨i, hi, hp, _⟩ := parseScript_words (P := P) (inParens_words n)
    rw [hp]
    exact scriptN_of_stmts (C := ⟨P, _⟩) (.last (Looks.nested_expr (inParens_nested P n))) hi
  · exact C101_doubles (r := []) (by rw [List.append_nil]; exact inParens_words n)
      (inParens_nested P n) (.inl rfl)

/-- C101: functions inside functions, `n` deep, take `4 ^ n` looks. -/
theorem C101_functions (P : Plat) (n : Nat) : (Spec.spaced (inBodies n)).length = 9 * n + 2 ∧
    parseScript P (Spec.spaced (inBodies n)) = .ok (.do_ [inBodiesValue n]) ∧
    4 ^ n ≤ looks P (Spec.spaced (inBodies n)) := by
  refine ⟨inBodies_length n, ?_, ?_⟩
  · obtain ⟨i, hi, hp, _⟩ := parseScript_words (P := P) (inBodies_words n)
    rw [hp]
    exact scriptN_of_stmts (C := ⟨P, _⟩) (.last (Looks.nested_expr (inBodies_nested P n))) hi
  · have := C101_doubles (r := []) (by rw [List.append_nil]; exact inBodies_words n)
      (inBodies_nested P n) (.inl rfl)
    rwa [Nat.pow_mul] at this

theorem exp_beats (c d : Nat) : ∃ n, c * (4 * n + 2) ^ d < 2 ^ n := by
  let m := c + d + 1
  refine ⟨2 ^ (4 * m), ?_⟩
  have h1 : c ≤ 2 ^ c := Nat.le_of_lt Nat.lt_two_pow_self
  have h2 : 4 * 2 ^ (4 * m) + 2 ≤ 2 ^ (4 * m + 3) := by
    rw [Nat.pow_add]
    have : 1 ≤ 2 ^ (4 * m) := Nat.one_le_two_pow
    omega
  have h3 : c + (4 * m + 3) * d < 2 ^ (4 * m) := by
    have hm : m + 1 ≤ 2 ^ m := Nat.lt_two_pow_self
    have : (m + 1) * (m + 1) * ((m + 1) * (m + 1)) ≤ 2 ^ (4 * m) := by
      rw [show 4 * m = m + m + (m + m) by omega, Nat.pow_add, Nat.pow_add]
      exact Nat.mul_le_mul (Nat.mul_le_mul hm hm) (Nat.mul_le_mul hm hm)
    have hd : d ≤ m := by omega
    have hc : c ≤ m := by omega
    have h4 : (4 * m + 3) * d ≤ (4 * m + 3) * m := Nat.mul_le_mul_left _ hd
    have hm1 : 1 ≤ m := by omega
    nlinarith
  calc c * (4 * 2 ^ (4 * m) + 2) ^ d ≤ 2 ^ c * (2 ^ (4 * m + 3)) ^ d :=
        Nat.mul_le_mul h1 (Nat.pow_le_pow_left h2 _)
    _ = 2 ^ (c + (4 * m + 3) * d) := by rw [← Nat.pow_mul, ← Nat.pow_add]
    _ < 2 ^ 2 ^ (4 * m) := Nat.pow_lt_pow_right (by decide) h3

/-- C101: no polynomial in the length of the text bounds the time of the parser, even on correct
programs. -/
theorem C101_no_polynomial (P : Plat) (c d : Nat) : ∃ src x, parseScript P src = .ok x ∧
    c * src.length ^ d < looks P src := by
  obtain ⟨n, hn⟩ := exp_beats c d
  obtain ⟨h1, h2, h3⟩ := C101_parens P n
  exact ⟨_, _, h2, by rw [h1]; omega⟩

/-! ### Examples -/

/-- `( ( x ) ) + x` doubles twice -/
example : Bracketed P 2 [pw c!"(", pw c!"(", (.symbol, c!"x"), pw c!")", pw c!")", ow c!"+", (.symbol, c!"x")]
    (infix_ c!"+" (.group (.group (.symbol c!"x"))) (.symbol c!"x")) :=
  .paren (v := [_, _]) (inParens_nested P 1) (.cmp (.rel (.sum (.add (u := inParens 2) (.prod (.two (.base
    (.group (Looks.nested_expr (inParens_nested P 1)))))) (by decide)
    (.two (.base (.atom (.name (by decide)))))))))

/-- `x x ; x ;` -/
example : looks P (Spec.spaced (commandWords [[(.symbol, c!"x"), (.symbol, c!"x")], [(.symbol, c!"x")]])) ≤
    31 * 5 + 77 := by
  refine C101_linear (C67_spaced ?_) ?_
  · simp only [commandWords, List.flatMap_cons, List.flatMap_nil, List.cons_append, List.nil_append,
      List.forall_mem_cons]
    exact ⟨x_lexeme, x_lexeme, pw_lexeme (by decide), x_lexeme, pw_lexeme (by decide), by simp⟩
  · simp only [List.forall_mem_cons]
    exact ⟨⟨fun w hw => ⟨.symbol c!"x", by simp at hw; subst hw; exact .name (by decide)⟩, by simp⟩,
      ⟨fun w hw => ⟨.symbol c!"x", by simp at hw; subst hw; exact .name (by decide)⟩, by simp⟩, by simp⟩

/-! ### Instances: the hypotheses can be met -/

example := C101_doubles (P := Demo.plat) (src := c!"((x)) + x") (r := [])
  (u := [pw c!"(", pw c!"(", (.symbol, c!"x"), pw c!")", pw c!")", ow c!"+", (.symbol, c!"x")])
  (words_of_attach (ts := _) (ds := _) rfl (by simp) rfl rfl rfl)
  (.paren (v := [_, _]) (inParens_nested _ 1) (.cmp (.rel (.sum (.add (u := inParens 2) (.prod (.two (.base
    (.group (Looks.nested_expr (inParens_nested _ 1)))))) (by decide)
    (.two (.base (.atom (.name (by decide))))))))))
  (.inl rfl)

end Dune.Props
