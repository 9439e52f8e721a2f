import Verif.Props.Basics
import Verif.Proof.Numeral

/-! What `int` makes of a value. -/

namespace Dune.Spec

/-- A text that writes down an integer: digits, at least one, after at most one sign. -/
inductive Numeral : Str → Int → Prop
  | plain {ds : Str} : ds ≠ [] → (∀ c ∈ ds, c ∈ digitChars) → Numeral ds (decimal ds)
  | plus {ds : Str} : ds ≠ [] → (∀ c ∈ ds, c ∈ digitChars) → Numeral ('+' :: ds) (decimal ds)
  | minus {ds : Str} : ds ≠ [] → (∀ c ∈ ds, c ∈ digitChars) → Numeral ('-' :: ds) (-(decimal ds : Int))

end Dune.Spec

namespace Dune.Props

open Spec

theorem digitsVal_none : ∀ {ds : Str} {acc : Nat}, (∃ c ∈ ds, c ∉ digitChars) → digitsVal ds acc = none
  | [], _, ⟨_, h, _⟩ => nomatch h
  | c :: ds, acc, ⟨x, hx, hn⟩ => by
    rw [digitsVal]
    split
    · rename_i hc
      rcases List.mem_cons.mp hx with rfl | hx
      · refine absurd ?_ hn
        simp only [isDigit, decide_eq_true_eq] at hc
        have : x.toNat = 48 ∨ x.toNat = 49 ∨ x.toNat = 50 ∨ x.toNat = 51 ∨ x.toNat = 52 ∨ x.toNat = 53 ∨
            x.toNat = 54 ∨ x.toNat = 55 ∨ x.toNat = 56 ∨ x.toNat = 57 := by
          have h1 : (48 : Nat) ≤ x.toNat := hc.1
          have h2 : x.toNat ≤ 57 := hc.2
          omega
        have e : Char.ofNat x.toNat = x := by simp
        rcases this with h | h | h | h | h | h | h | h | h | h <;> rw [h] at e <;> rw [← e] <;> decide
      · exact digitsVal_none ⟨x, hx, hn⟩
    · rfl

theorem digitsVal_some {ds : Str} {n : Nat} (h : digitsVal ds 0 = some n) :
    (∀ c ∈ ds, c ∈ digitChars) ∧ n = decimal ds := by
  by_cases hd : ∀ c ∈ ds, c ∈ digitChars
  · rw [digitsVal_eq hd] at h
    exact ⟨hd, (Option.some.inj h).symm⟩
  · have : ∃ c ∈ ds, c ∉ digitChars := by
      apply Classical.byContradiction
      intro hc
      exact hd fun c h => Classical.byContradiction fun h' => hc ⟨c, h, h'⟩
    rw [digitsVal_none this] at h
    cases h

theorem ofInt_val {z : Int} {i : I64} (h : I64.ofInt? z = some i) : i.val = z := by
  unfold I64.ofInt? at h
  split at h
  · cases h; rfl
  · cases h

theorem parse_iff {s : Str} {i : I64} : parseI64 s = some i ↔ Numeral s i.val := by
  constructor
  · intro h
    rw [parseI64.eq_def] at h
    split at h
    · cases h
    · cases h
    · cases h
    · rename_i ds hne
      obtain ⟨n, hn, hi⟩ := Option.bind_eq_some_iff.mp h
      obtain ⟨hd, rfl⟩ := digitsVal_some hn
      rw [ofInt_val hi]
      exact .minus (by rintro rfl; exact hne rfl) hd
    · rename_i ds hne
      obtain ⟨n, hn, hi⟩ := Option.bind_eq_some_iff.mp h
      obtain ⟨hd, rfl⟩ := digitsVal_some hn
      rw [ofInt_val hi]
      exact .plus (by rintro rfl; exact hne rfl) hd
    · rename_i hne _ _ _ _
      obtain ⟨n, hn, hi⟩ := Option.bind_eq_some_iff.mp h
      obtain ⟨hd, rfl⟩ := digitsVal_some hn
      rw [ofInt_val hi]
      exact .plain (by rintro rfl; exact hne rfl) hd
  · intro h
    generalize hz : i.val = z at h
    cases h with
    | plain hne hd =>
      have := parseI64_eq (sign := []) (by simp) hne hd
      rw [List.nil_append] at this
      rw [this]
      exact ofInt_some i (by rw [hz]; simp [signed])
    | @plus ds hne hd =>
      have : parseI64 ('+' :: ds) = (digitsVal ds 0).bind fun n => I64.ofInt? n := by
        rw [parseI64.eq_def]
        split <;> simp_all
      rw [this, digitsVal_eq hd, Option.bind_some]
      exact ofInt_some i hz
    | @minus ds hne hd =>
      have := parseI64_eq (sign := c!"-") (by simp) hne hd
      rw [List.cons_append, List.nil_append] at this
      rw [this]
      exact ofInt_some i (by rw [hz]; simp [signed])

section

variable {W : Type} {P : Plat} {H : Host W} {L : Lib} {env env1 : Env} {w w1 : W} {n : Nat}

/-- C71, `int` of a text is the integer that the text writes down, if there is one of 64 bits, and
otherwise an error. -/
theorem C71_int_text (hs : Std env) {a : Expr} {s : Str}
    (ha : evalN P H (stdB P L) n a env w = (.ok (.str s), env1, w1)) :
    (∃ i : I64, Numeral s i.val ∧
      evalN P H (stdB P L) (n + 1) (.apply (.symbol c!"int") [a]) env w = (.ok (.int i), env1, w1)) ∨
    ((¬∃ i : I64, Numeral s i.val) ∧ ∃ msg,
      evalN P H (stdB P L) (n + 1) (.apply (.symbol c!"int") [a]) env w =
        (.err (.customError msg), env1, w1)) := by
  rw [eval_top hs (nm := c!"int") (id := .int) (hlp := []) (by mem_tac)]
  cases hp : parseI64 s with
  | some i =>
    refine .inl ⟨i, parse_iff.mp hp, ?_⟩
    brun [Builtins.intB, ha, hp]
  | none =>
    refine .inr ⟨?_, ?_⟩
    · rintro ⟨i, hi⟩
      rw [parse_iff.mpr hi] at hp
      cases hp
    · refine ⟨c!"could not convert " ++ debugStr P s ++ c!" to an integer", ?_⟩
      brun [Builtins.intB, ha, hp]

/-- C71, `int` leaves integers as they are, makes an integer of a floating point number, and fails for
everything else but texts. -/
theorem C71_int_other (hs : Std env) {a v : Expr}
    (ha : evalN P H (stdB P L) n a env w = (.ok v, env1, w1)) (hv : ∀ s, v ≠ .str s) :
    match v with
    | .int i => evalN P H (stdB P L) (n + 1) (.apply (.symbol c!"int") [a]) env w = (.ok (.int i), env1, w1)
    | .float x =>
      evalN P H (stdB P L) (n + 1) (.apply (.symbol c!"int") [a]) env w = (.ok (.int (P.fToInt x)), env1, w1)
    | _ => ∃ msg, evalN P H (stdB P L) (n + 1) (.apply (.symbol c!"int") [a]) env w =
        (.err (.customError msg), env1, w1) := by
  rw [eval_top hs (nm := c!"int") (id := .int) (hlp := []) (by mem_tac)]
  cases v <;> first
    | exact absurd rfl (hv _)
    | (dsimp only; brun [Builtins.intB, ha])

end

example : Numeral c!"+0042" 42 := .plus (ds := c!"0042") (by simp) (by decide)

example : Numeral c!"-9223372036854775808" (-2 ^ 63) := by
  have : decimal c!"9223372036854775808" = 2 ^ 63 := by decide +kernel
  have h := Numeral.minus (ds := c!"9223372036854775808") (by simp) (by decide)
  rw [this] at h
  exact h

example : ¬∃ z, Numeral c!"4 2" z := by
  rintro ⟨z, h⟩
  cases h with
  | plain _ h => exact absurd (h ' ' (by simp)) (by decide)

/-! ### Instances: the hypotheses can be met -/

example := C71_int_text (P := Demo.plat) (H := Demo.host) (L := Demo.lib) (n := 0) (w := [])
  demo_std (a := .str c!"-12") rfl

end Dune.Props
