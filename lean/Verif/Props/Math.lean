import Verif.Proof.Lib
import Verif.Props.Lists
import Mathlib.Data.List.Forall2

/-! C49–C51: the Caesar cipher and integer functions. -/

namespace Dune.Props

open Spec

/-- An ASCII letter of the given first letter of the alphabet (`a` or `A`). -/
def LetterFrom (base : Nat) (c : Char) : Prop := base ≤ c.toNat ∧ c.toNat < base + 26

/-- An ASCII letter. -/
def Letter (c : Char) : Prop := LetterFrom 97 c ∨ LetterFrom 65 c

section

variable {W : Type} {P : Plat} {H : Host W} {L : Lib} {n : Nat} {env env1 env2 env3 : Env}
  {w w1 w2 w3 : W}

open Builtins

theorem toNat_ofNat_small {m : Nat} (h : m < 200) : (Char.ofNat m).toNat = m := by
  have hv : m.isValidChar := Or.inl (by omega)
  rw [Char.ofNat, dif_pos hv]
  show (Char.ofNatAux m hv).val.toNat = m
  simp only [Char.ofNatAux]
  rfl

theorem letter_cases (c : Char) :
    (∃ base, (base = 97 ∨ base = 65) ∧ LetterFrom base c) ∨ ¬ Letter c := by
  by_cases h : Letter c
  · rcases h with h | h
    · exact .inl ⟨97, .inl rfl, h⟩
    · exact .inl ⟨65, .inr rfl, h⟩
  · exact .inr h

theorem caesarChar_letter {base : Nat} (hb : base = 97 ∨ base = 65) {c : Char}
    (h : LetterFrom base c) (i : I64) :
    caesarChar P i c =
      if P.overflowChecks ∧ 256 ≤ (c.toNat - base) + (i.val % 256).toNat then .panic
      else .ok (Char.ofNat (((c.toNat - base) + (i.val % 256).toNat) % 256 % 26 + base)) := by
  obtain ⟨h1, h2⟩ := h
  unfold caesarChar
  rcases hb with rfl | rfl
  · have hl : 97 ≤ c.toNat ∧ c.toNat ≤ 122 := by omega
    simp [hl]
  · have hl : ¬ (97 ≤ c.toNat ∧ c.toNat ≤ 122) := by omega
    have hu : 65 ≤ c.toNat ∧ c.toNat ≤ 90 := by omega
    simp [hl, hu]

theorem caesarChar_other {c : Char} (h : ¬ Letter c) (i : I64) : caesarChar P i c = .ok c := by
  have h1 : ¬ (97 ≤ c.toNat ∧ c.toNat ≤ 122) := fun g => h (.inl ⟨g.1, by omega⟩)
  have h2 : ¬ (65 ≤ c.toNat ∧ c.toNat ≤ 90) := fun g => h (.inr ⟨g.1, by omega⟩)
  simp [caesarChar, h1, h2]

/-- What one shift may do to a character: letters stay letters of the same case, moved by `k` places
around the alphabet, everything else stays. -/
def Shifted (k : Nat) (c d : Char) : Prop :=
  (∀ base, base = 97 ∨ base = 65 → LetterFrom base c →
    LetterFrom base d ∧ d.toNat - base = (c.toNat - base + k) % 26) ∧ (¬ Letter c → d = c)

theorem caesarChar_spec {k : I64} (h0 : 0 ≤ k.val) (h1 : k.val ≤ 230) (c : Char) :
    ∃ d, caesarChar P k c = .ok d ∧ Shifted k.val.toNat c d := by
  rcases letter_cases c with ⟨base, hb, hl⟩ | h
  · rw [caesarChar_letter hb hl]
    have hl' := hl
    obtain ⟨g1, g2⟩ := hl
    have e : (k.val % 256).toNat = k.val.toNat := by omega
    rw [e, if_neg (by omega)]
    refine ⟨_, rfl, ?_, fun hn => absurd (hb.elim (fun h => .inl (h ▸ hl')) (fun h => .inr (h ▸ hl')))
      hn⟩
    intro base' hb' hl2
    have : base' = base := by
      obtain ⟨q1, q2⟩ := hl2
      omega
    subst this
    have hlt : (c.toNat - base' + k.val.toNat) % 256 % 26 + base' < 200 := by omega
    rw [LetterFrom, toNat_ofNat_small hlt]
    omega
  · rw [caesarChar_other h]
    refine ⟨c, rfl, ?_, fun _ => rfl⟩
    intro base hb hl
    exact absurd (hb.elim (fun g => .inl (g ▸ hl)) (fun g => .inr (g ▸ hl))) h

theorem caesarStr_spec {k : I64} (h0 : 0 ≤ k.val) (h1 : k.val ≤ 230) : ∀ s : Str,
    ∃ r, caesarStr P k s = .ok r ∧ List.Forall₂ (Shifted k.val.toNat) s r
  | [] => ⟨[], rfl, .nil⟩
  | c :: s => by
    obtain ⟨d, hd, hc⟩ := caesarChar_spec (P := P) h0 h1 c
    obtain ⟨r, hr, hs⟩ := caesarStr_spec h0 h1 s
    exact ⟨d :: r, by simp [caesarStr, hd, hr], .cons hc hs⟩

theorem shifted_back {k k' : Nat} (hk : (k + k') % 26 = 0) {c d e : Char} (h1 : Shifted k c d)
    (h2 : Shifted k' d e) : e = c := by
  rcases letter_cases c with ⟨base, hb, hl⟩ | h
  · obtain ⟨hd, hd'⟩ := h1.1 base hb hl
    obtain ⟨he, he'⟩ := h2.1 base hb hd
    have : e.toNat = c.toNat := by
      obtain ⟨q1, q2⟩ := hl
      obtain ⟨q3, q4⟩ := he
      omega
    exact Char.ext (UInt32.toNat_inj.mp this)
  · have hd := h1.2 h
    subst hd
    exact h2.2 h

theorem shifted_back_all {k k' : Nat} (hk : (k + k') % 26 = 0) {s r t : Str}
    (h1 : List.Forall₂ (Shifted k) s r) (h2 : List.Forall₂ (Shifted k') r t) : t = s := by
  induction h1 generalizing t with
  | nil => cases h2; rfl
  | cons h _ ih =>
    cases h2 with
    | cons g g' => rw [shifted_back hk h g, ih g']

/-! ### C49 -/

/-- C49, a shift by `0 ≤ k ≤ 230` moves each ASCII letter by `k` places in its alphabet and leaves
every other character as it is; it never fails. -/
theorem C49_shift (hs : Std env) {a b : Expr} {s : Str} {k : I64} (h0 : 0 ≤ k.val)
    (h1 : k.val ≤ 230)
    (ha : evalN P H (stdB P L) n a env w = (.ok (.str s), env1, w1))
    (hb : evalN P H (stdB P L) n b env1 w1 = (.ok (.int k), env2, w2)) :
    ∃ r, evalN P H (stdB P L) (n + 1) (call c!"string" c!"caesar" [a, b]) env w =
        (.ok (.str r), env2, w2) ∧ List.Forall₂ (Shifted k.val.toNat) s r := by
  obtain ⟨r, hr, hf⟩ := caesarStr_spec (P := P) h0 h1 s
  refine ⟨r, ?_, hf⟩
  lib hs, Init.stringM
  brun [Builtins.caesarB, ha, hb, strOrSym, hr]

/-- C49, shifting by `k` and then by `26 - k` gives back the text. -/
theorem C49_undo (hs : Std env) {a b b' : Expr} {s : Str} {k k' : I64}
    (h0 : 0 ≤ k.val) (h1 : k.val ≤ 26) (hk : k'.val = 26 - k.val)
    (ha : evalN P H (stdB P L) n a env w = (.ok (.str s), env1, w1))
    (hb : evalN P H (stdB P L) n b env1 w1 = (.ok (.int k), env2, w2))
    (hb' : evalN P H (stdB P L) (n + 1) b' env2 w2 = (.ok (.int k'), env3, w3)) :
    evalN P H (stdB P L) (n + 2)
        (call c!"string" c!"caesar" [call c!"string" c!"caesar" [a, b], b']) env w =
      (.ok (.str s), env3, w3) := by
  obtain ⟨r, hr, hf⟩ := C49_shift hs h0 (by omega) ha hb
  obtain ⟨t, ht, hg⟩ := C49_shift (n := n + 1) hs (by omega) (by omega) hr hb'
  rw [ht, shifted_back_all (by omega) hf hg]

/-- C49, the cipher with the default shift is its own inverse. -/
theorem C49_rot13 (hs : Std env) {a : Expr} {s : Str}
    (ha : evalN P H (stdB P L) n a env w = (.ok (.str s), env1, w1)) :
    evalN P H (stdB P L) (n + 2)
        (call c!"string" c!"caesar" [call c!"string" c!"caesar" [a]]) env w =
      (.ok (.str s), env1, w1) := by
  obtain ⟨r, hr, hf⟩ := caesarStr_spec (P := P) (k := .lit 13) (by decide) (by decide) s
  obtain ⟨t, ht, hg⟩ := caesarStr_spec (P := P) (k := .lit 13) (by decide) (by decide) r
  have e := shifted_back_all (by decide) hf hg
  have h1 : evalN P H (stdB P L) (n + 1) (call c!"string" c!"caesar" [a]) env w =
      (.ok (.str r), env1, w1) := by
    lib hs, Init.stringM
    brun [Builtins.caesarB, ha, strOrSym, hr]
  lib hs, Init.stringM
  brun [Builtins.caesarB, h1, strOrSym, ht, e]

/-- C49, the negative shift does not undo the cipher: `a` shifted by −1 and then by 1 is `w`. -/
theorem C49_negative_refuted (hs : Std env) :
    evalN P H (stdB P L) (n + 2) (call c!"string" c!"caesar"
      [call c!"string" c!"caesar" [.str c!"a", .int ⟨-1, by decide, by decide⟩], .int (.lit 1)])
      env w = (.ok (.str c!"w"), env, w) := by
  have h0 : ∀ (m : Nat) (v : Expr), (v = .str c!"a" ∨ v = .int ⟨-1, by decide, by decide⟩ ∨
      v = .int (.lit 1)) → evalN P H (stdB P L) m v env w = (.ok v, env, w) := by
    rintro m v (rfl | rfl | rfl) <;> cases m <;> rfl
  have c1 : caesarStr P ⟨-1, by decide, by decide⟩ c!"a" = .ok c!"v" := by
    unfold caesarStr caesarChar caesarStr
    simp
  have c2 : caesarStr P (.lit 1) c!"v" = .ok c!"w" := by
    unfold caesarStr caesarChar caesarStr
    simp [I64.lit]
  have h1 : evalN P H (stdB P L) (n + 1) (call c!"string" c!"caesar"
      [.str c!"a", .int ⟨-1, by decide, by decide⟩]) env w = (.ok (.str c!"v"), env, w) := by
    lib hs, Init.stringM
    brun [Builtins.caesarB, h0, strOrSym, c1]
  lib hs, Init.stringM
  brun [Builtins.caesarB, h0, h1, strOrSym, c2]

/-- C49, every shift from 231 to 255 crashes a build with overflow checks on the letter `z`. -/
theorem C49_overflow (hs : Std env) (hP : P.overflowChecks = true) {a b : Expr} {k : I64}
    (h0 : 231 ≤ k.val) (h1 : k.val ≤ 255)
    (ha : evalN P H (stdB P L) n a env w = (.ok (.str c!"z"), env1, w1))
    (hb : evalN P H (stdB P L) n b env1 w1 = (.ok (.int k), env2, w2)) :
    evalN P H (stdB P L) (n + 1) (call c!"string" c!"caesar" [a, b]) env w =
      (.panic, env2, w2) := by
  have hc : caesarStr P k c!"z" = .panic := by
    have : caesarChar P k 'z' = .panic := by
      rw [caesarChar_letter (base := 97) (.inl rfl) ⟨by decide, by decide⟩, if_pos]
      refine ⟨hP, ?_⟩
      show 256 ≤ 122 - 97 + _
      omega
    simp [caesarStr, this]
  lib hs, Init.stringM
  brun [Builtins.caesarB, ha, hb, strOrSym, hc]

example : (evalN Demo.plat Demo.host (stdB Demo.plat Demo.lib) 2
    (call c!"string" c!"caesar" [.str c!"Zaz é", .int (.lit 3)]) Demo.env []).1 =
    .ok (.str c!"Cdc é") := rfl

/-! ### C50 -/

/-- C50, `iseven` is right on every integer. -/
theorem C50_iseven (hs : Std env) {a : Expr} {i : I64}
    (ha : evalN P H (stdB P L) n a env w = (.ok (.int i), env1, w1)) :
    ∃ r, evalN P H (stdB P L) (n + 1) (call c!"math" c!"iseven" [a]) env w =
        (.ok (.bool r), env1, w1) ∧ (r = true ↔ ∃ j : Int, i.val = 2 * j) := by
  refine ⟨decide (Int.tmod i.val 2 = 0), ?_, ?_⟩
  · lib hs, Init.mathM
    brun [Builtins.parityB, ha]
  · rw [decide_eq_true_iff]
    constructor
    · intro h
      exact ⟨i.val.tdiv 2, by have := Int.mul_tdiv_add_tmod i.val 2; omega⟩
    · rintro ⟨j, hj⟩
      rw [hj]
      exact Int.mul_tmod_right 2 j

/-- C50, `isodd` answers True exactly for the positive odd integers. -/
theorem C50_isodd (hs : Std env) {a : Expr} {i : I64}
    (ha : evalN P H (stdB P L) n a env w = (.ok (.int i), env1, w1)) :
    ∃ r, evalN P H (stdB P L) (n + 1) (call c!"math" c!"isodd" [a]) env w =
        (.ok (.bool r), env1, w1) ∧ (r = true ↔ 0 < i.val ∧ ∃ j : Int, i.val = 2 * j + 1) := by
  refine ⟨decide (Int.tmod i.val 2 = 1), ?_, ?_⟩
  · lib hs, Init.mathM
    brun [Builtins.parityB, ha]
  · rw [decide_eq_true_iff]
    have hm := Int.mul_tdiv_add_tmod i.val 2
    by_cases h0 : 0 ≤ i.val
    · rw [Int.tmod_eq_emod_of_nonneg h0]
      constructor
      · intro h
        exact ⟨by omega, i.val / 2, by omega⟩
      · rintro ⟨_, j, hj⟩
        omega
    · constructor
      · intro h
        have e : i.val = -(-i.val) := by omega
        rw [e, Int.neg_tmod] at h
        have := Int.tmod_nonneg 2 (a := -i.val) (by omega)
        omega
      · intro h
        omega

/-- C50, for every negative odd integer both `isodd` and `iseven` answer False. -/
theorem C50_isodd_refuted (hs : Std env) {a : Expr} {i : I64} {j : Int} (hi : i.val < 0)
    (hj : i.val = 2 * j + 1)
    (ha : evalN P H (stdB P L) n a env w = (.ok (.int i), env1, w1)) :
    evalN P H (stdB P L) (n + 1) (call c!"math" c!"isodd" [a]) env w =
        (.ok (.bool false), env1, w1) ∧
      evalN P H (stdB P L) (n + 1) (call c!"math" c!"iseven" [a]) env w =
        (.ok (.bool false), env1, w1) := by
  obtain ⟨r, hr, h1⟩ := C50_isodd hs ha
  obtain ⟨r', hr', h2⟩ := C50_iseven hs ha
  have e1 : r = false := by
    cases r with
    | false => rfl
    | true => have := h1.mp rfl; omega
  have e2 : r' = false := by
    cases r' with
    | false => rfl
    | true => obtain ⟨j', h⟩ := h2.mp rfl; omega
  rw [hr, hr', e1, e2]
  exact ⟨rfl, rfl⟩

example : (evalN Demo.plat Demo.host (stdB Demo.plat Demo.lib) 2
    (call c!"math" c!"isodd" [.int ⟨-7, by decide, by decide⟩]) Demo.env []).1 =
    .ok (.bool false) := rfl

/-! ### C51 -/

/-- C51, for exponents from 0 to 2^32 − 1 `pow` returns the exact power, or an error if that does not
fit. -/
theorem C51_pow (hs : Std env) {a b : Expr} {x e : I64} (h0 : 0 ≤ e.val)
    (h1 : e.val < 4294967296)
    (ha : evalN P H (stdB P L) n a env w = (.ok (.int x), env1, w1))
    (hb : evalN P H (stdB P L) n b env1 w1 = (.ok (.int e), env2, w2)) :
    (∃ r : I64, r.val = x.val ^ e.val.toNat ∧
      evalN P H (stdB P L) (n + 1) (call c!"math" c!"pow" [a, b]) env w =
        (.ok (.int r), env2, w2)) ∨
    ((∀ r : I64, r.val ≠ x.val ^ e.val.toNat) ∧ ∃ m : Str,
      evalN P H (stdB P L) (n + 1) (call c!"math" c!"pow" [a, b]) env w =
        (.err (.customError m), env2, w2)) := by
  have he : (e.val % 4294967296).toNat = e.val.toNat := by omega
  lib hs, Init.mathM
  cases hp : checkedPow x e with
  | some r =>
    refine .inl ⟨r, ?_, ?_⟩
    · simp only [checkedPow, I64.ofInt?, he] at hp
      split at hp
      · cases hp; rfl
      · cases hp
    · brun [Builtins.powB, ha, hb, hp]
  | none =>
    refine .inr ⟨?_, c!"overflow when raising int " ++ intToStr x.val ++ c!" to the power " ++
        intToStr e.val, ?_⟩
    · intro r hr
      simp only [checkedPow, I64.ofInt?, he] at hp
      split at hp
      · cases hp
      · rename_i hn
        exact hn ⟨hr ▸ r.lo, hr ▸ r.hi⟩
    · brun [Builtins.powB, ha, hb, hp]

/-- C51, exponents that differ by a multiple of 2^32 give the same result, so for instance the power
2^32 of any number is reported as 1. -/
theorem C51_pow_modulo (hs : Std env) {a b b' : Expr} {x e e' : I64}
    (h : e.val % 4294967296 = e'.val % 4294967296)
    (ha : evalN P H (stdB P L) n a env w = (.ok (.int x), env1, w1))
    (hb : evalN P H (stdB P L) n b env1 w1 = (.ok (.int e), env2, w2))
    (hb' : evalN P H (stdB P L) n b' env1 w1 = (.ok (.int e'), env2, w2)) {v : Expr}
    (hv : evalN P H (stdB P L) (n + 1) (call c!"math" c!"pow" [a, b]) env w =
      (.ok v, env2, w2)) :
    evalN P H (stdB P L) (n + 1) (call c!"math" c!"pow" [a, b']) env w = (.ok v, env2, w2) := by
  have hc : checkedPow x e' = checkedPow x e := by simp only [checkedPow, h]
  revert hv
  lib hs, Init.mathM
  lib hs, Init.mathM
  cases hp : checkedPow x e with
  | some r => brun [Builtins.powB, ha, hb, hb', hp, hc]
  | none => brun [Builtins.powB, ha, hb, hb', hp, hc]

/-- C51, exactness fails for larger exponents: 2 to the power 2^32 is 1, and so is 2 to the power
−2^32. -/
theorem C51_large_refuted (hs : Std env) {a b : Expr} {x e : I64}
    (he : e.val % 4294967296 = 0)
    (ha : evalN P H (stdB P L) n a env w = (.ok (.int x), env1, w1))
    (hb : evalN P H (stdB P L) n b env1 w1 = (.ok (.int e), env2, w2)) :
    evalN P H (stdB P L) (n + 1) (call c!"math" c!"pow" [a, b]) env w =
      (.ok (.int (.lit 1)), env2, w2) := by
  have hp : checkedPow x e = some (.lit 1) := by
    simp only [checkedPow, he, Int.toNat_zero, Int.pow_zero]
    rfl
  lib hs, Init.mathM
  brun [Builtins.powB, ha, hb, hp]

example : (evalN Demo.plat Demo.host (stdB Demo.plat Demo.lib) 2
    (call c!"math" c!"pow" [.int (.lit 2), .int (.lit 4294967296)]) Demo.env []).1 =
    .ok (.int (.lit 1)) := rfl
example : (evalN Demo.plat Demo.host (stdB Demo.plat Demo.lib) 2
    (call c!"math" c!"pow" [.int (.lit 3), .int (.lit 4)]) Demo.env []).1 =
    .ok (.int (.lit 81)) := rfl

end

/-! ### Instances: the hypotheses can be met -/

example := C49_shift (P := Demo.plat) (H := Demo.host) (L := Demo.lib) (n := 0) (w := [])
  demo_std (a := .str c!"Zaz é") (b := .int (.lit 230)) (k := .lit 230) (by decide) (by decide) rfl rfl

example := C49_undo (P := Demo.plat) (H := Demo.host) (L := Demo.lib) (n := 0) (w := [])
  demo_std (a := .str c!"Zaz é") (b := .int (.lit 3)) (k := .lit 3) (b' := .int (.lit 23)) (k' := .lit 23)
  (by decide) (by decide) rfl rfl rfl rfl

example := C49_rot13 (P := Demo.plat) (H := Demo.host) (L := Demo.lib) (n := 0) (w := [])
  demo_std (a := .str c!"Zaz é") rfl

example := C50_iseven (P := Demo.plat) (H := Demo.host) (L := Demo.lib) (n := 0) (w := [])
  demo_std (a := .int .min) rfl

example := C50_isodd (P := Demo.plat) (H := Demo.host) (L := Demo.lib) (n := 0) (w := [])
  demo_std (a := .int .max) rfl

example := C51_pow (P := Demo.plat) (H := Demo.host) (L := Demo.lib) (n := 0) (w := [])
  demo_std (a := .int (.lit 3)) (b := .int (.lit 40)) (e := .lit 40) (by decide) (by decide) rfl rfl

example : ∃ v, evalN Demo.plat Demo.host (stdB Demo.plat Demo.lib) 1
    (call c!"math" c!"pow" [.int (.lit 3), .int (.lit 4294967300)]) Demo.env [] = (.ok v, Demo.env, []) := by
  rcases C51_pow (P := Demo.plat) (H := Demo.host) (L := Demo.lib) (n := 0) (w := [])
    demo_std (a := .int (.lit 3)) (b := .int (.lit 4)) (e := .lit 4) (by decide) (by decide) rfl rfl with
    ⟨r, -, h⟩ | ⟨h, -⟩
  · exact ⟨_, C51_pow_modulo demo_std (a := .int (.lit 3)) (b := .int (.lit 4)) (e := .lit 4)
      (e' := .lit 4294967300) (by decide) rfl rfl rfl h⟩
  · exact absurd rfl (h (.lit 81))

end Dune.Props
