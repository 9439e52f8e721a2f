import Verif.Spec.Literal

/-! Hexadecimal numbers. -/

namespace Dune.Lex

theorem hexTable_iff (c : Char) (d : Nat) :
    (c, d) ∈ hexTable ↔ isHexDigit c = true ∧ hexVal c = d := by
  constructor
  · intro h
    exact (show ∀ p ∈ hexTable, isHexDigit p.1 = true ∧ hexVal p.1 = p.2 by decide) _ h
  · rintro ⟨h, rfl⟩
    have hc : c.toNat < 103 := by
      simp only [isHexDigit, isDigit, Bool.or_eq_true, Bool.and_eq_true, decide_eq_true_eq,
        Char.le_def, UInt32.le_iff_toNat_le] at h
      have e : c.toNat = c.val.toNat := rfl
      have e1 : ('9' : Char).val.toNat = 57 := rfl
      have e2 : ('f' : Char).val.toNat = 102 := rfl
      have e3 : ('F' : Char).val.toNat = 70 := rfl
      omega
    have : ∀ k < 103, isHexDigit (Char.ofNat k) = true →
        (Char.ofNat k, hexVal (Char.ofNat k)) ∈ hexTable := by decide
    have := this c.toNat hc
    rw [Char.ofNat_toNat] at this
    exact this h

theorem hexNum_snoc (s : Str) (c : Char) : hexNum (s ++ [c]) = 16 * hexNum s + hexVal c := by
  simp [hexNum, List.foldl_append]

theorem Hex.digits {s : Str} {n : Nat} (h : Hex s n) :
    (∀ c ∈ s, isHexDigit c = true) ∧ hexNum s = n := by
  induction h with
  | nil => exact ⟨by simp, rfl⟩
  | snoc _ hd ih =>
    rw [hexTable_iff] at hd
    refine ⟨?_, by rw [hexNum_snoc, ih.2, hd.2]⟩
    simp only [List.forall_mem_append, List.forall_mem_singleton]
    exact ⟨ih.1, hd.1⟩

theorem hex_of_digits : ∀ {k : Nat} {s : Str}, s.length = k → (∀ c ∈ s, isHexDigit c = true) →
    Hex s (hexNum s)
  | 0, s, hk, _ => by
    rw [List.length_eq_zero_iff] at hk
    subst hk
    exact .nil
  | k + 1, s, hk, h => by
    rcases List.eq_nil_or_concat s with rfl | ⟨t, c, rfl⟩
    · exact .nil
    rw [List.concat_eq_append] at hk h ⊢
    simp only [List.forall_mem_append, List.forall_mem_singleton] at h
    rw [hexNum_snoc]
    exact .snoc (hex_of_digits (k := k) (by simpa using hk) h.1) ((hexTable_iff ..).2 ⟨h.2, rfl⟩)

theorem isScalar_iff (n : Nat) : isScalar n = true ↔ n.isValidChar := by
  simp only [isScalar, Bool.or_eq_true, Bool.and_eq_true, decide_eq_true_eq, Nat.isValidChar]

end Dune.Lex
