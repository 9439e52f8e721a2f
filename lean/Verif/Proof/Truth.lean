import Verif.Spec.Truth

/-! The functions of the model decide `Truthy`, `Mentions` and the order of numbers. -/

namespace Dune

open Spec

/-! ### Floating-point numbers -/

theorem mag_parts (f : F64) : f.mag = exponentOf f * 2 ^ 52 + fractionOf f := by
  simp only [F64.mag, exponentOf, fractionOf]
  have := f.bits.isLt
  omega

theorem fractionOf_lt (f : F64) : fractionOf f < 2 ^ 52 := Nat.mod_lt _ (by decide)

theorem exponentOf_lt (f : F64) : exponentOf f < 2 ^ 11 := Nat.mod_lt _ (by decide)

theorem isNaN_iff (f : F64) : f.isNaN = true ↔ IsNaN f := by
  simp only [F64.isNaN, decide_eq_true_eq, IsNaN, mag_parts]
  have := fractionOf_lt f
  have := exponentOf_lt f
  omega

/-- the multiples of the smallest number, from the bits without the sign -/
def absMultiples (m : Nat) : Nat :=
  if m / 2 ^ 52 = 0 then m else (2 ^ 52 + m % 2 ^ 52) * 2 ^ (m / 2 ^ 52 - 1)

theorem absMultiples_lt {m m' : Nat} (h : m < m') : absMultiples m < absMultiples m' := by
  simp only [absMultiples]
  have hd : m / 2 ^ 52 ≤ m' / 2 ^ 52 := Nat.div_le_div_right (by omega)
  have e1 := Nat.div_add_mod m (2 ^ 52)
  have e2 := Nat.div_add_mod m' (2 ^ 52)
  have l1 := Nat.mod_lt m (show 0 < 2 ^ 52 by decide)
  have l2 := Nat.mod_lt m' (show 0 < 2 ^ 52 by decide)
  generalize m / 2 ^ 52 = a at *
  generalize m' / 2 ^ 52 = b at *
  generalize m % 2 ^ 52 = x at *
  generalize m' % 2 ^ 52 = y at *
  by_cases hb : b = 0
  · have ha : a = 0 := by omega
    rw [if_pos ha, if_pos hb]
    exact h
  · rw [if_neg hb]
    have hp : 0 < 2 ^ (b - 1) := Nat.pow_pos (by decide)
    by_cases ha : a = 0
    · rw [if_pos ha]
      have : 2 ^ 52 * 1 ≤ (2 ^ 52 + y) * 2 ^ (b - 1) := Nat.mul_le_mul (by omega) hp
      omega
    · rw [if_neg ha]
      rcases Nat.lt_or_ge a b with hab | hab
      · have h1 : (2 ^ 52 + x) * 2 ^ (a - 1) < 2 ^ 53 * 2 ^ (a - 1) :=
          Nat.mul_lt_mul_of_pos_right (by omega) (Nat.pow_pos (by decide))
        have h2 : 2 ^ 53 * 2 ^ (a - 1) = 2 ^ 52 * 2 ^ a := by
          obtain ⟨c, rfl⟩ : ∃ c, a = c + 1 := ⟨a - 1, by omega⟩
          rw [Nat.add_sub_cancel, Nat.pow_succ 2 c, ← Nat.mul_assoc, Nat.mul_right_comm]
        have h3 : 2 ^ a ≤ 2 ^ (b - 1) := Nat.pow_le_pow_right (by decide) (by omega)
        have h4 : 2 ^ 52 * 2 ^ a ≤ (2 ^ 52 + y) * 2 ^ (b - 1) := Nat.mul_le_mul (by omega) h3
        omega
      · have : a = b := by omega
        subst this
        exact Nat.mul_lt_mul_of_pos_right (by omega) hp

theorem multiples_eq (f : F64) :
    multiples f = (if f.bits.toNat < 2 ^ 63 then 1 else -1) * (absMultiples f.mag : Int) := by
  have h1 : f.mag / 2 ^ 52 = exponentOf f := by
    rw [mag_parts]; have := fractionOf_lt f; omega
  have h2 : f.mag % 2 ^ 52 = fractionOf f := by
    rw [mag_parts]; have := fractionOf_lt f; omega
  simp only [multiples, absMultiples, h1, h2]
  by_cases he : exponentOf f = 0
  · rw [if_pos he, if_pos he]
    have : f.mag = fractionOf f := by rw [mag_parts, he]; simp
    rw [this]
  · rw [if_neg he, if_neg he]

theorem key_eq (f : F64) : f.key = (if f.bits.toNat < 2 ^ 63 then 1 else -1) * (f.mag : Int) := by
  simp only [F64.key]
  by_cases h : f.bits.toNat < 9223372036854775808 <;> simp [h]

theorem absMultiples_zero : absMultiples 0 = 0 := rfl

theorem absMultiples_pos {m : Nat} (h : 0 < m) : 0 < absMultiples m := absMultiples_lt h

theorem multiples_lt {f g : F64} (h : f.key < g.key) : multiples f < multiples g := by
  rw [key_eq, key_eq] at h
  rw [multiples_eq, multiples_eq]
  by_cases hf : f.bits.toNat < 2 ^ 63 <;> by_cases hg : g.bits.toNat < 2 ^ 63 <;>
    simp only [hf, hg, if_true, if_false, Int.one_mul, Int.neg_mul] at h ⊢
  · have := absMultiples_lt (m := f.mag) (m' := g.mag) (by omega)
    omega
  · omega
  · by_cases h0 : f.mag = 0
    · have := absMultiples_pos (m := g.mag) (by omega)
      omega
    · have := absMultiples_pos (m := f.mag) (by omega)
      omega
  · have := absMultiples_lt (m := g.mag) (m' := f.mag) (by omega)
    omega

theorem multiples_congr {f g : F64} (h : f.key = g.key) : multiples f = multiples g := by
  rw [key_eq, key_eq] at h
  rw [multiples_eq, multiples_eq]
  by_cases hf : f.bits.toNat < 2 ^ 63 <;> by_cases hg : g.bits.toNat < 2 ^ 63 <;>
    simp only [hf, hg, if_true, if_false, Int.one_mul, Int.neg_mul] at h ⊢
  · have : f.mag = g.mag := by omega
    rw [this]
  · have h1 : f.mag = 0 := by omega
    have h2 : g.mag = 0 := by omega
    rw [h1, h2]
    rfl
  · have h1 : f.mag = 0 := by omega
    have h2 : g.mag = 0 := by omega
    rw [h1, h2]
    rfl
  · have : f.mag = g.mag := by omega
    rw [this]

theorem key_lt_iff (f g : F64) : f.key < g.key ↔ multiples f < multiples g := by
  refine ⟨multiples_lt, fun h => ?_⟩
  rcases Int.lt_trichotomy f.key g.key with h1 | h1 | h1
  · exact h1
  · have := multiples_congr h1
    omega
  · have := multiples_lt h1
    omega

theorem key_eq_iff (f g : F64) : f.key = g.key ↔ multiples f = multiples g := by
  refine ⟨multiples_congr, fun h => ?_⟩
  rcases Int.lt_trichotomy f.key g.key with h1 | h1 | h1
  · have := multiples_lt h1
    omega
  · exact h1
  · have := multiples_lt h1
    omega

theorem feq_iff (f g : F64) :
    F64.eq f g = true ↔ ¬ IsNaN f ∧ ¬ IsNaN g ∧ multiples f = multiples g := by
  simp only [F64.eq, Bool.and_eq_true, Bool.not_eq_true', beq_iff_eq, ← isNaN_iff, key_eq_iff,
    Bool.not_eq_true, and_assoc]

theorem fcmp_iff (f g : F64) (o : Ordering) :
    F64.partialCmp f g = some o ↔
      ¬ IsNaN f ∧ ¬ IsNaN g ∧ compare (multiples f) (multiples g) = o := by
  have hc : compare f.key g.key = compare (multiples f) (multiples g) := by
    rcases Int.lt_trichotomy f.key g.key with h | h | h
    · rw [Int.compare_eq_lt.2 h, Int.compare_eq_lt.2 ((key_lt_iff ..).1 h)]
    · rw [Int.compare_eq_eq.2 h, Int.compare_eq_eq.2 ((key_eq_iff ..).1 h)]
    · rw [Int.compare_eq_gt.2 h, Int.compare_eq_gt.2 ((key_lt_iff ..).1 h)]
  simp only [F64.partialCmp, ← isNaN_iff, hc]
  cases f.isNaN <;> cases g.isNaN <;> simp

/-! ### Truth -/

theorem zero_iff (f : F64) :
    F64.eq f F64.zero = true ↔ f.bits = 0x0000000000000000 ∨ f.bits = 0x8000000000000000 := by
  have hz : F64.zero.isNaN = false := rfl
  have hk : F64.zero.key = 0 := rfl
  have h0 : (0x0000000000000000 : BitVec 64).toNat = 0 := rfl
  have h1 : (0x8000000000000000 : BitVec 64).toNat = 9223372036854775808 := rfl
  have hlt := f.bits.isLt
  rw [F64.eq, hz, hk, BitVec.toNat_eq, BitVec.toNat_eq, h0, h1]
  simp only [Bool.and_eq_true, Bool.not_eq_true', beq_iff_eq, F64.isNaN, Bool.not_false, and_true,
    F64.key, decide_eq_false_iff_not]
  have hm : f.mag = f.bits.toNat % 9223372036854775808 := rfl
  split <;> omega

theorem isTruthy_iff (v : Expr) : v.isTruthy = true ↔ Truthy v := by
  constructor
  · intro h
    cases v with
    | int i => exact .int (by simpa [Expr.isTruthy] using h)
    | float f =>
      have : ¬ F64.eq f F64.zero = true := by simpa [Expr.isTruthy] using h
      rw [zero_iff, not_or] at this
      exact .float this.1 this.2
    | str s => exact .str (by simpa [Expr.isTruthy] using h)
    | bytes b => exact .bytes (by simpa [Expr.isTruthy] using h)
    | bool b =>
      cases b with
      | true => exact .bool
      | false => simp [Expr.isTruthy] at h
    | list l => exact .list (by simpa [Expr.isTruthy] using h)
    | map m => exact .map (by simpa [Expr.isTruthy] using h)
    | lambda _ _ _ _ => exact .lambda
    | macro_ _ _ => exact .macro_
    | builtin _ _ _ => exact .builtin
    | _ => simp [Expr.isTruthy] at h
  · intro h
    cases h with
    | float h1 h2 =>
      have := (not_congr (zero_iff _)).2 (not_or.2 ⟨h1, h2⟩)
      simpa [Expr.isTruthy] using this
    | _ => simp_all [Expr.isTruthy]

theorem isTruthy_false_iff (v : Expr) : v.isTruthy = false ↔ ¬ Truthy v := by
  rw [← isTruthy_iff, Bool.not_eq_true]

instance : DecidablePred Truthy := fun v => decidable_of_iff _ (isTruthy_iff v)

theorem decide_truthy (v : Expr) : decide (Truthy v) = v.isTruthy := by
  rw [Bool.eq_iff_iff, decide_eq_true_eq, isTruthy_iff]

/-! ### Names -/

theorem mem_usedList {x : Str} : ∀ {l : List Expr},
    x ∈ Expr.usedSymbolsList l ↔ ∃ e ∈ l, x ∈ e.usedSymbols
  | [] => by simp [Expr.usedSymbolsList]
  | e :: l => by simp [Expr.usedSymbolsList, mem_usedList (l := l)]

theorem mem_usedMap {x : Str} : ∀ {m : List (Str × Expr)},
    x ∈ Expr.usedSymbolsMap m ↔ ∃ k e, (k, e) ∈ m ∧ x ∈ e.usedSymbols
  | [] => by simp [Expr.usedSymbolsMap]
  | (k, e) :: m => by
    simp only [Expr.usedSymbolsMap, List.mem_append, mem_usedMap (m := m), List.mem_cons, Prod.mk.injEq]
    constructor
    · rintro (h | ⟨k, e, h1, h2⟩)
      · exact ⟨k, e, .inl ⟨rfl, rfl⟩, h⟩
      · exact ⟨k, e, .inr h1, h2⟩
    · rintro ⟨k, e, ⟨rfl, rfl⟩ | h1, h2⟩
      · exact .inl h2
      · exact .inr ⟨k, e, h1, h2⟩

theorem used_of_mentions {e : Expr} {x : Str} (h : Mentions e x) : x ∈ e.usedSymbols := by
  induction h with
  | here x => simp [Expr.usedSymbols]
  | inside hp _ ih =>
    cases hp with
    | statement h => exact mem_usedList.2 ⟨_, h, ih⟩
    | item h => exact mem_usedList.2 ⟨_, h, ih⟩
    | entry h => exact mem_usedMap.2 ⟨_, _, h, ih⟩
    | argument h => exact List.mem_append.2 (.inr (mem_usedList.2 ⟨_, h, ih⟩))
    | _ => simp [Expr.usedSymbols, ih]

mutual

theorem mentions_of_used {x : Str} : ∀ (e : Expr), x ∈ e.usedSymbols → Mentions e x
  | .symbol n, h => by
    simp only [Expr.usedSymbols, List.mem_singleton] at h
    subst h
    exact .here x
  | .none, h => by simp [Expr.usedSymbols] at h
  | .int _, h => by simp [Expr.usedSymbols] at h
  | .float _, h => by simp [Expr.usedSymbols] at h
  | .bytes _, h => by simp [Expr.usedSymbols] at h
  | .str _, h => by simp [Expr.usedSymbols] at h
  | .bool _, h => by simp [Expr.usedSymbols] at h
  | .builtin .., h => by simp [Expr.usedSymbols] at h
  | .for_ _ l body, h => by
    simp only [Expr.usedSymbols, List.mem_append] at h
    rcases h with h | h
    · exact .inside .forList (mentions_of_used _ h)
    · exact .inside .forBody (mentions_of_used _ h)
  | .do_ l, h => by
    obtain ⟨e, h1, h2⟩ := mentions_of_usedList l h
    exact .inside (.statement h1) h2
  | .list l, h => by
    obtain ⟨e, h1, h2⟩ := mentions_of_usedList l h
    exact .inside (.item h1) h2
  | .map m, h => by
    obtain ⟨k, e, h1, h2⟩ := mentions_of_usedMap m h
    exact .inside (.entry h1) h2
  | .group e, h => .inside .group (mentions_of_used e h)
  | .quote e, h => .inside .quote (mentions_of_used e h)
  | .lambda _ body _ _, h => .inside .function (mentions_of_used body h)
  | .macro_ _ body, h => .inside .macro_ (mentions_of_used body h)
  | .assign _ e, h => .inside .assign (mentions_of_used e h)
  | .ite c t e, h => by
    simp only [Expr.usedSymbols, List.mem_append] at h
    rcases h with (h | h) | h
    · exact .inside .condition (mentions_of_used _ h)
    · exact .inside .then_ (mentions_of_used _ h)
    · exact .inside .else_ (mentions_of_used _ h)
  | .apply g args, h => by
    simp only [Expr.usedSymbols, List.mem_append] at h
    rcases h with h | h
    · exact .inside .applied (mentions_of_used _ h)
    · obtain ⟨e, h1, h2⟩ := mentions_of_usedList args h
      exact .inside (.argument h1) h2

theorem mentions_of_usedList {x : Str} : ∀ (l : List Expr), x ∈ Expr.usedSymbolsList l →
    ∃ e ∈ l, Mentions e x
  | [], h => by simp [Expr.usedSymbolsList] at h
  | e :: l, h => by
    simp only [Expr.usedSymbolsList, List.mem_append] at h
    rcases h with h | h
    · exact ⟨e, by simp, mentions_of_used e h⟩
    · obtain ⟨e', h1, h2⟩ := mentions_of_usedList l h
      exact ⟨e', by simp [h1], h2⟩

theorem mentions_of_usedMap {x : Str} : ∀ (m : List (Str × Expr)), x ∈ Expr.usedSymbolsMap m →
    ∃ k e, (k, e) ∈ m ∧ Mentions e x
  | [], h => by simp [Expr.usedSymbolsMap] at h
  | (k, e) :: m, h => by
    simp only [Expr.usedSymbolsMap, List.mem_append] at h
    rcases h with h | h
    · exact ⟨k, e, by simp, mentions_of_used e h⟩
    · obtain ⟨k', e', h1, h2⟩ := mentions_of_usedMap m h
      exact ⟨k', e', by simp [h1], h2⟩

end

theorem mentions_iff (e : Expr) (x : Str) : x ∈ e.usedSymbols ↔ Mentions e x :=
  ⟨mentions_of_used e, used_of_mentions⟩

instance (e : Expr) (x : Str) : Decidable (Mentions e x) := decidable_of_iff _ (mentions_iff e x)

end Dune
