import Verif.Model.BMap
import Mathlib.Tactic.ByContra

/-! Laws of the string order and of the sorted association lists. -/

namespace Dune

theorem cmpStr_refl : ∀ a : Str, cmpStr a a = .eq
  | [] => rfl
  | a :: as => by simp [cmpStr, cmpStr_refl as]

theorem Char.toNat_inj' {a b : Char} (h : a.toNat = b.toNat) : a = b := by
  apply Char.ext
  exact UInt32.toNat_inj.mp h

theorem cmpStr_eq_iff : ∀ a b : Str, cmpStr a b = .eq ↔ a = b
  | [], [] => by simp [cmpStr]
  | [], _ :: _ => by simp [cmpStr]
  | _ :: _, [] => by simp [cmpStr]
  | a :: as, b :: bs => by
    have ih := cmpStr_eq_iff as bs
    simp only [cmpStr]
    constructor
    · intro h
      split at h
      · cases h
      · split at h
        · cases h
        · have : a.toNat = b.toNat := by omega
          rw [Char.toNat_inj' this, ih.mp h]
    · intro h
      cases h
      simp [cmpStr_refl]

theorem cmpStr_swap : ∀ a b : Str, (cmpStr a b).swap = cmpStr b a
  | [], [] => rfl
  | [], _ :: _ => rfl
  | _ :: _, [] => rfl
  | a :: as, b :: bs => by
    have ih := cmpStr_swap as bs
    simp only [cmpStr]
    by_cases h1 : a.toNat < b.toNat
    · have : ¬ b.toNat < a.toNat := by omega
      simp [h1, this]
    · by_cases h2 : b.toNat < a.toNat
      · simp [h1, h2]
      · simp [h1, h2, ih]

theorem cmpStr_gt_iff (a b : Str) : cmpStr a b = .gt ↔ cmpStr b a = .lt := by
  rw [← cmpStr_swap a b]
  cases cmpStr a b <;> simp

theorem cmpStr_lt_trans : ∀ a b c : Str, cmpStr a b = .lt → cmpStr b c = .lt → cmpStr a c = .lt
  | [], [], _ => by simp [cmpStr]
  | [], _ :: _, [] => by simp [cmpStr]
  | [], _ :: _, _ :: _ => by simp [cmpStr]
  | _ :: _, [], _ => by simp [cmpStr]
  | _ :: _, _ :: _, [] => by simp [cmpStr]
  | a :: as, b :: bs, c :: cs => by
    have ih := cmpStr_lt_trans as bs cs
    simp only [cmpStr]
    intro h1 h2
    split at h1
    · split at h2
      · rw [if_pos (by omega)]
      · split at h2
        · cases h2
        · rw [if_pos (by omega)]
    · split at h1
      · cases h1
      · split at h2
        · rw [if_pos (by omega)]
        · split at h2
          · cases h2
          · rw [if_neg (by omega), if_neg (by omega)]
            exact ih h1 h2

theorem cmpStr_lt_irrefl (a : Str) : cmpStr a a ≠ .lt := by simp [cmpStr_refl]

theorem cmpStr_ne_of_lt {a b : Str} (h : cmpStr a b = .lt) : a ≠ b := by
  rintro rfl; simp [cmpStr_refl] at h

namespace BMap

variable {α : Type}

/-- Keys strictly ascending. -/
def Sorted (m : BMap α) : Prop := m.Pairwise fun p q => cmpStr p.1 q.1 = .lt

@[simp] theorem get?_nil (x : Str) : get? ([] : BMap α) x = none := rfl

theorem get?_insert_self : ∀ (m : BMap α) (x : Str) (v : α), get? (insert m x v) x = some v
  | [], x, v => by simp [insert, get?]
  | (k, w) :: m, x, v => by
    have ih := get?_insert_self m x v
    simp only [insert]
    cases h : cmpStr x k with
    | lt => simp [get?]
    | eq => simp [get?]
    | gt =>
      have : k ≠ x := by
        rintro rfl; simp [cmpStr_refl] at h
      simp [get?, this, ih]

theorem get?_insert_ne : ∀ (m : BMap α) {x y : Str} (v : α), x ≠ y →
    get? (insert m x v) y = get? m y
  | [], x, y, v, hxy => by simp [insert, get?, hxy]
  | (k, w) :: m, x, y, v, hxy => by
    have ih := get?_insert_ne m v hxy
    simp only [insert]
    cases h : cmpStr x k with
    | lt => simp [get?, hxy]
    | eq =>
      have := (cmpStr_eq_iff x k).mp h
      subst this
      simp [get?, hxy]
    | gt => simp only [get?, ih]

theorem get?_insert (m : BMap α) (x y : Str) (v : α) :
    get? (insert m x v) y = if x = y then some v else get? m y := by
  by_cases h : x = y
  · subst h; simp [get?_insert_self]
  · simp [h, get?_insert_ne m v h]

theorem get?_remove : ∀ (m : BMap α) (x y : Str),
    get? (remove m x) y = if x = y then none else get? m y
  | [], x, y => by simp [remove]
  | (k, w) :: m, x, y => by
    have ih := get?_remove m x y
    simp only [remove] at ih ⊢
    by_cases hk : k = x
    · subst hk
      simp only [List.filter, get?]
      simp only [ne_eq, not_true_eq_false, decide_false, ih]
      by_cases hy : k = y <;> simp [hy]
    · have : decide (k ≠ x) = true := by simp [hk]
      simp only [List.filter, this, get?, ih]
      by_cases hy : k = y
      · subst hy
        simp [Ne.symm hk]
      · simp [hy]

theorem mem_of_get? : ∀ {m : BMap α} {x : Str} {v : α}, get? m x = some v → (x, v) ∈ m
  | (k, w) :: m, x, v, h => by
    simp only [get?] at h
    split at h
    · next hk => cases h; subst hk; simp
    · exact List.mem_cons_of_mem _ (mem_of_get? h)

theorem get?_eq_none_iff : ∀ {m : BMap α} {x : Str}, get? m x = none ↔ ∀ p ∈ m, p.1 ≠ x
  | [], x => by simp
  | (k, w) :: m, x => by
    simp only [get?]
    by_cases h : k = x
    · simp [h]
    · simp [h, get?_eq_none_iff (m := m)]

theorem get?_of_mem : ∀ {m : BMap α} {x : Str} {v : α}, Sorted m → (x, v) ∈ m → get? m x = some v
  | (k, w) :: m, x, v, hs, h => by
    simp only [Sorted, List.pairwise_cons] at hs
    simp only [get?]
    rcases List.mem_cons.mp h with h | h
    · cases h; simp
    · have := cmpStr_ne_of_lt (hs.1 _ h)
      simp only [this, if_false]
      exact get?_of_mem hs.2 h

theorem contains_iff {m : BMap α} {x : Str} : contains m x = true ↔ ∃ v, get? m x = some v := by
  simp [contains, Option.isSome_iff_exists]

theorem mem_keys_insert {m : BMap α} {x : Str} {v : α} {p : Str × α}
    (h : p ∈ insert m x v) : p = (x, v) ∨ p ∈ m := by
  induction m with
  | nil => simp [insert] at h; exact Or.inl h
  | cons q m ih =>
    obtain ⟨k, w⟩ := q
    simp only [insert] at h
    cases hc : cmpStr x k with
    | lt => simp only [hc] at h; rcases List.mem_cons.mp h with h | h
            · exact Or.inl h
            · exact Or.inr h
    | eq => simp only [hc] at h; rcases List.mem_cons.mp h with h | h
            · exact Or.inl h
            · exact Or.inr (List.mem_cons_of_mem _ h)
    | gt => simp only [hc] at h; rcases List.mem_cons.mp h with h | h
            · exact Or.inr (by simp [h])
            · rcases ih h with h | h
              · exact Or.inl h
              · exact Or.inr (List.mem_cons_of_mem _ h)

theorem Sorted.insert {m : BMap α} (hs : Sorted m) (x : Str) (v : α) :
    Sorted (insert m x v) := by
  induction m with
  | nil => simp [BMap.insert, Sorted]
  | cons q m ih =>
    obtain ⟨k, w⟩ := q
    simp only [Sorted, List.pairwise_cons] at hs
    simp only [BMap.insert]
    cases hc : cmpStr x k with
    | lt =>
      simp only [Sorted, List.pairwise_cons]
      refine ⟨?_, hs⟩
      intro p hp
      rcases List.mem_cons.mp hp with h | h
      · subst h; exact hc
      · exact cmpStr_lt_trans _ _ _ hc (hs.1 p h)
    | eq =>
      have := (cmpStr_eq_iff x k).mp hc
      subst this
      simp only [Sorted, List.pairwise_cons]
      exact ⟨hs.1, hs.2⟩
    | gt =>
      have hlt := (cmpStr_gt_iff x k).mp hc
      simp only [Sorted, List.pairwise_cons]
      refine ⟨?_, ih hs.2⟩
      intro p hp
      rcases mem_keys_insert hp with h | h
      · subst h; exact hlt
      · exact hs.1 p h

theorem Sorted.remove {m : BMap α} (hs : Sorted m) (x : Str) : Sorted (remove m x) :=
  List.Pairwise.filter _ hs

theorem Sorted.extend : ∀ (l : List (Str × α)) {m : BMap α}, Sorted m → Sorted (extend m l)
  | [], _, hs => hs
  | (k, v) :: l, _, hs => Sorted.extend l (hs.insert k v)

theorem sorted_nil : Sorted ([] : BMap α) := List.Pairwise.nil

theorem Sorted.ofList (l : List (Str × α)) : Sorted (ofList l) := Sorted.extend l sorted_nil

/-- Two sorted maps with the same lookups are equal. -/
theorem Sorted.ext : ∀ {m n : BMap α}, Sorted m → Sorted n → (∀ x, get? m x = get? n x) → m = n
  | [], [], _, _, _ => rfl
  | [], (k, w) :: n, _, _, h => by have := h k; simp [get?] at this
  | (k, w) :: m, [], _, _, h => by have := h k; simp [get?] at this
  | (k, w) :: m, (k', w') :: n, hm, hn, h => by
    simp only [Sorted, List.pairwise_cons] at hm hn
    have hkk : k = k' := by
      by_contra hne
      have h1 := h k
      have h2 := h k'
      simp only [get?, if_true, if_neg hne, if_neg (Ne.symm hne)] at h1 h2
      have m1 := mem_of_get? h1.symm
      have m2 := mem_of_get? h2
      have a := hn.1 _ m1
      have b := hm.1 _ m2
      exact cmpStr_lt_irrefl _ (cmpStr_lt_trans _ _ _ a b)
    subst hkk
    have hw := h k
    simp only [get?, if_true, Option.some.injEq] at hw
    subst hw
    congr 1
    apply Sorted.ext hm.2 hn.2
    intro x
    by_cases hx : k = x
    · subst hx
      have e1 : get? m k = none := get?_eq_none_iff.mpr fun p hp => (cmpStr_ne_of_lt (hm.1 p hp)).symm
      have e2 : get? n k = none := get?_eq_none_iff.mpr fun p hp => (cmpStr_ne_of_lt (hn.1 p hp)).symm
      rw [e1, e2]
    · have := h x
      simpa [get?, hx] using this

theorem get?_extend : ∀ (l : List (Str × α)) (m : BMap α) (x : Str),
    get? (extend m l) x = (get? l.reverse x).or (get? m x)
  | [], m, x => by simp [extend]
  | (k, v) :: l, m, x => by
    simp only [extend, get?_extend l, List.reverse_cons, get?_insert]
    rw [get?_append]
    by_cases h : k = x <;> simp [get?, h]
where
  get?_append : ∀ (a b : BMap α) (x : Str), get? (a ++ b) x = (get? a x).or (get? b x)
    | [], b, x => by simp
    | (k, v) :: a, b, x => by
      simp only [List.cons_append, get?, get?_append a b x]
      by_cases h : k = x <;> simp [h]

end BMap

end Dune
