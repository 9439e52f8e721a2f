import Verif.Model.Builtins
import Verif.Proof.BMap
import Verif.Spec.Arith
import Verif.Proof.Truth

/-! Order and equality of values. -/

namespace Dune.Expr

open Dune

theorem cmpBytes_swap : ∀ a b : List UInt8, (cmpBytes a b).swap = cmpBytes b a
  | [], [] => rfl
  | [], _ :: _ => rfl
  | _ :: _, [] => rfl
  | a :: as, b :: bs => by
    simp only [cmpBytes]
    by_cases h : a.toNat < b.toNat
    · simp [h, Nat.not_lt_of_gt h]
    · by_cases h' : b.toNat < a.toNat
      · simp [h, h']
      · simp [h, h', cmpBytes_swap as bs]

theorem cmpBytes_eq_iff : ∀ a b : List UInt8, cmpBytes a b = .eq ↔ a = b
  | [], [] => by simp [cmpBytes]
  | [], _ :: _ => by simp [cmpBytes]
  | _ :: _, [] => by simp [cmpBytes]
  | a :: as, b :: bs => by
    simp only [cmpBytes]
    by_cases h : a.toNat < b.toNat
    · simp only [h, if_true, reduceCtorEq, false_iff]
      rintro h'
      injection h' with h1 h2
      subst h1
      omega
    · by_cases h' : b.toNat < a.toNat
      · simp only [h, h', if_true, if_false, reduceCtorEq, false_iff]
        rintro h'
        injection h' with h1 h2
        subst h1
        omega
      · have : a = b := UInt8.toNat_inj.mp (by omega)
        simp [this, cmpBytes_eq_iff as bs]

theorem cmpBytes_lt_trans : ∀ a b c : List UInt8, cmpBytes a b = .lt → cmpBytes b c = .lt →
    cmpBytes a c = .lt
  | [], b, [], h1, h2 => by cases b <;> simp_all [cmpBytes]
  | [], _, _ :: _, _, _ => rfl
  | _ :: _, [], _, h1, _ => by simp [cmpBytes] at h1
  | _ :: _, _ :: _, [], _, h2 => by simp [cmpBytes] at h2
  | a :: as, b :: bs, c :: cs, h1, h2 => by
    simp only [cmpBytes] at *
    split at h1
    · split at h2
      · simp [show a.toNat < c.toNat by omega]
      · split at h2
        · simp at h2
        · simp [show a.toNat < c.toNat by omega]
    · split at h1
      · simp at h1
      · split at h2
        · simp [show a.toNat < c.toNat by omega]
        · split at h2
          · simp at h2
          · simp [show ¬ a.toNat < c.toNat by omega, show ¬ c.toNat < a.toNat by omega,
              cmpBytes_lt_trans as bs cs h1 h2]

theorem compareInt_swap (a b : Int) : (compare a b).swap = compare b a := by
  simp only [compare, compareOfLessAndEq]
  by_cases h : a < b
  · simp [h, show ¬ b < a by omega, show ¬ b = a by omega]
  · by_cases h' : a = b
    · simp [h']
    · simp [h, h', show b < a by omega]

theorem compareInt_eq {a b : Int} : compare a b = .eq ↔ a = b := by
  simp only [compare, compareOfLessAndEq]
  by_cases h : a < b
  · simp [h]; omega
  · by_cases h' : a = b
    · simp [h']
    · simp [h, h']

theorem compareInt_lt {a b : Int} : compare a b = .lt ↔ a < b := by
  simp only [compare, compareOfLessAndEq]
  by_cases h : a < b
  · simp [h]
  · by_cases h' : a = b
    · simp [h']
    · simp [h, h']

theorem fcmp_swap (a b : F64) : (F64.partialCmp a b).map Ordering.swap = F64.partialCmp b a := by
  unfold F64.partialCmp
  cases a.isNaN <;> cases b.isNaN <;> simp [compareInt_swap]

mutual

theorem partialCmp_swap : ∀ a b : Expr, (partialCmp a b).map Ordering.swap = partialCmp b a
  | .int a, b => by cases b <;> simp [partialCmp, compareInt_swap]
  | .float a, b => by cases b <;> simp [partialCmp, fcmp_swap]
  | .str a, b => by cases b <;> simp [partialCmp, cmpStr_swap]
  | .bytes a, b => by cases b <;> simp [partialCmp, cmpBytes_swap]
  | .list a, b => by cases b <;> simp [partialCmp, partialCmpList_swap a]
  | .map a, b => by cases b <;> simp [partialCmp, partialCmpMap_swap a]
  | .group _, b => by cases b <;> simp [partialCmp]
  | .symbol _, b => by cases b <;> simp [partialCmp]
  | .bool _, b => by cases b <;> simp [partialCmp]
  | .none, b => by cases b <;> simp [partialCmp]
  | .assign .., b => by cases b <;> simp [partialCmp]
  | .for_ .., b => by cases b <;> simp [partialCmp]
  | .ite .., b => by cases b <;> simp [partialCmp]
  | .apply .., b => by cases b <;> simp [partialCmp]
  | .lambda .., b => by cases b <;> simp [partialCmp]
  | .macro_ .., b => by cases b <;> simp [partialCmp]
  | .do_ .., b => by cases b <;> simp [partialCmp]
  | .builtin .., b => by cases b <;> simp [partialCmp]
  | .quote .., b => by cases b <;> simp [partialCmp]

theorem partialCmpList_swap : ∀ a b : List Expr,
    (partialCmpList a b).map Ordering.swap = partialCmpList b a
  | [], [] => rfl
  | [], _ :: _ => rfl
  | _ :: _, [] => rfl
  | a :: as, b :: bs => by
    have h := partialCmp_swap a b
    simp only [partialCmpList]
    rw [← h]
    cases h' : partialCmp a b with
    | none => rfl
    | some o => cases o <;> simp [partialCmpList_swap as bs]

theorem partialCmpMap_swap : ∀ a b : List (Str × Expr),
    (partialCmpMap a b).map Ordering.swap = partialCmpMap b a
  | [], [] => rfl
  | [], _ :: _ => rfl
  | _ :: _, [] => rfl
  | (k, a) :: as, (l, b) :: bs => by
    have h := partialCmp_swap a b
    simp only [partialCmpMap]
    rw [← h, ← cmpStr_swap k l]
    cases cmpStr k l with
    | lt => rfl
    | gt => rfl
    | eq =>
      cases h' : partialCmp a b with
      | none => rfl
      | some o => cases o <;> simp [partialCmpMap_swap as bs]

end

mutual

/-- Values that compare equal are interchangeable on the left. -/
theorem partialCmp_eq_left : ∀ a b c : Expr, partialCmp a b = some .eq →
    partialCmp a c = partialCmp b c
  | .int a, b, c, h => by
    cases b <;> simp [partialCmp] at h
    cases c <;> simp [partialCmp, h]
  | .float a, b, c, h => by
    cases b <;> simp [partialCmp] at h
    rename_i f
    cases c <;> simp [partialCmp]
    unfold F64.partialCmp at *
    cases ha : a.isNaN <;> cases hf : f.isNaN <;> simp [ha, hf] at h
    simp [h]
  | .str a, b, c, h => by
    cases b <;> simp [partialCmp, cmpStr_eq_iff] at h
    cases c <;> simp [partialCmp, h]
  | .bytes a, b, c, h => by
    cases b <;> simp [partialCmp, cmpBytes_eq_iff] at h
    cases c <;> simp [partialCmp, h]
  | .list a, b, c, h => by
    cases b <;> simp [partialCmp] at h
    cases c <;> simp [partialCmp, partialCmpList_eq_left a _ _ h]
  | .map a, b, c, h => by
    cases b <;> simp [partialCmp] at h
    cases c <;> simp [partialCmp, partialCmpMap_eq_left a _ _ h]
  | .group _, b, _, h => by cases b <;> simp [partialCmp] at h
  | .symbol _, b, _, h => by cases b <;> simp [partialCmp] at h
  | .bool _, b, _, h => by cases b <;> simp [partialCmp] at h
  | .none, b, _, h => by cases b <;> simp [partialCmp] at h
  | .assign .., b, _, h => by cases b <;> simp [partialCmp] at h
  | .for_ .., b, _, h => by cases b <;> simp [partialCmp] at h
  | .ite .., b, _, h => by cases b <;> simp [partialCmp] at h
  | .apply .., b, _, h => by cases b <;> simp [partialCmp] at h
  | .lambda .., b, _, h => by cases b <;> simp [partialCmp] at h
  | .macro_ .., b, _, h => by cases b <;> simp [partialCmp] at h
  | .do_ .., b, _, h => by cases b <;> simp [partialCmp] at h
  | .builtin .., b, _, h => by cases b <;> simp [partialCmp] at h
  | .quote .., b, _, h => by cases b <;> simp [partialCmp] at h

theorem partialCmpList_eq_left : ∀ a b c : List Expr, partialCmpList a b = some .eq →
    partialCmpList a c = partialCmpList b c
  | [], [], _, _ => rfl
  | [], _ :: _, _, h => by simp [partialCmpList] at h
  | _ :: _, [], _, h => by simp [partialCmpList] at h
  | a :: as, b :: bs, [], _ => rfl
  | a :: as, b :: bs, c :: cs, h => by
    simp only [partialCmpList] at *
    cases h' : partialCmp a b with
    | none => simp [h'] at h
    | some o =>
      cases o <;> simp [h'] at h
      rw [partialCmp_eq_left a b c h', partialCmpList_eq_left as bs cs h]

theorem partialCmpMap_eq_left : ∀ a b c : List (Str × Expr), partialCmpMap a b = some .eq →
    partialCmpMap a c = partialCmpMap b c
  | [], [], _, _ => rfl
  | [], _ :: _, _, h => by simp [partialCmpMap] at h
  | _ :: _, [], _, h => by simp [partialCmpMap] at h
  | (k, a) :: as, (l, b) :: bs, [], _ => rfl
  | (k, a) :: as, (l, b) :: bs, (m, c) :: cs, h => by
    simp only [partialCmpMap] at *
    cases hk : cmpStr k l with
    | lt => simp [hk] at h
    | gt => simp [hk] at h
    | eq =>
      rw [hk] at h
      cases h' : partialCmp a b with
      | none => simp [h'] at h
      | some o =>
        cases o <;> simp [h'] at h
        rw [(cmpStr_eq_iff _ _).mp hk, partialCmp_eq_left a b c h',
          partialCmpMap_eq_left as bs cs h]

end

theorem swap_some {o : Ordering} {a b : Expr} (h : partialCmp a b = some o) :
    partialCmp b a = some o.swap := by
  rw [← partialCmp_swap, h]; rfl

/-- Values that compare equal are interchangeable on the right. -/
theorem partialCmp_eq_right {a b c : Expr} (h : partialCmp b c = some .eq) :
    partialCmp a c = partialCmp a b := by
  rw [← partialCmp_swap c a, ← partialCmp_swap b a, partialCmp_eq_left b c a h]

mutual

theorem partialCmp_lt_trans : ∀ a b c : Expr, partialCmp a b = some .lt →
    partialCmp b c = some .lt → partialCmp a c = some .lt
  | .int a, b, c, h1, h2 => by
    cases b <;> simp [partialCmp, compareInt_lt] at h1
    cases c <;> simp [partialCmp, compareInt_lt] at h2 ⊢
    omega
  | .float a, b, c, h1, h2 => by
    cases b <;> simp [partialCmp] at h1
    rename_i f
    cases c <;> simp [partialCmp] at h2 ⊢
    rename_i g
    unfold F64.partialCmp at *
    cases ha : a.isNaN <;> cases hf : f.isNaN <;> cases hg : g.isNaN <;>
      simp [ha, hf, hg] at h1 h2 ⊢
    rw [compareInt_lt] at *
    omega
  | .str a, b, c, h1, h2 => by
    cases b <;> simp [partialCmp] at h1
    cases c <;> simp [partialCmp] at h2 ⊢
    exact cmpStr_lt_trans _ _ _ h1 h2
  | .bytes a, b, c, h1, h2 => by
    cases b <;> simp [partialCmp] at h1
    cases c <;> simp [partialCmp] at h2 ⊢
    exact cmpBytes_lt_trans _ _ _ h1 h2
  | .list a, b, c, h1, h2 => by
    cases b <;> simp [partialCmp] at h1
    cases c <;> simp [partialCmp] at h2 ⊢
    exact partialCmpList_lt_trans a _ _ h1 h2
  | .map a, b, c, h1, h2 => by
    cases b <;> simp [partialCmp] at h1
    cases c <;> simp [partialCmp] at h2 ⊢
    exact partialCmpMap_lt_trans a _ _ h1 h2
  | .group _, b, _, h, _ => by cases b <;> simp [partialCmp] at h
  | .symbol _, b, _, h, _ => by cases b <;> simp [partialCmp] at h
  | .bool _, b, _, h, _ => by cases b <;> simp [partialCmp] at h
  | .none, b, _, h, _ => by cases b <;> simp [partialCmp] at h
  | .assign .., b, _, h, _ => by cases b <;> simp [partialCmp] at h
  | .for_ .., b, _, h, _ => by cases b <;> simp [partialCmp] at h
  | .ite .., b, _, h, _ => by cases b <;> simp [partialCmp] at h
  | .apply .., b, _, h, _ => by cases b <;> simp [partialCmp] at h
  | .lambda .., b, _, h, _ => by cases b <;> simp [partialCmp] at h
  | .macro_ .., b, _, h, _ => by cases b <;> simp [partialCmp] at h
  | .do_ .., b, _, h, _ => by cases b <;> simp [partialCmp] at h
  | .builtin .., b, _, h, _ => by cases b <;> simp [partialCmp] at h
  | .quote .., b, _, h, _ => by cases b <;> simp [partialCmp] at h

theorem partialCmpList_lt_trans : ∀ a b c : List Expr, partialCmpList a b = some .lt →
    partialCmpList b c = some .lt → partialCmpList a c = some .lt
  | [], [], _, h, _ => by simp [partialCmpList] at h
  | [], _ :: _, [], _, h => by simp [partialCmpList] at h
  | [], _ :: _, _ :: _, _, _ => rfl
  | _ :: _, [], _, h, _ => by simp [partialCmpList] at h
  | _ :: _, _ :: _, [], _, h => by simp [partialCmpList] at h
  | a :: as, b :: bs, c :: cs, h1, h2 => by
    simp only [partialCmpList] at *
    cases h : partialCmp a b with
    | none => simp [h] at h1
    | some o =>
      cases h' : partialCmp b c with
      | none => simp [h'] at h2
      | some o' =>
        cases o <;> cases o' <;> simp [h, h'] at h1 h2
        · simp [partialCmp_lt_trans a b c h h']
        · simp [partialCmp_eq_right (a := a) h', h]
        · simp [partialCmp_eq_left a b c h, h']
        · simp [partialCmp_eq_left a b c h, h', partialCmpList_lt_trans as bs cs h1 h2]

theorem partialCmpMap_lt_trans : ∀ a b c : List (Str × Expr), partialCmpMap a b = some .lt →
    partialCmpMap b c = some .lt → partialCmpMap a c = some .lt
  | [], [], _, h, _ => by simp [partialCmpMap] at h
  | [], _ :: _, [], _, h => by simp [partialCmpMap] at h
  | [], _ :: _, _ :: _, _, _ => rfl
  | _ :: _, [], _, h, _ => by simp [partialCmpMap] at h
  | _ :: _, _ :: _, [], _, h => by simp [partialCmpMap] at h
  | (k, a) :: as, (l, b) :: bs, (m, c) :: cs, h1, h2 => by
    simp only [partialCmpMap] at *
    cases hk : cmpStr k l with
    | gt => simp [hk] at h1
    | lt =>
      cases hl : cmpStr l m with
      | gt => simp [hl] at h2
      | lt => simp [cmpStr_lt_trans _ _ _ hk hl]
      | eq => simp [← (cmpStr_eq_iff _ _).mp hl, hk]
    | eq =>
      have hkl := (cmpStr_eq_iff _ _).mp hk
      subst hkl
      cases hl : cmpStr k m with
      | gt => simp [hl] at h2
      | lt => rfl
      | eq =>
        simp only [hk, hl] at h1 h2
        cases h : partialCmp a b with
        | none => simp [h] at h1
        | some o =>
          cases h' : partialCmp b c with
          | none => simp [h'] at h2
          | some o' =>
            cases o <;> cases o' <;> simp [h, h'] at h1 h2
            · simp [partialCmp_lt_trans a b c h h']
            · simp [partialCmp_eq_right (a := a) h', h]
            · simp [partialCmp_eq_left a b c h, h']
            · simp [partialCmp_eq_left a b c h, h', partialCmpMap_lt_trans as bs cs h1 h2]

end

/-! ### Equality -/

theorem feq_comm (a b : F64) : F64.eq a b = F64.eq b a := by
  unfold F64.eq
  cases a.isNaN <;> cases b.isNaN <;> simp [Bool.beq_comm]

mutual

theorem beq_comm : ∀ a b : Expr, beq a b = beq b a
  | .int a, b => by cases b <;> simp [beq, eq_comm]
  | .float a, b => by cases b <;> simp [beq, feq_comm]
  | .str a, b => by cases b <;> simp [beq, eq_comm]
  | .bytes a, b => by cases b <;> simp [beq, eq_comm]
  | .bool a, b => by cases b <;> simp [beq, eq_comm]
  | .symbol a, b => by cases b <;> simp [beq, eq_comm]
  | .none, b => by cases b <;> simp [beq]
  | .builtin .., b => by cases b <;> simp [beq, eq_comm]
  | .list a, b => by cases b <;> simp [beq, beqList_comm a]
  | .do_ a, b => by cases b <;> simp [beq, beqList_comm a]
  | .map a, b => by cases b <;> simp [beq, beqMap_comm a]
  | .group a, b => by cases b <;> simp [beq, beq_comm a]
  | .quote a, b => by cases b <;> simp [beq, beq_comm a]
  | .assign _ a, b => by cases b <;> simp [beq, beq_comm a, eq_comm]
  | .macro_ _ a, b => by cases b <;> simp [beq, beq_comm a, eq_comm]
  | .for_ _ a a', b => by cases b <;> simp [beq, beq_comm a, beq_comm a', eq_comm]
  | .ite a a' a'', b => by cases b <;> simp [beq, beq_comm a, beq_comm a', beq_comm a'']
  | .apply a l, b => by cases b <;> simp [beq, beq_comm a, beqList_comm l]
  | .lambda _ a m ps, b => by
    cases b <;> simp [beq, beq_comm a, beqMap_comm m, beqMaps_comm ps, eq_comm]

theorem beqList_comm : ∀ a b : List Expr, beqList a b = beqList b a
  | [], b => by cases b <;> simp [beqList]
  | a :: as, b => by cases b <;> simp [beqList, beq_comm a, beqList_comm as]

theorem beqMap_comm : ∀ a b : List (Str × Expr), beqMap a b = beqMap b a
  | [], b => by cases b <;> simp [beqMap]
  | (k, a) :: as, b => by
    rcases b with _ | ⟨⟨l, b⟩, bs⟩
    · simp [beqMap]
    · simp [beqMap, beq_comm a, beqMap_comm as, eq_comm (a := k)]

theorem beqMaps_comm : ∀ a b : List (List (Str × Expr)), beqMaps a b = beqMaps b a
  | [], b => by cases b <;> simp [beqMaps]
  | a :: as, b => by cases b <;> simp [beqMaps, beqMap_comm a, beqMaps_comm as]

end

theorem beqList_refl : ∀ {l : List Expr}, (∀ e ∈ l, beq e e = true) → beqList l l = true
  | [], _ => by simp [beqList]
  | e :: l, h => by
    simp [beqList, h e (by simp), beqList_refl (l := l) fun x hx => h x (by simp [hx])]

theorem beqMap_refl : ∀ {l : List (Str × Expr)}, (∀ p ∈ l, beq p.2 p.2 = true) →
    beqMap l l = true
  | [], _ => by simp [beqMap]
  | (k, e) :: l, h => by
    simp [beqMap, h (k, e) (by simp), beqMap_refl (l := l) fun x hx => h x (by simp [hx])]

theorem beqMaps_refl : ∀ {l : List (List (Str × Expr))},
    (∀ m ∈ l, ∀ p ∈ m, beq p.2 p.2 = true) → beqMaps l l = true
  | [], _ => by simp [beqMaps]
  | m :: l, h => by
    simp [beqMaps, beqMap_refl (h m (by simp)),
      beqMaps_refl (l := l) fun x hx => h x (by simp [hx])]

theorem beq_refl {a : Expr} (h : Spec.NaNFree a) : beq a a = true := by
  unfold Spec.NaNFree at h
  induction h with
  | float h => rw [← isNaN_iff, Bool.not_eq_true] at h; simp [beq, F64.eq, h]
  | list _ ih => simp [beq, beqList_refl ih]
  | do_ _ ih => simp [beq, beqList_refl ih]
  | map _ ih => simp [beq, beqMap_refl ih]
  | apply _ _ ih ihl => simp [beq, ih, beqList_refl ihl]
  | lambda _ _ _ ih ihm ihp => simp [beq, ih, beqMap_refl ihm, beqMaps_refl ihp]
  | group _ ih => simp [beq, ih]
  | quote _ ih => simp [beq, ih]
  | assign _ ih => simp [beq, ih]
  | macro_ _ ih => simp [beq, ih]
  | for_ _ _ ih ih' => simp [beq, ih, ih']
  | ite _ _ _ ih ih' ih'' => simp [beq, ih, ih', ih'']
  | _ => simp [beq]

theorem eq_of_beqList : ∀ {l m : List Expr}, (∀ e ∈ l, ∀ b, beq e b = true → e = b) →
    beqList l m = true → l = m
  | [], [], _, _ => rfl
  | [], _ :: _, _, h => by simp [beqList] at h
  | _ :: _, [], _, h => by simp [beqList] at h
  | e :: l, b :: m, ih, h => by
    simp [beqList] at h
    rw [ih e (by simp) b h.1, eq_of_beqList (fun x hx => ih x (by simp [hx])) h.2]

theorem eq_of_beqMap : ∀ {l m : List (Str × Expr)}, (∀ p ∈ l, ∀ b, beq p.2 b = true → p.2 = b) →
    beqMap l m = true → l = m
  | [], [], _, _ => rfl
  | [], _ :: _, _, h => by simp [beqMap] at h
  | _ :: _, [], _, h => by simp [beqMap] at h
  | (k, e) :: l, (k', b) :: m, ih, h => by
    simp [beqMap] at h
    have := ih (k, e) (by simp) b h.1.2
    rw [show e = b from this, h.1.1, eq_of_beqMap (fun x hx => ih x (by simp [hx])) h.2]

theorem eq_of_beqMaps : ∀ {l m : List (List (Str × Expr))},
    (∀ q ∈ l, ∀ p ∈ q, ∀ b, beq p.2 b = true → p.2 = b) → beqMaps l m = true → l = m
  | [], [], _, _ => rfl
  | [], _ :: _, _, h => by simp [beqMaps] at h
  | _ :: _, [], _, h => by simp [beqMaps] at h
  | e :: l, b :: m, ih, h => by
    simp [beqMaps] at h
    rw [eq_of_beqMap (ih e (by simp)) h.1, eq_of_beqMaps (fun x hx => ih x (by simp [hx])) h.2]

theorem eq_of_beq {a : Expr} (ha : Spec.Exact a) : ∀ b, beq a b = true → a = b := by
  unfold Spec.Exact at ha
  induction ha with
  | float h => exact h.elim
  | builtin h => exact h.elim
  | list _ ih => intro b h; cases b <;> simp [beq] at h; rw [eq_of_beqList ih h]
  | do_ _ ih => intro b h; cases b <;> simp [beq] at h; rw [eq_of_beqList ih h]
  | map _ ih => intro b h; cases b <;> simp [beq] at h; rw [eq_of_beqMap ih h]
  | apply _ _ ih ihl =>
    intro b h; cases b <;> simp [beq] at h; rw [ih _ h.1, eq_of_beqList ihl h.2]
  | lambda _ _ _ ih ihm ihp =>
    intro b h; cases b <;> simp [beq] at h
    rw [h.1.1.1, ih _ h.1.1.2, eq_of_beqMap ihm h.1.2, eq_of_beqMaps ihp h.2]
  | group _ ih => intro b h; cases b <;> simp [beq] at h; rw [ih _ h]
  | quote _ ih => intro b h; cases b <;> simp [beq] at h; rw [ih _ h]
  | assign _ ih => intro b h; cases b <;> simp [beq] at h; rw [h.1, ih _ h.2]
  | macro_ _ ih => intro b h; cases b <;> simp [beq] at h; rw [h.1, ih _ h.2]
  | for_ _ _ ih ih' =>
    intro b h; cases b <;> simp [beq] at h; rw [h.1.1, ih _ h.1.2, ih' _ h.2]
  | ite _ _ _ ih ih' ih'' =>
    intro b h; cases b <;> simp [beq] at h; rw [ih _ h.1.1, ih' _ h.1.2, ih'' _ h.2]
  | none => intro b h; cases b <;> simp [beq] at h; rfl
  | _ => intro b h; cases b <;> simp [beq] at h; rw [h]

theorem Exact.naNFree {a : Expr} (h : Spec.Exact a) : Spec.NaNFree a := by
  unfold Spec.Exact at h
  unfold Spec.NaNFree
  induction h with
  | float h => exact h.elim
  | builtin h => exact h.elim
  | none => exact .none
  | symbol => exact .symbol _
  | int => exact .int _
  | bytes => exact .bytes _
  | str => exact .str _
  | bool => exact .bool _
  | group _ ih => exact .group ih
  | quote _ ih => exact .quote ih
  | list _ ih => exact .list ih
  | do_ _ ih => exact .do_ ih
  | map _ ih => exact .map ih
  | assign _ ih => exact .assign ih
  | for_ _ _ a b => exact .for_ a b
  | ite _ _ _ a b c => exact .ite a b c
  | apply _ _ a b => exact .apply a b
  | lambda _ _ _ a b c => exact .lambda a b c
  | macro_ _ a => exact .macro_ a

end Dune.Expr
