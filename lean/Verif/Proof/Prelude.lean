import Verif.Proof.PreludeText
import Verif.Proof.Steps
import Verif.Spec.Calendar

/-! The calendar functions of the default prelude, evaluated. -/

namespace Dune.Prelude

open Spec Spec.Calendar Props Props.Calc

section

variable {W : Type} {H : Host W} {P : Plat} {L : Lib}

/-- the operators the functions use -/
def ops : List (Str × Expr) :=
  [(c!"+", .builtin c!"+" .add []), (c!"-", .builtin c!"-" .sub []),
   (c!"*", Builtins.curry2 (.builtin c!"*" .mul [])),
   (c!"//", Builtins.curry2 (.builtin c!"//" .div [])),
   (c!"%", Builtins.curry2 (.builtin c!"%" .rem [])),
   (c!"==", .builtin c!"==" .eq []), (c!"!=", .builtin c!"!=" .ne []),
   (c!"<", .builtin c!"<" .lt []), (c!"&&", .builtin c!"&&" .and []),
   (c!"@", .builtin c!"@" .index []), (c!"int", .builtin c!"int" .int []),
   (c!"str", .builtin c!"str" .str []), (c!"len", .builtin c!"len" .len []),
   (c!"to", .builtin c!"to" .to [])]

/-- those of them that an expression mentions -/
def opsOf (e : Expr) : List (Str × Expr) := ops.filter fun p => e.usedSymbols.contains p.1

theorem mem_of_lookup {l : List (Str × Expr)} {s : Str} {v : Expr} (h : l.lookup s = some v) : (s, v) ∈ l := by
  induction l with
  | nil => cases h
  | cons p l ih =>
    obtain ⟨t, u⟩ := p
    rw [List.lookup_cons] at h
    split at h
    · rename_i e
      cases h
      rw [eq_of_beq e]
      exact List.mem_cons_self
    · exact List.mem_cons_of_mem _ (ih h)

/-- an operator that is seen -/
theorem seen {K : List (Str × Expr)} {e : Expr} {env : Env} (hs : Sees env (K ++ opsOf e)) {s : Str} {v : Expr}
    (h : ops.lookup s = some v) (hm : e.usedSymbols.contains s = true) : env.get s = some v :=
  hs (s, v) (List.mem_append_right _ (List.mem_filter.2 ⟨mem_of_lookup h, hm⟩))

/-! ### is-leapyear -/

theorem leap_body {env : Env} {i : I64} (hs : Sees env ([(c!"year", .int i)] ++ opsOf leapBody)) :
    Run H P L 20 env leapBody (.bool (decide (Leap i.val))) env := by
  have hy : YieldsInt H P L 1 env (.symbol c!"year") i.val := yieldsInt_symbol (hs (c!"year", .int i) (by simp))
  have hr := seen hs (s := c!"%") rfl rfl
  have he := seen hs (s := c!"==") rfl rfl
  have hne := seen hs (s := c!"!=") rfl rfl
  have ha := seen hs (s := c!"&&") rfl rfl
  have r4 := YieldsInt.rem hr hy (yieldsInt_num 4) (by decide)
  have r100 := YieldsInt.rem hr hy (yieldsInt_num 100) (by decide)
  have r400 := YieldsInt.rem hr hy (yieldsInt_num 400) (by decide)
  have c1 := yields_andP ha (yields_eq he r4 (yieldsInt_num 0) (by decide))
    (yields_ne hne r100 (yieldsInt_num 0) (by decide)) (by decide)
  have c2 := yields_andP ha (yields_eq he r100 (yieldsInt_num 0) (by decide))
    (yields_eq he r400 (yieldsInt_num 0) (by decide)) (by decide)
  have key : ∀ z : Nat, i.val.tmod z = (0 : Nat) ↔ (z : Int) ∣ i.val := fun z => (Int.dvd_iff_tmod_eq_zero).symm
  have yes := (RunDo.block (Run.last (yields_bool (H := H) (P := P) (L := L) (env := env) true)))
  have no := Run.group (RunDo.block (Run.last (yields_bool (H := H) (P := P) (L := L) (env := env) false)))
  refine (RunDo.block (Run.last (Run.iteB (d1 := 17) c1 (fun h => ?_) (fun h => ?_)))).mono (by decide)
  · simp only [ne_eq, key] at h
    have : Leap i.val := ⟨h.1, .inl h.2⟩
    simp only [this, decide_true]
    exact yes.mono (by decide)
  · refine (Run.group (Run.iteB (d1 := 3) c2 (fun h' => ?_) (fun h' => ?_))).mono (by decide)
    · simp only [ne_eq, key] at h h'
      have : Leap i.val := ⟨by omega, .inr h'.2⟩
      simp only [this, decide_true]
      exact yes.mono (by decide)
    · simp only [ne_eq, key] at h h'
      have : ¬ Leap i.val := by unfold Leap; omega
      simp only [this, decide_false]
      exact no.mono (by decide)

/-- what `is-leapyear` does -/
def LeapFn : List Expr → Expr → Prop := fun as r => ∃ i : I64, as = [.int i] ∧ r = .bool (decide (Leap i.val))

/-! ### days-in-month -/

theorem dim_body {env : Env} {v : Expr} {m y : I64} (hv : IsFun H P L 20 1 LeapFn v)
    (hs : Sees env ([(c!"year", .int y), (c!"month", .int m), (c!"is-leapyear", v)] ++ opsOf dimBody))
    (h1 : 1 ≤ m.val) (h2 : m.val ≤ 12) :
    ∃ r : I64, r.val = monthDays y.val m.val.toNat ∧ Run H P L 40 env dimBody (.int r) env := by
  have hm : YieldsInt H P L 1 env (.symbol c!"month") m.val :=
    yieldsInt_symbol (hs (c!"month", .int m) (by simp))
  have hy : Yields H P L 1 env (.symbol c!"year") (.int y) :=
    yields_symbol (hs (c!"year", .int y) (by simp))
  have hl : Yields H P L 1 env (.symbol c!"is-leapyear") v :=
    yields_symbol (hs (c!"is-leapyear", v) (by simp))
  have hr := seen hs (s := c!"%") rfl rfl
  have he := seen hs (s := c!"==") rfl rfl
  have ha := seen hs (s := c!"+") rfl rfl
  have hsu := seen hs (s := c!"-") rfl rfl
  have c := yields_eq he hm (yieldsInt_num 2) (by decide)
  by_cases h : m.val = 2
  · have hcall := (yields_call [.symbol c!"year"] [.int y] (.cons hy .nil) _ _ _ LeapFn hl hv ⟨y, rfl, rfl⟩).group
    have hi : YieldsInt H P L (max (max 1 20 + 1 + 1) 2 + 1) env (.ite (.group (.apply (.symbol c!"is-leapyear") [.symbol c!"year"]))
        (.int (.lit 1)) (.group (.int (.lit 0)))) (if Leap y.val then 1 else 0) := by
      by_cases hp : Leap y.val
      · refine ⟨.lit 1, by simp [hp, I64.lit], Run.iteB hcall (fun _ => (yields_int _).mono (by decide))
          (fun h => absurd hp h)⟩
      · refine ⟨.lit 0, by simp [hp, I64.lit], Run.iteB hcall (fun h => absurd h hp)
          (fun _ => Run.group (yields_int _))⟩
    obtain ⟨r, hr, hrun⟩ := YieldsInt.add ha (yieldsInt_num 28) hi.group (by decide)
      (by split <;> decide)
    refine ⟨r, ?_, (RunDo.block (Run.last (Run.iteB (d1 := 30) c (fun _ => ?_) (fun h' => absurd h h')))).mono (by decide)⟩
    · rw [hr, h]
      simp only [monthDays]
      split <;> rfl
    · exact (RunDo.block (Run.last hrun)).mono (by decide)
  · obtain ⟨r, hr, hrun⟩ := YieldsInt.sub hsu (yieldsInt_num 31)
      (YieldsInt.rem hr (YieldsInt.rem hr (YieldsInt.sub hsu hm (yieldsInt_num 1) (by decide)
        (by omega)).group (yieldsInt_num 7) (by decide)).group (yieldsInt_num 2) (by decide)).group (by decide)
      (by
        have : 0 ≤ (m.val - (1 : Nat)).tmod (7 : Nat) := Int.tmod_nonneg _ (by omega)
        have := Int.tmod_nonneg (2 : Nat) this
        have := Int.tmod_lt_of_pos ((m.val - (1 : Nat)).tmod (7 : Nat)) (show (0 : Int) < (2 : Nat) by decide)
        omega)
    refine ⟨r, ?_, (RunDo.block (Run.last (Run.iteB (d1 := 34) c (fun h' => absurd h' h) (fun h' => ?_)))).mono (by decide)⟩
    · rw [hr]
      have : ∀ z : Nat, z < 13 → 1 ≤ z → z ≠ 2 → ((31 : Nat) : Int) - (((z : Int) - (1 : Nat)).tmod (7 : Nat)).tmod (2 : Nat) =
          if z = 4 ∨ z = 6 ∨ z = 9 ∨ z = 11 then 30 else 31 := by decide
      have := this m.val.toNat (by omega) (by omega) (by omega)
      rw [Int.toNat_of_nonneg (by omega)] at this
      rw [this, monthDays, if_neg (show ¬ m.val.toNat = 2 by omega)]
      split <;> rfl
    · exact (Run.group (RunDo.block (Run.last hrun))).mono (by decide)

/-- what `days-in-month` does -/
def DaysFn : List Expr → Expr → Prop := fun as r => ∃ m y : I64, as = [.int m, .int y] ∧ 1 ≤ m.val ∧ m.val ≤ 12 ∧
  ∃ i : I64, i.val = monthDays y.val m.val.toNat ∧ r = .int i

/-! ### day-of-week -/

/-- the numbers in `day-of-week` -/
def offsets : List Nat := [0, 3, 2, 5, 0, 3, 5, 1, 4, 6, 2, 4]

/-- the formula of `day-of-week` -/
def formula (y m d : Nat) : Nat :=
  let y := if m < 3 then y - 1 else y
  (y + y / 4 - y / 100 + y / 400 + offsets.getD (m - 1) 0 + d) % 7

/-- division by the float is division of integers, for this number -/
structure Quotients (P : Plat) (a b c : F64) (y : I64) : Prop where
  four : (P.fToInt (P.fDiv (P.fOfInt y) a)).val = y.val / 4
  hundred : (P.fToInt (P.fDiv (P.fOfInt y) b)).val = y.val / 100
  fourHundred : (P.fToInt (P.fDiv (P.fOfInt y) c)).val = y.val / 400

def table : List Expr := [.int (.lit 0), .int (.lit 3), .int (.lit 2), .int (.lit 5), .int (.lit 0), .int (.lit 3),
  .int (.lit 5), .int (.lit 1), .int (.lit 4), .int (.lit 6), .int (.lit 2), .int (.lit 4)]

theorem table_get (m : Nat) (h1 : 1 ≤ m) (h2 : m ≤ 12) :
    ∃ i : I64, i.val = offsets.getD (m - 1) 0 ∧ table[m - 1]? = some (.int i) := by
  have : m = 1 ∨ m = 2 ∨ m = 3 ∨ m = 4 ∨ m = 5 ∨ m = 6 ∨ m = 7 ∨ m = 8 ∨ m = 9 ∨ m = 10 ∨ m = 11 ∨ m = 12 := by
    omega
  rcases this with rfl | rfl | rfl | rfl | rfl | rfl | rfl | rfl | rfl | rfl | rfl | rfl <;>
    exact ⟨_, rfl, rfl⟩

theorem offsets_le (m : Nat) : offsets.getD m 0 ≤ 6 := by
  by_cases h : m < 12
  · have : ∀ m, m < 12 → offsets.getD m 0 ≤ 6 := by decide
    exact this m h
  · rw [List.getD_eq_getElem?_getD, List.getElem?_eq_none (by simpa [offsets] using h)]
    exact Nat.zero_le _

theorem yields_table {env : Env} : Yields H P L 2 env (.list table) (.list table) := by
  intro n k w hn hk
  obtain ⟨k, rfl⟩ : ∃ j, k = j + 2 := ⟨k - 2, by omega⟩
  rfl

/-- the last line of the function -/
theorem dow_last {env : Env} {a b c : F64} {m d y : I64} {q : Nat}
    (hs : Sees env ([(c!"y", .int y), (c!"t", .list table), (c!"d", .int d), (c!"m", .int m)] ++ opsOf (dowBody a b c)))
    (h1 : 1 ≤ m.val) (h2 : m.val ≤ 12) (hy0 : 0 ≤ y.val) (hy : y.val < 4611686018427387904) (hd0 : 0 ≤ d.val)
    (hd : d.val < 1000) (hq : Quotients P a b c y) (hr : (q : Int) = (y.val + y.val / 4 - y.val / 100 + y.val / 400 +
      offsets.getD (m.val.toNat - 1) 0 + d.val) % 7) :
    ∃ r : I64, r.val = q ∧ Yields H P L 60 env (match dowBody a b c with
      | .do_ [_, _, e] => e
      | e => e) (.int r) := by
  have ym : YieldsInt H P L 1 env (.symbol c!"m") m.val := yieldsInt_symbol (hs (c!"m", .int m) (by simp))
  have yd : YieldsInt H P L 1 env (.symbol c!"d") d.val := yieldsInt_symbol (hs (c!"d", .int d) (by simp))
  have yy' : Yields H P L 1 env (.symbol c!"y") (.int y) := yields_symbol (hs (c!"y", .int y) (by simp))
  have yy : YieldsInt H P L 1 env (.symbol c!"y") y.val := ⟨y, rfl, yy'⟩
  have yt : Yields H P L 1 env (.symbol c!"t") (.list table) := yields_symbol (hs (c!"t", .list table) (by simp))
  have hrm := seen hs (s := c!"%") rfl rfl
  have ha := seen hs (s := c!"+") rfl rfl
  have hsu := seen hs (s := c!"-") rfl rfl
  have hdv := seen hs (s := c!"//") rfl rfl
  have hi := seen hs (s := c!"int") rfl rfl
  have hat := seen hs (s := c!"@") rfl rfl
  have q4 := (YieldsInt.ofFloat hi (Run.group (yields_divf hdv yy' (yields_float a))) (by decide)).group
  have q100 := (YieldsInt.ofFloat hi (Run.group (yields_divf hdv yy' (yields_float b))) (by decide)).group
  have q400 := (YieldsInt.ofFloat hi (Run.group (yields_divf hdv yy' (yields_float c))) (by decide)).group
  rw [hq.four] at q4
  rw [hq.hundred] at q100
  rw [hq.fourHundred] at q400
  obtain ⟨i, hi, ht⟩ := table_get m.val.toNat (by omega) (by omega)
  have el : YieldsInt H P L _ env _ i.val := ⟨i, rfl, yields_element hat yt
    (YieldsInt.sub hsu ym (yieldsInt_num 1) (by decide) (by omega)).group (by decide) (by omega)
    (by rw [show (m.val - (1 : Nat)).toNat = m.val.toNat - 1 by omega]; exact ht)⟩
  have hle := offsets_le (m.val.toNat - 1)
  obtain ⟨r, hv, hrun⟩ := YieldsInt.rem hrm (YieldsInt.add ha (YieldsInt.add ha (YieldsInt.add ha
    (YieldsInt.sub hsu (YieldsInt.add ha yy q4 (by decide) (by omega)).group q100 (by decide) (by omega)).group
    q400 (by decide) (by omega)) el (by decide) (by omega)) yd (by decide) (by omega)).group (yieldsInt_num 7) (by decide)
  refine ⟨r, ?_, hrun.mono (by decide)⟩
  rw [hv, hr, Int.tmod_eq_emod_of_nonneg (by omega), hi]
  rfl

theorem ops_ne {e : Expr} {x : Str} (hx : ops.lookup x = none) : ∀ p ∈ opsOf e, p.1 ≠ x := by
  intro p hp he
  have := List.lookup_eq_none_iff.1 hx p (List.mem_filter.1 hp).1
  simp [he] at this

theorem dow_body {env : Env} {a b c : F64} {m d y : I64}
    (hs : Sees env ([(c!"y", .int y), (c!"d", .int d), (c!"m", .int m)] ++ opsOf (dowBody a b c)))
    (h1 : 1 ≤ m.val) (h2 : m.val ≤ 12) (hy0 : 1 ≤ y.val) (hy : y.val < 4611686018427387904) (hd0 : 0 ≤ d.val)
    (hd : d.val < 1000) (hq : ∀ y' : I64, y'.val = (if m.val < 3 then y.val - 1 else y.val) → Quotients P a b c y') :
    ∃ (r : I64) (env' : Env), r.val = formula y.val.toNat m.val.toNat d.val.toNat ∧
      Run H P L 64 env (dowBody a b c) (.int r) env' := by
  have hs1 : Sees (env.define c!"t" (.list table))
      ([(c!"y", .int y), (c!"t", .list table), (c!"d", .int d), (c!"m", .int m)] ++ opsOf (dowBody a b c)) := by
    refine hs.define fun p hp => ?_
    have := fun h => ops_ne (e := dowBody a b c) (x := c!"t") (by decide) p h
    simp only [List.cons_append, List.nil_append, List.mem_cons] at hp ⊢
    rcases hp with rfl | rfl | rfl | rfl | hp
    · simp
    · simp
    · simp
    · simp
    · exact .inr ⟨this hp, by simp [hp]⟩
  have a1 := Run.assign (x := c!"t") (yields_table (H := H) (P := P) (L := L) (env := env))
  have ym : YieldsInt H P L 1 _ (.symbol c!"m") m.val := yieldsInt_symbol (hs1 (c!"m", .int m) (by simp))
  have yy : YieldsInt H P L 1 _ (.symbol c!"y") y.val := yieldsInt_symbol (hs1 (c!"y", .int y) (by simp))
  have cond := yields_lt (seen hs1 (s := c!"<") rfl rfl) ym (yieldsInt_num 3) (by decide)
  by_cases hm : m.val < 3
  · obtain ⟨y', hy', hsub⟩ := YieldsInt.sub (seen hs1 (s := c!"-") rfl rfl) yy (yieldsInt_num 1) (by decide) (by omega)
    have hs2 : Sees ((env.define c!"t" (.list table)).define c!"y" (.int y'))
        ([(c!"y", .int y'), (c!"t", .list table), (c!"d", .int d), (c!"m", .int m)] ++ opsOf (dowBody a b c)) := by
      refine hs1.define fun p hp => ?_
      have := fun h => ops_ne (e := dowBody a b c) (x := c!"y") (by decide) p h
      simp only [List.cons_append, List.nil_append, List.mem_cons] at hp ⊢
      rcases hp with rfl | rfl | rfl | rfl | hp
      · simp
      · simp
      · simp
      · simp
      · exact .inr ⟨this hp, by simp [hp]⟩
    obtain ⟨r, hr, hrun⟩ := dow_last (H := H) (L := L) (q := formula y.val.toNat m.val.toNat d.val.toNat) hs2 h1 h2
      (by omega) (by omega) hd0 hd (hq y' (by rw [if_pos hm]; omega)) (by
        unfold formula
        rw [if_pos (by omega)]
        simp only
        omega)
    refine ⟨r, _, hr, (RunDo.block (a1.then_ (Run.then_ (Run.iteB (d1 := 10) cond (fun _ => (RunDo.block (Run.last
      (Run.assign hsub))).mono (by decide)) (fun h => absurd hm h)) (Run.last hrun)))).mono (by decide)⟩
  · obtain ⟨r, hr, hrun⟩ := dow_last (H := H) (L := L) (q := formula y.val.toNat m.val.toNat d.val.toNat) hs1 h1 h2
      (by omega) (by omega) hd0 hd (hq y (by rw [if_neg hm])) (by
        unfold formula
        rw [if_neg (by omega)]
        simp only
        omega)
    refine ⟨r, _, hr, (RunDo.block (a1.then_ (Run.then_ (Run.iteB (d1 := 10) cond (fun h => absurd h hm)
      (fun _ => yields_none.mono (by decide))) (Run.last hrun)))).mono (by decide)⟩

/-! ### The formula -/

theorem formula_first : formula 1 1 1 = 1 := by decide

theorem quot_step (x c : Nat) : (x + 1) / c = x / c + if (c : Int) ∣ ((x + 1 : Nat) : Int) then 1 else 0 := by
  have : ((c : Int) ∣ ((x + 1 : Nat) : Int)) ↔ c ∣ x + 1 := Int.natCast_dvd_natCast
  simp only [this]
  exact Nat.succ_div

/-- the leap days up to a year -/
theorem leaps (x : Nat) : (x + 1) / 4 + x / 100 + (x + 1) / 400 =
    x / 4 + (x + 1) / 100 + x / 400 + if Leap (x + 1 : Nat) then 1 else 0 := by
  rw [quot_step x 4, quot_step x 100, quot_step x 400]
  generalize x / 4 = A
  generalize x / 100 = B
  generalize x / 400 = C
  have e1 : (400 : Int) ∣ ((x + 1 : Nat) : Int) → (100 : Int) ∣ ((x + 1 : Nat) : Int) := fun h => by omega
  have e2 : (100 : Int) ∣ ((x + 1 : Nat) : Int) → (4 : Int) ∣ ((x + 1 : Nat) : Int) := fun h => by omega
  unfold Leap
  by_cases h1 : (4 : Int) ∣ ((x + 1 : Nat) : Int) <;> by_cases h2 : (100 : Int) ∣ ((x + 1 : Nat) : Int) <;>
    by_cases h3 : (400 : Int) ∣ ((x + 1 : Nat) : Int) <;> simp_all <;> omega

theorem formula_next {t : Date} (h : t.Valid) :
    formula t.next.year t.next.month t.next.day = (formula t.year t.month t.day + 1) % 7 := by
  obtain ⟨y, m, d⟩ := t
  obtain ⟨hy, h1, h2, h3, h4⟩ := h
  simp only at hy h1 h2 h3 h4
  have hm : m = 2 ∨ m = 1 ∨ m = 3 ∨ m = 4 ∨ m = 5 ∨ m = 6 ∨ m = 7 ∨ m = 8 ∨ m = 9 ∨ m = 10 ∨ m = 11 ∨ m = 12 := by
    omega
  by_cases hd : d < monthDays y m
  · simp only [Date.next, hd, if_true, formula]
    omega
  · have hd : d = monthDays y m := by omega
    subst hd
    simp only [Date.next, Nat.lt_irrefl, if_false]
    rcases hm with rfl | hm
    · obtain ⟨x, rfl⟩ : ∃ x, y = x + 1 := ⟨y - 1, by omega⟩
      have hl := leaps x
      have q1 : (x + 1) / 100 ≤ (x + 1) / 4 := by omega
      have q2 : x / 100 ≤ x / 4 := by omega
      by_cases hp : Leap (x + 1 : Nat)
      all_goals
        rw [monthDays, if_pos rfl]
        simp only [hp, if_true, if_false] at hl ⊢
        simp only [show (2 : Nat) < 12 from by decide, if_true, formula, show ¬ (2 + 1 : Nat) < 3 from by decide, if_false,
          show (2 : Nat) < 3 from by decide, Nat.add_sub_cancel,
          show offsets.getD 2 0 = 2 from rfl, show offsets.getD (2 - 1) 0 = 3 from rfl]
        revert hl q1 q2
        generalize (x + 1) / 4 = A
        generalize (x + 1) / 100 = B
        generalize (x + 1) / 400 = C
        generalize x / 4 = A'
        generalize x / 100 = B'
        generalize x / 400 = C'
        intro hl q1 q2
        omega
    · clear h4 h3
      rcases hm with rfl | rfl | rfl | rfl | rfl | rfl | rfl | rfl | rfl | rfl | rfl <;>
        simp [formula, offsets, monthDays]
      all_goals
        generalize y / 4 = A
        generalize y / 100 = B
        generalize y / 400 = C
        generalize (y - 1) / 4 = A'
        generalize (y - 1) / 100 = B'
        generalize (y - 1) / 400 = C'
        omega

theorem next_valid {t : Date} (h : t.Valid) : t.next.Valid := by
  obtain ⟨y, m, d⟩ := t
  obtain ⟨hy, h1, h2, h3, h4⟩ := h
  simp only at hy h1 h2 h3 h4
  have pos : ∀ y m, 1 ≤ monthDays y m := by
    intro y m
    unfold monthDays
    repeat' split
    all_goals decide
  by_cases hd : d < monthDays y m
  · simp only [Date.next, hd, if_true]
    exact ⟨hy, h1, h2, by simp, by simpa [Nat.succ_le_iff] using hd⟩
  · simp only [Date.next, hd, if_false]
    split
    · exact ⟨hy, by simp, by simp; omega, by simp, pos _ _⟩
    · exact ⟨by simp, by simp, by simp, by simp, pos _ _⟩

theorem weekday_formula {t : Date} {k : Nat} (h : Weekday t k) : t.Valid ∧ k = formula t.year t.month t.day := by
  induction h with
  | first => exact ⟨by decide, by decide⟩
  | next _ ih => exact ⟨next_valid ih.1, by rw [formula_next ih.1, ih.2]⟩

end

end Dune.Prelude
