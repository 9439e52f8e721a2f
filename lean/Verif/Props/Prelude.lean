import Verif.Proof.PreludePage
import Verif.Props.Recursion
import Verif.Props.Widget

/-! The calendar functions of the default prelude. -/

namespace Dune.Props

open Spec Spec.Calendar Calc Prelude

/-! ### Specification -/

/-- The texts, entered one after the other: each gives nothing, prints nothing and does not touch the
outside world. -/
inductive Entered {W : Type} (H : Host W) (P : Plat) (L : Lib) (n : Nat) (w : W) : List Str → Env → Env → Prop
  | nil (env : Env) : Entered H P L n w [] env env
  | cons {t : Str} {ts : List Str} {env env1 env2 : Env} :
      runText P (evalN P H (stdB P L) n) t env w = (.ok .none, env1, w) →
      Entered H P L n w ts env1 env2 → Entered H P L n w (t :: ts) env env2

/-- The names have the meaning they have when the shell starts. -/
def Usual (env : Env) : Prop := ∃ env0, Std env0 ∧
  ∀ s ∈ [c!"+", c!"-", c!"*", c!"//", c!"%", c!"==", c!"!=", c!"<", c!"&&", c!"@", c!"int", c!"str", c!"len", c!"to",
    c!"widget"], env.get s = env0.get s

/-- Dividing a number by the float that is written `lit` and cutting off the fraction divides by `c`, for
numbers below `N`. -/
def Divides (P : Plat) (lit : Str) (c N : Nat) : Prop := ∃ f, P.fParse lit = some f ∧
  ∀ y : I64, 0 ≤ y.val → y.val < N → (P.fToInt (P.fDiv (P.fOfInt y) f)).val = y.val / c

/-- Numbers below `N` are divided by 4, 100 and 400 by means of floats.  (Doubles do for `N = 2 ^ 45`.) -/
structure Centuries (P : Plat) (N : Nat) : Prop where
  four : Divides P c!"4.0" 4 N
  hundred : Divides P c!"100.0" 100 N
  fourHundred : Divides P c!"400.0" 400 N

/-- Lines of printable ASCII characters that are shorter than the width are not broken, but lose the
spaces at their end.  (So does `textwrap::fill`.) -/
def Wraps (P : Plat) (n : Nat) : Prop := ∀ lines : List Str, lines ≠ [] → (∀ l ∈ lines, l.length < n ∧ Plain l) →
  P.fill (below lines) n = below (lines.map noTrailing)

/-- The page of a month, in a box: the date in the middle, the names of the days and six weeks, the first
of which has the first day of the month in its field `first`. -/
structure Page (rows : List Str) (y m d first : Nat) : Prop where
  box : ∃ lines, IsBox rows c!"Calendar" lines 30 10
  title : ∃ a b, rows[1]? = some (List.replicate a ' ' ++
      (monthName m ++ c!" " ++ (toString d).toList ++ c!", " ++ (toString y).toList) ++ List.replicate b ' ') ∧
    b ≤ a ∧ a ≤ b + 1
  names : rows[2]? = some (gridRow dayNames)
  weeks : ∀ r, r < 6 → rows[r + 3]? = some (gridRow ((List.range 7).map fun j => field d first (monthDays y m) (7 * r + j)))

/-! ### Proofs -/

section

variable {W : Type} {H : Host W} {P : Plat} {L : Lib}

theorem Entered.unique {n : Nat} {w : W} {ts : List Str} {env env1 env2 : Env} (h1 : Entered H P L n w ts env env1)
    (h2 : Entered H P L n w ts env env2) : env1 = env2 := by
  induction h1 with
  | nil => cases h2; rfl
  | cons h _ ih =>
    cases h2 with
    | cons h' h2 =>
      rw [h] at h'
      cases h'
      exact ih h2

theorem usual_of_std {env : Env} (hs : Std env) : Usual env := ⟨env, hs, fun _ _ => rfl⟩

theorem usual_ops {env : Env} (h : Usual env) : Sees env ops := by
  obtain ⟨env0, hs, h⟩ := h
  intro p hp
  rw [h p.1 (by
    simp only [ops, List.mem_cons, List.not_mem_nil, or_false] at hp
    rcases hp with rfl | rfl | rfl | rfl | rfl | rfl | rfl | rfl | rfl | rfl | rfl | rfl | rfl | rfl <;> decide)]
  have : p ∈ Init.ops ∨ p ∈ Init.top := by
    simp only [ops, List.mem_cons, List.not_mem_nil, or_false] at hp
    rcases hp with rfl | rfl | rfl | rfl | rfl | rfl | rfl | rfl | rfl | rfl | hp
    iterate 10
      · exact .inl (by mem_tac)
    rcases hp with rfl | rfl | rfl | rfl <;> exact .inr (by mem_tac)
  rcases this with h | h
  · exact hs.op p h
  · exact hs.top p h

theorem usual_define {env : Env} {x : Str} {v : Expr} (h : Usual env)
    (hx : x ∉ [c!"+", c!"-", c!"*", c!"//", c!"%", c!"==", c!"!=", c!"<", c!"&&", c!"@", c!"int", c!"str", c!"len",
      c!"to", c!"widget"]) : Usual (env.define x v) := by
  obtain ⟨env0, hs, h⟩ := h
  refine ⟨env0, hs, fun s hm => ?_⟩
  rw [Env.get_define, if_neg, h s hm]
  rintro rfl
  exact hx hm

theorem sees_opsOf {env : Env} (h : Usual env) (e : Expr) : Sees env (opsOf e) :=
  (usual_ops h).sub fun _ hp => List.mem_of_mem_filter hp

theorem opsOf_mentions {e : Expr} {ps : List Str} (hps : ∀ x ∈ ps, ops.lookup x = none) :
    ∀ q ∈ opsOf e, Mentions e q.1 ∧ q.1 ∉ ps ∧ q.1 ≠ c!"CWD" := by
  intro q hq
  refine ⟨?_, ?_, ops_ne (by decide) q hq⟩
  · have := (List.mem_filter.1 hq).2
    exact (mentions_iff _ _).1 (by simpa using this)
  · intro h
    exact ops_ne (hps _ h) q hq rfl

/-! #### the functions -/

theorem leap_define {env : Env} (h : Usual env) :
    ∃ v, Run H P L 3 env (.do_ [.assign c!"is-leapyear" (curried [c!"year"] leapBody)]) .none
        (env.define c!"is-leapyear" v) ∧ IsFun H P L 20 1 LeapFn v := by
  refine run_define (K := opsOf leapBody) (by decide) ?_ (opsOf_mentions (by decide)) (sees_opsOf h _) ?_
  · decide
  · rintro env as r hl ⟨i, rfl, rfl⟩ hs
    exact ⟨env, leap_body hs⟩

theorem dim_define {env : Env} {v : Expr} (h : Usual env) (hv : env.get c!"is-leapyear" = some v)
    (hf : IsFun H P L 20 1 LeapFn v) :
    ∃ u, Run H P L 3 env (.do_ [.assign c!"days-in-month" (curried [c!"month", c!"year"] dimBody)]) .none
        (env.define c!"days-in-month" u) ∧ IsFun H P L 40 2 DaysFn u := by
  refine run_define (K := (c!"is-leapyear", v) :: opsOf dimBody) (by decide) (by decide) ?_ ?_ ?_
  · intro q hq
    rcases List.mem_cons.1 hq with rfl | hq
    · exact ⟨(by decide : Mentions dimBody c!"is-leapyear"), (by decide : c!"is-leapyear" ∉ _),
        (by decide : c!"is-leapyear" ≠ _)⟩
    · exact opsOf_mentions (by decide) q hq
  · intro q hq
    rcases List.mem_cons.1 hq with rfl | hq
    · exact hv
    · exact sees_opsOf h _ q hq
  · rintro env as r hl ⟨m, y, rfl, h1, h2, i, hi, rfl⟩ hs
    obtain ⟨r, hr, hrun⟩ := dim_body (H := H) (P := P) (L := L) (env := env) (m := m) (y := y) hf hs h1 h2
    cases (i64_eq r i).2 (by omega)
    exact ⟨env, hrun⟩

/-- what `day-of-week` does -/
def DowFn (P : Plat) (a b c : F64) : List Expr → Expr → Prop := fun as r => ∃ m d y : I64,
  as = [.int m, .int d, .int y] ∧ 1 ≤ m.val ∧ m.val ≤ 12 ∧ 1 ≤ y.val ∧ y.val < 4611686018427387904 ∧ 0 ≤ d.val ∧
    d.val < 1000 ∧ (∀ y' : I64, y'.val = (if m.val < 3 then y.val - 1 else y.val) → Quotients P a b c y') ∧
    ∃ i : I64, i.val = formula y.val.toNat m.val.toNat d.val.toNat ∧ r = .int i

theorem dow_define {env : Env} (h : Usual env) (a b c : F64) :
    ∃ u, Run H P L 3 env (.do_ [.assign c!"day-of-week" (curried [c!"m", c!"d", c!"y"] (dowBody a b c))]) .none
        (env.define c!"day-of-week" u) ∧ IsFun H P L 64 3 (DowFn P a b c) u := by
  refine run_define (K := opsOf (dowBody a b c)) (by decide) ?_ (opsOf_mentions (by decide)) (sees_opsOf h _) ?_
  · intro x hx
    simp only [List.mem_cons, List.not_mem_nil, or_false] at hx
    rcases hx with rfl | rfl | rfl <;> exact ⟨by decide, (mentions_iff _ _).1 (List.mem_of_elem_eq_true rfl)⟩
  · rintro env as r hl ⟨m, d, y, rfl, h1, h2, h3, h4, h5, h6, hq, i, hi, rfl⟩ hs
    obtain ⟨r, env', hr, hrun⟩ := dow_body (H := H) (P := P) (L := L) (env := env) hs h1 h2 h3 h4 h5 h6 hq
    cases (i64_eq r i).2 (by omega)
    exact ⟨env', hrun⟩

/-! #### entering them -/

theorem enter_text {n d : Nat} {w : W} {t : Str} {e : Expr} {ts : List Str} {env env1 env2 : Env}
    (hp : parseText P t = .ok e) (h : Run H P L d env e .none env1) (hn : d + 1 ≤ n)
    (h' : Entered H P L n w ts env1 env2) (hd : d ≤ 801 := by decide) : Entered H P L n w (t :: ts) env env2 :=
  .cons (by rw [run_of_parse hp]; exact h.evalN hn hd w) h'

theorem leap_entered {n : Nat} {w : W} {env : Env} (h : Usual env) (hn : 4 ≤ n) :
    ∃ v, Entered H P L n w [leapText] env (env.define c!"is-leapyear" v) ∧ IsFun H P L 20 1 LeapFn v := by
  obtain ⟨v, hrun, hv⟩ := leap_define (H := H) (P := P) (L := L) h
  exact ⟨v, enter_text (leap_parse P) hrun hn (.nil _), hv⟩

theorem days_entered {n : Nat} {w : W} {env : Env} (h : Usual env) (hn : 4 ≤ n) :
    ∃ v u, Entered H P L n w [leapText, dimText] env ((env.define c!"is-leapyear" v).define c!"days-in-month" u) ∧
      IsFun H P L 40 2 DaysFn u := by
  obtain ⟨v, hrun, hv⟩ := leap_define (H := H) (P := P) (L := L) h
  obtain ⟨u, hrun', hu⟩ := dim_define (H := H) (P := P) (L := L) (usual_define (x := c!"is-leapyear") (v := v) h (by decide))
    (by rw [Env.get_define, if_pos rfl]) hv
  exact ⟨v, u, enter_text (leap_parse P) hrun hn (enter_text (dim_parse P) hrun' hn (.nil _)), hu⟩

theorem dow_entered {n N : Nat} {w : W} {env : Env} (h : Usual env) (hP : Centuries P N) (hn : 4 ≤ n) :
    ∃ v a b c, Entered H P L n w [dowText] env (env.define c!"day-of-week" v) ∧ IsFun H P L 64 3 (DowFn P a b c) v ∧
      ∀ y : I64, 0 ≤ y.val → y.val < N → Quotients P a b c y := by
  obtain ⟨⟨a, ha, ha'⟩, ⟨b, hb, hb'⟩, ⟨c, hc, hc'⟩⟩ := hP
  obtain ⟨u, hrun, hu⟩ := dow_define (H := H) (P := P) (L := L) h a b c
  exact ⟨u, a, b, c, enter_text (dow_parse ha hb hc) hrun hn (.nil _), hu, fun y h0 hN => ⟨ha' y h0 hN, hb' y h0 hN, hc' y h0 hN⟩⟩

/-! #### dates -/

theorem weekday_days {y m k : Nat} (h : Weekday ⟨y, m, 1⟩ k) :
    ∀ d, d < monthDays y m → ∃ k, Weekday ⟨y, m, d + 1⟩ k := by
  intro d
  induction d with
  | zero => exact fun _ => ⟨k, h⟩
  | succ d ih =>
    intro hd
    obtain ⟨k, hk⟩ := ih (by omega)
    have := hk.next
    rw [Date.next, if_pos hd] at this
    exact ⟨_, this⟩

theorem weekday_months {y k : Nat} (h : Weekday ⟨y, 1, 1⟩ k) : ∀ m, m < 12 → ∃ k, Weekday ⟨y, m + 1, 1⟩ k := by
  intro m
  induction m with
  | zero => exact fun _ => ⟨k, h⟩
  | succ m ih =>
    intro hm
    obtain ⟨k, hk⟩ := ih (by omega)
    have pos : 1 ≤ monthDays y (m + 1) := by
      unfold monthDays
      repeat' split
      all_goals decide
    obtain ⟨k, hk⟩ := weekday_days hk (monthDays y (m + 1) - 1) (by omega)
    rw [Nat.sub_add_cancel pos] at hk
    have := hk.next
    rw [Date.next, if_neg (by simp), if_pos hm] at this
    exact ⟨_, this⟩

theorem weekday_years : ∀ y, ∃ k, Weekday ⟨y + 1, 1, 1⟩ k := by
  intro y
  induction y with
  | zero => exact ⟨1, .first⟩
  | succ y ih =>
    obtain ⟨k, hk⟩ := ih
    obtain ⟨k, hk⟩ := weekday_months hk 11 (by decide)
    obtain ⟨k, hk⟩ := weekday_days hk 30 (by simp [monthDays])
    have := hk.next
    rw [Date.next, if_neg (by simp [monthDays]), if_neg (by simp)] at this
    exact ⟨_, this⟩

/-- Every date has a day of the week. -/
theorem weekday_exists {t : Date} (h : t.Valid) : ∃ k, Weekday t k := by
  obtain ⟨y, m, d⟩ := t
  obtain ⟨hy, h1, h2, h3, h4⟩ := h
  simp only at hy h1 h2 h3 h4
  obtain ⟨k, hk⟩ := weekday_years (y - 1)
  rw [Nat.sub_add_cancel hy] at hk
  obtain ⟨k, hk⟩ := weekday_months hk (m - 1) (by omega)
  rw [Nat.sub_add_cancel h1] at hk
  obtain ⟨k, hk⟩ := weekday_days hk (d - 1) (by omega)
  rw [Nat.sub_add_cancel h3] at hk
  exact ⟨k, hk⟩

/-! ### The functions -/

/-- C106.  `is-leapyear` is right for every year, also after any of the names it uses has got another
meaning. -/
theorem C106_leap {n m : Nat} {w w' : W} {env env' env2 : Env} (h : Usual env) (hn : 4 ≤ n)
    (he : Entered H P L n w [leapText] env env')
    (h2 : env2.get c!"is-leapyear" = env'.get c!"is-leapyear") (hm : 30 ≤ m) (y : I64) :
    evalN P H (stdB P L) m (.apply (.symbol c!"is-leapyear") [.int y]) env2 w' =
      (.ok (.bool (decide (Leap y.val))), env2, w') := by
  obtain ⟨v, he', hv⟩ := leap_entered (H := H) (P := P) (L := L) (w := w) h hn
  cases he.unique he'
  rw [Env.get_define, if_pos rfl] at h2
  exact Run.evalN (yields_call [.int y] [.int y] (.cons (yields_int y) .nil) _ _ _ LeapFn (yields_symbol h2) hv ⟨y, rfl, rfl⟩)
    (by simp; omega) (by simp) w'

/-- C106.  `days-in-month` gives the length of the month, in every year. -/
theorem C106_days {n k : Nat} {w w' : W} {env env' env2 : Env} (h : Usual env) (hn : 4 ≤ n)
    (he : Entered H P L n w [leapText, dimText] env env')
    (h2 : env2.get c!"days-in-month" = env'.get c!"days-in-month") (hk : 50 ≤ k) {m y : I64} (h1 : 1 ≤ m.val)
    (h12 : m.val ≤ 12) :
    ∃ r : I64, r.val = monthDays y.val m.val.toNat ∧
      evalN P H (stdB P L) k (.apply (.symbol c!"days-in-month") [.int m, .int y]) env2 w' = (.ok (.int r), env2, w') := by
  obtain ⟨v, u, he', hu⟩ := days_entered (H := H) (P := P) (L := L) (w := w) h hn
  cases he.unique he'
  rw [Env.get_define, if_pos rfl] at h2
  have hle : monthDays y.val m.val.toNat ≤ 31 := by
    unfold monthDays
    repeat' split
    all_goals decide
  refine ⟨⟨monthDays y.val m.val.toNat, by omega, by omega⟩, rfl, ?_⟩
  exact Run.evalN (yields_call [.int m, .int y] [.int m, .int y] (.cons (yields_int m) (.cons (yields_int y) .nil)) _ _ _
    DaysFn (yields_symbol h2) hu ⟨m, y, rfl, h1, h12, _, rfl, rfl⟩) (by simp; omega) (by simp) w'

/-- C106.  `day-of-week` gives the day of the week of every date, counted from Sunday. -/
theorem C106_weekday {n k N q : Nat} {w w' : W} {env env' env2 : Env} (h : Usual env) (hP : Centuries P N)
    (hN : N ≤ 2 ^ 62) (hn : 4 ≤ n) (he : Entered H P L n w [dowText] env env')
    (h2 : env2.get c!"day-of-week" = env'.get c!"day-of-week") (hk : 80 ≤ k) {y m d r : I64} (hy : y.val < N)
    (hpos : 1 ≤ y.val ∧ 1 ≤ m.val ∧ 1 ≤ d.val)
    (hq : Weekday ⟨y.val.toNat, m.val.toNat, d.val.toNat⟩ q) (hr : r.val = q) :
    evalN P H (stdB P L) k (.apply (.symbol c!"day-of-week") [.int m, .int d, .int y]) env2 w' =
      (.ok (.int r), env2, w') := by
  obtain ⟨v, a, b, c, he', hv, hquot⟩ := dow_entered (H := H) (L := L) (w := w) h hP hn
  cases he.unique he'
  rw [Env.get_define, if_pos rfl] at h2
  obtain ⟨⟨_, _, h12, _, hd⟩, rfl⟩ := weekday_formula hq
  simp only at h12 hd
  have hle : ∀ y m, monthDays y m ≤ 31 := by
    intro y m
    unfold monthDays
    repeat' split
    all_goals decide
  have := hle y.val.toNat m.val.toNat
  have : N ≤ 4611686018427387904 := hN
  refine Run.evalN (yields_call [.int m, .int d, .int y] [.int m, .int d, .int y]
    (.cons (yields_int m) (.cons (yields_int d) (.cons (yields_int y) .nil))) _ _ _
    (DowFn P a b c) (yields_symbol h2) hv ⟨m, d, y, rfl, hpos.2.1, by omega, hpos.1, by omega, by omega, by omega, ?_,
      r, hr, rfl⟩) (by simp; omega) (by simp) w'
  intro y' hy'
  exact hquot y' (by split at hy' <;> omega) (by split at hy' <;> omega)

/-- C106.  Every date has exactly one day of the week, and it is one of seven. -/
theorem C106_dates {t : Date} (h : t.Valid) : ∃ k, Weekday t k ∧ k < 7 ∧ ∀ k', Weekday t k' → k' = k := by
  obtain ⟨k, hk⟩ := weekday_exists h
  have e := weekday_formula hk
  refine ⟨k, hk, ?_, fun k' hk' => ?_⟩
  · rw [e.2]
    exact Nat.mod_lt _ (by decide)
  · rw [(weekday_formula hk').2, e.2]

/-! ### The calendar -/

/-- what `make-calendar` does -/
def CalFn (P : Plat) (F1 F2 : List Expr → Expr → Prop) : List Expr → Expr → Prop := fun as r =>
  ∃ (m d y dof i2 : I64) (dim : Nat), as = [.int m, .int d, .int y] ∧ F1 [.int m, .int (.lit 1), .int y] (.int dof) ∧
    F2 [.int m, .int y] (.int i2) ∧ i2.val = dim ∧ dim ≤ 31 ∧ (0 ≤ dof.val ∧ dof.val ≤ 6) ∧ 1 ≤ m.val ∧ m.val ≤ 12 ∧
    (headText m.val.toNat d.val y.val).length ≤ 28 ∧
    r = .str (calPicture P m.val.toNat d.val y.val dof.val.toNat dim)

theorem cal_define {env : Env} {v1 v2 : Expr} {F1 F2 : List Expr → Expr → Prop} (h : Usual env)
    (hm : env.get c!"MONTHS" = some monthsBody) (h1 : env.get c!"day-of-week" = some v1)
    (h2 : env.get c!"days-in-month" = some v2) (hv1 : IsFun H P L 64 3 F1 v1) (hv2 : IsFun H P L 40 2 F2 v2) :
    ∃ u, Run H P L 3 env (.do_ [.assign c!"make-calendar" (curried [c!"m", c!"d", c!"y"] calBody)]) .none
        (env.define c!"make-calendar" u) ∧ IsFun H P L 100 3 (CalFn P F1 F2) u := by
  obtain ⟨tbl, hg, ht⟩ : ∃ tbl : BMap Expr, env.get c!"widget" = some (.map tbl) ∧
      ∀ p ∈ Init.widgetM, tbl.get? p.1 = some p.2 := by
    obtain ⟨env0, hs, he⟩ := h
    rw [he _ (by simp)]
    exact hs.mod (c!"widget", Init.widgetM) (by mem_tac)
  have htbl := ht (Init.b c!"create" .wCreate) (by mem_tac)
  refine run_define (K := [(c!"MONTHS", monthsBody), (c!"day-of-week", v1), (c!"days-in-month", v2),
    (c!"widget", .map tbl)] ++ opsOf calBody) (by decide) (by decide) ?_ ?_ ?_
  · intro q hq
    simp only [List.cons_append, List.nil_append, List.mem_cons] at hq
    rcases hq with rfl | rfl | rfl | rfl | hq
    · exact ⟨(by decide : Mentions calBody c!"MONTHS"), (by decide : c!"MONTHS" ∉ _), (by decide : c!"MONTHS" ≠ _)⟩
    · exact ⟨(by decide : Mentions calBody c!"day-of-week"), (by decide : c!"day-of-week" ∉ _),
        (by decide : c!"day-of-week" ≠ _)⟩
    · exact ⟨(by decide : Mentions calBody c!"days-in-month"), (by decide : c!"days-in-month" ∉ _),
        (by decide : c!"days-in-month" ≠ _)⟩
    · exact ⟨(by decide : Mentions calBody c!"widget"), (by decide : c!"widget" ∉ _), (by decide : c!"widget" ≠ _)⟩
    · exact opsOf_mentions (by decide) q hq
  · intro q hq
    simp only [List.cons_append, List.nil_append, List.mem_cons] at hq
    rcases hq with rfl | rfl | rfl | rfl | hq
    · exact hm
    · exact h1
    · exact h2
    · exact hg
    · exact sees_opsOf h _ q hq
  · rintro env as r hl ⟨m, d, y, dof, i2, dim, rfl, hF1, hF2, hi2, hdim, h6, hm1, hm2, hlen, rfl⟩ hs
    exact cal_body hs hv1 hF1 hv2 hF2 hi2 hdim h6 hm1 hm2 hlen htbl

theorem months_run {env : Env} : Run H P L 4 env (.do_ [.assign c!"MONTHS" (curried [] monthsBody)]) .none
    (env.define c!"MONTHS" monthsBody) := by
  refine RunDo.block (Run.last (Run.assign (d := 2) fun n k w hn hk => ?_))
  obtain ⟨k, rfl⟩ : ∃ j, k = j + 2 := ⟨k - 2, by omega⟩
  rfl

/-- The texts of the calendar. -/
def calendarTexts : List Str := [leapText, dimText, dowText, monthsText, calText]

theorem calendar_entered {n N : Nat} {w : W} {env : Env} (h : Usual env) (hP : Centuries P N) (hn : 5 ≤ n) :
    ∃ env' v a b c, Entered H P L n w calendarTexts env env' ∧ env'.get c!"make-calendar" = some v ∧
      IsFun H P L 100 3 (CalFn P (DowFn P a b c) DaysFn) v ∧
      (∀ y : I64, 0 ≤ y.val → y.val < N → Quotients P a b c y) ∧
      ∀ s, s ∉ [c!"is-leapyear", c!"days-in-month", c!"day-of-week", c!"MONTHS", c!"make-calendar"] →
        env'.get s = env.get s := by
  obtain ⟨⟨a, ha, ha'⟩, ⟨b, hb, hb'⟩, ⟨c, hc, hc'⟩⟩ := hP
  obtain ⟨v1, r1, f1⟩ := leap_define (H := H) (P := P) (L := L) h
  have u1 : Usual (env.define c!"is-leapyear" v1) := usual_define h (by decide)
  obtain ⟨v2, r2, f2⟩ := dim_define (H := H) (P := P) (L := L) u1 (by rw [Env.get_define, if_pos rfl]) f1
  have u2 : Usual ((env.define c!"is-leapyear" v1).define c!"days-in-month" v2) := usual_define u1 (by decide)
  obtain ⟨v3, r3, f3⟩ := dow_define (H := H) (P := P) (L := L) u2 a b c
  have u3 : Usual (((env.define c!"is-leapyear" v1).define c!"days-in-month" v2).define c!"day-of-week" v3) :=
    usual_define u2 (by decide)
  have u4 : Usual ((((env.define c!"is-leapyear" v1).define c!"days-in-month" v2).define c!"day-of-week" v3).define
    c!"MONTHS" monthsBody) := usual_define u3 (by decide)
  obtain ⟨v5, r5, f5⟩ := cal_define (H := H) (P := P) (L := L) u4 (by rw [Env.get_define, if_pos rfl])
    (by rw [Env.get_define, if_neg (by decide), Env.get_define, if_pos rfl])
    (by rw [Env.get_define, if_neg (by decide), Env.get_define, if_neg (by decide), Env.get_define, if_pos rfl]) f3 f2
  refine ⟨_, v5, a, b, c, enter_text (leap_parse P) r1 (by omega) (enter_text (dim_parse P) r2 (by omega)
    (enter_text (dow_parse ha hb hc) r3 (by omega) (enter_text (months_parse P) months_run hn (enter_text (cal_parse P) r5 (by omega) (.nil _))))), by rw [Env.get_define, if_pos rfl],
    f5, fun y h0 hN => ⟨ha' y h0 hN, hb' y h0 hN, hc' y h0 hN⟩, fun s hs => ?_⟩
  simp only [List.mem_cons, List.not_mem_nil, or_false, not_or] at hs
  rw [Env.get_define, if_neg (Ne.symm hs.2.2.2.2), Env.get_define, if_neg (Ne.symm hs.2.2.2.1), Env.get_define,
    if_neg (Ne.symm hs.2.2.1), Env.get_define, if_neg (Ne.symm hs.2.1), Env.get_define, if_neg (Ne.symm hs.1)]

theorem row_map_noTrailing {lines : List Str} (h : ∀ l ∈ lines, l.length < 28) (j : Nat) :
    row 30 ((lines.map noTrailing).getD j []) = row 30 (lines.getD j []) := by
  by_cases hj : j < lines.length
  · simp only [List.getD_eq_getElem?_getD, List.getElem?_map, List.getElem?_eq_getElem hj, Option.map_some,
      Option.getD_some]
    exact row_noTrailing (by have := h _ (List.getElem_mem hj); omega)
  · simp only [List.getD_eq_getElem?_getD, List.getElem?_map, List.getElem?_eq_none (Nat.le_of_not_lt hj),
      Option.map_none]

theorem page_of_text {m d y first : Nat} (hw : Wraps P 28) (hv : (⟨y, m, d⟩ : Date).Valid) (hy : y < 10 ^ 12)
    (h6 : first ≤ 6) : ∃ rows, calPicture P m d y first (monthDays y m) = below rows ∧ Page rows y m d first := by
  obtain ⟨_, h1, h2, _, hd⟩ := hv
  simp only at h1 h2 hd
  have hle : monthDays y m ≤ 31 := by
    unfold monthDays
    repeat' split
    all_goals decide
  have hlines := lines_ok (first := first) (len := monthDays y m) h1 h2 (show d ≤ 31 by omega) hy hle
  have hpad : Builtins.padRight 18 (pageText m d y first (monthDays y m)) = pageText m d y first (monthDays y m) := by
    have : 18 ≤ (pageText m d y first (monthDays y m)).length := by
      rw [pageText]
      simp only [List.length_append, List.length_cons]
      omega
    rw [Builtins.padRight, Nat.sub_eq_zero_of_le this]
    simp
  have hne : pageLines m d y first (monthDays y m) ≠ [] := by simp [pageLines]
  have hfill := hw _ hne hlines
  have hmem : ∀ l ∈ (pageLines m d y first (monthDays y m)).map noTrailing,
      ('\n' ∉ l ∧ '\r' ∉ l) ∧ l.length + 2 ≤ 30 := by
    intro l hl
    obtain ⟨l, hl', rfl⟩ := List.mem_map.1 hl
    have := hlines l hl'
    obtain ⟨k, hk⟩ := noTrailing_split l
    have hll := congrArg List.length hk
    rw [List.length_append, List.length_replicate] at hll
    refine ⟨?_, by omega⟩
    have := this.2.line
    rw [hk] at this
    simp only [List.mem_append, not_or] at this
    exact ⟨this.1.1, this.2.1⟩
  obtain ⟨rows, hr, hbox⟩ := box_isBox (title := c!"Calendar") (n := 30) (height := 10) (by decide) (by decide) (by decide)
    (by decide) (by simpa using hne) hmem
  have hrow : ∀ j, j < 8 → rows[j + 1]? = some (row 30 ((pageLines m d y first (monthDays y m)).getD j [])) := by
    intro j hj
    rw [hbox.body j hj, row_map_noTrailing fun l hl => (hlines l hl).1]
  refine ⟨rows, ?_, ⟨⟨_, hbox⟩, ?_, ?_, fun r hr => ?_⟩⟩
  · rw [calPicture, hpad, page_below h6 hle, hfill]
    exact hr
  · have ht := title_ok h1 h2 (show d ≤ 31 by omega) hy
    have hh := head_length m d y
    refine ⟨(28 - (headText m d y).length) / 2 + 1 + 1, 30 - 1 - (titleLine m d y).length, ?_, ?_, ?_⟩
    · rw [hrow 0 (by decide)]
      show some (row 30 (titleLine m d y)) = _
      rw [← natToStr_eq, ← natToStr_eq, List.replicate_succ (n := (28 - (headText m d y).length) / 2 + 1),
        List.cons_append, ← titleLine]
      rfl
    · rw [titleLine, List.length_append, List.length_replicate]
      omega
    · rw [titleLine, List.length_append, List.length_replicate]
      omega
  · rw [hrow 1 (by decide), pageLines]
    simp only [List.getD_cons_succ, List.getD_cons_zero]
    rfl
  · rw [show r + 3 = (r + 2) + 1 from rfl, hrow (r + 2) (by omega)]
    exact congrArg some (week_row hle)

/-- C106.  `make-calendar m d y` is the page of the month, with a star at the day, for every date up to the
year the floats can divide. -/
theorem C106_calendar {n k N first : Nat} {w w' : W} {env env' env2 : Env} (h : Usual env) (hP : Centuries P N)
    (hN : N ≤ 10 ^ 12) (hw : Wraps P 28) (hn : 5 ≤ n) (he : Entered H P L n w calendarTexts env env')
    (h2 : env2.get c!"make-calendar" = env'.get c!"make-calendar") (hk : 110 ≤ k) {y m d : I64} (hy : y.val < N)
    (hpos : 1 ≤ y.val ∧ 1 ≤ m.val ∧ 1 ≤ d.val) (hv : (⟨y.val.toNat, m.val.toNat, d.val.toNat⟩ : Date).Valid)
    (hf : Weekday ⟨y.val.toNat, m.val.toNat, 1⟩ first) :
    ∃ rows, evalN P H (stdB P L) k (.apply (.symbol c!"make-calendar") [.int m, .int d, .int y]) env2 w' =
        (.ok (.str (below rows)), env2, w') ∧
      Page rows y.val.toNat m.val.toNat d.val.toNat first := by
  obtain ⟨env1, v, a, b, c, he', hg, hfun, hquot, _⟩ := calendar_entered (H := H) (L := L) (w := w) h hP hn
  cases he.unique he'
  rw [hg] at h2
  obtain ⟨_, rfl⟩ := weekday_formula hf
  obtain ⟨_, _, h12, _, hd⟩ := id hv
  simp only at h12 hd
  have h6 : formula y.val.toNat m.val.toNat 1 ≤ 6 := by
    have : formula y.val.toNat m.val.toNat 1 < 7 := Nat.mod_lt _ (by decide)
    omega
  have hle : ∀ y m, monthDays y m ≤ 31 := by
    intro y m
    unfold monthDays
    repeat' split
    all_goals decide
  have := hle y.val.toNat m.val.toNat
  have hN' : N ≤ 1000000000000 := hN
  obtain ⟨rows, hr, hpage⟩ := page_of_text (P := P) hw hv (by omega) h6
  refine ⟨rows, ?_, hpage⟩
  have hyn : ((y.val.toNat : Nat) : Int) = y.val := Int.toNat_of_nonneg (by omega)
  have hdn : ((d.val.toNat : Nat) : Int) = d.val := Int.toNat_of_nonneg (by omega)
  rw [hyn, hdn] at hr
  refine Run.evalN (yields_call [.int m, .int d, .int y] [.int m, .int d, .int y]
    (.cons (yields_int m) (.cons (yields_int d) (.cons (yields_int y) .nil))) _ _ _
    (CalFn P (DowFn P a b c) DaysFn) (yields_symbol h2) hfun
    ⟨m, d, y, ⟨(formula y.val.toNat m.val.toNat 1 : Nat), by omega, by omega⟩,
      ⟨(monthDays y.val.toNat m.val.toNat : Nat), by omega, by omega⟩, monthDays y.val m.val.toNat, rfl,
      ⟨m, .lit 1, y, rfl, hpos.2.1, by omega, hpos.1, by omega, by decide, by decide, ?_, _, rfl, rfl⟩,
      ⟨m, y, rfl, hpos.2.1, by omega, _, by simp only [hyn], rfl⟩, by simp only [hyn], hle _ _, by simp only; omega,
      hpos.2.1, by omega, ?_, ?_⟩) (by simp; omega) (by simp) w'
  · intro y' hy'
    exact hquot y' (by split at hy' <;> omega) (by split at hy' <;> omega)
  · have := (title_ok (m := m.val.toNat) (d := d.val.toNat) (y := y.val.toNat) (by omega) (by omega) (by omega)
      (by omega)).1
    rwa [hyn, hdn] at this
  · rw [← hr]
    rfl

theorem column_grid {f : Nat → Str} (h : ∀ j, (f j).length = 3) {j : Nat} (hj : j < 7) :
    column j (gridRow ((List.range 7).map f)) = f j := by
  have c : ∀ j, ∃ a b c, f j = [a, b, c] := fun j => List.length_eq_three.1 (h j)
  obtain ⟨_, _, _, h0⟩ := c 0
  obtain ⟨_, _, _, h1⟩ := c 1
  obtain ⟨_, _, _, h2⟩ := c 2
  obtain ⟨_, _, _, h3⟩ := c 3
  obtain ⟨_, _, _, h4⟩ := c 4
  obtain ⟨_, _, _, h5⟩ := c 5
  obtain ⟨_, _, _, h6⟩ := c 6
  show column j (gridRow (([0, 1, 2, 3, 4, 5, 6] : List Nat).map f)) = _
  simp only [h0, h1, h2, h3, h4, h5, h6, List.map_cons, List.map_nil]
  have hj : j = 0 ∨ j = 1 ∨ j = 2 ∨ j = 3 ∨ j = 4 ∨ j = 5 ∨ j = 6 := by omega
  rcases hj with rfl | rfl | rfl | rfl | rfl | rfl | rfl
  · rw [h0]; rfl
  · rw [h1]; rfl
  · rw [h2]; rfl
  · rw [h3]; rfl
  · rw [h4]; rfl
  · rw [h5]; rfl
  · rw [h6]; rfl

/-- C106.  On that page, every day of the month is in the column below the name of its day of the week, and
the weeks follow one another. -/
theorem C106_columns {rows : List Str} {y m d k first j : Nat} (hp : Page rows y m d first)
    (hf : Weekday ⟨y, m, 1⟩ first) (hk : Weekday ⟨y, m, k⟩ j) :
    rows[2]?.map (column j) = some (dayNames.getD j []) ∧
      ∃ r, r < 6 ∧ r = (first + k - 1) / 7 ∧ rows[r + 3]?.map (column j) = some (dayField d k) := by
  obtain ⟨_, hfirst⟩ := weekday_formula hf
  obtain ⟨⟨_, _, _, h1, h2⟩, hj⟩ := weekday_formula hk
  simp only [formula] at h1 h2 hfirst hj
  have hle : ∀ y m, monthDays y m ≤ 31 := by
    intro y m
    unfold monthDays
    repeat' split
    all_goals decide
  have h31 := hle y m
  have hj7 : j = (first + k - 1) % 7 := by
    rw [hfirst, hj]
    generalize (if m < 3 then y - 1 else y) = Y
    generalize Y / 4 = A
    generalize Y / 100 = B
    generalize Y / 400 = C
    generalize offsets.getD (m - 1) 0 = O
    omega
  have h6 : first < 7 := by rw [hfirst]; exact Nat.mod_lt _ (by decide)
  have hjlt : j < 7 := by omega
  constructor
  · rw [hp.names]
    have hj : j = 0 ∨ j = 1 ∨ j = 2 ∨ j = 3 ∨ j = 4 ∨ j = 5 ∨ j = 6 := by omega
    rcases hj with h | h | h | h | h | h | h <;> rw [h] <;> rfl
  · refine ⟨(first + k - 1) / 7, by omega, rfl, ?_⟩
    rw [hp.weeks _ (by omega), Option.map_some, column_grid (f := fun j => field d first (monthDays y m)
      (7 * ((first + k - 1) / 7) + j)) (fun j => (field_ok _ _ _ _ (hle y m)).1) hjlt]
    rw [hj7, Nat.div_add_mod, field, if_pos (by omega)]
    congr 2
    omega

/-- C106.  The texts of the calendar are accepted, print nothing and define five names. -/
theorem C106_defines {n N : Nat} {w : W} {env : Env} (h : Usual env) (hP : Centuries P N) (hn : 5 ≤ n) :
    ∃ env', Entered H P L n w calendarTexts env env' ∧
      ∀ s, s ∉ [c!"is-leapyear", c!"days-in-month", c!"day-of-week", c!"MONTHS", c!"make-calendar"] →
        env'.get s = env.get s := by
  obtain ⟨env', _, _, _, _, he, _, _, _, hs⟩ := calendar_entered (H := H) (L := L) (w := w) h hP hn
  exact ⟨env', he, hs⟩

end

/-! ### Example: a platform that meets the assumptions -/

namespace PreludeDemo

def splitNl : Str → List Str
  | [] => [[]]
  | c :: s => if c = '\n' then [] :: splitNl s else
    match splitNl s with
    | l :: ls => (c :: l) :: ls
    | [] => [[c]]

theorem splitNl_one : ∀ (l : Str), '\n' ∉ l → splitNl l = [l]
  | [], _ => rfl
  | c :: l, h => by
    simp only [List.mem_cons, not_or] at h
    rw [splitNl, if_neg (Ne.symm h.1), splitNl_one l h.2]

theorem splitNl_cons : ∀ (l s : Str), '\n' ∉ l → splitNl (l ++ '\n' :: s) = l :: splitNl s
  | [], s, _ => by rw [List.nil_append, splitNl, if_pos rfl]
  | c :: l, s, h => by
    simp only [List.mem_cons, not_or] at h
    rw [List.cons_append, splitNl, if_neg (Ne.symm h.1), splitNl_cons l s h.2]

theorem splitNl_below : ∀ (ls : List Str), ls ≠ [] → (∀ l ∈ ls, '\n' ∉ l) → splitNl (below ls) = ls
  | [l], _, h => by rw [below_one, splitNl_one l (h l (by simp))]
  | l :: l' :: ls, _, h => by
    rw [below_cons, splitNl_cons l _ (h l (by simp)),
      splitNl_below (l' :: ls) (by simp) fun x hx => h x (List.mem_cons_of_mem _ hx)]

def ofNat (n : Nat) : F64 := ⟨BitVec.ofNat 64 n⟩

/-- Whole numbers as floats, and lines that are never broken. -/
def plat : Plat := { Demo.plat with
  fParse := fun s => if s = c!"4.0" then some (ofNat 4) else if s = c!"100.0" then some (ofNat 100)
    else if s = c!"400.0" then some (ofNat 400) else none
  fOfInt := fun i => ofNat i.val.toNat
  fDiv := fun a b => ofNat (a.bits.toNat / b.bits.toNat)
  fToInt := fun a => I64.wrap a.bits.toNat
  fill := fun s _ => below ((splitNl s).map noTrailing) }

theorem ofNat_toNat {n : Nat} (h : n < 2 ^ 63) : (ofNat n).bits.toNat = n := by
  show (BitVec.ofNat 64 n).toNat = n
  rw [BitVec.toNat_ofNat]
  omega

theorem divides {lit : Str} {c : Nat} (h : plat.fParse lit = some (ofNat c)) (hc : c < 2 ^ 63) :
    Divides plat lit c (10 ^ 12) := by
  refine ⟨_, h, fun y h0 hN => ?_⟩
  have hlt : y.val.toNat < 1000000000000 := by omega
  have hdiv : y.val.toNat / c ≤ y.val.toNat := Nat.div_le_self _ _
  show (I64.wrap (ofNat ((ofNat y.val.toNat).bits.toNat / (ofNat c).bits.toNat)).bits.toNat).val = _
  rw [ofNat_toNat (n := y.val.toNat) (by omega), ofNat_toNat hc, ofNat_toNat (by omega), I64.wrap]
  have e : ((y.val.toNat / c : Nat) : Int) = y.val / c := by rw [Int.natCast_ediv, Int.toNat_of_nonneg h0]
  rw [← e]
  generalize y.val.toNat / c = q at hdiv ⊢
  clear e
  simp only
  rw [Int.bmod_eq_of_le (by omega) (by omega)]

theorem centuries : Centuries plat (10 ^ 12) :=
  ⟨divides rfl (by decide), divides rfl (by decide), divides rfl (by decide)⟩

theorem wraps : Wraps plat 28 := by
  intro lines hne h
  show below ((splitNl (below lines)).map noTrailing) = _
  rw [splitNl_below lines hne fun l hl => (h l hl).2.line.1]

end PreludeDemo

example : ∃ env', Entered Demo.host PreludeDemo.plat Demo.lib 5 [] calendarTexts Demo.env env' ∧
    ∀ w k, 110 ≤ k → ∃ rows, evalN PreludeDemo.plat Demo.host (stdB PreludeDemo.plat Demo.lib) k
      (.apply (.symbol c!"make-calendar") [.int (.lit 2), .int (.lit 29), .int (.lit 2024)]) env' w =
        (.ok (.str (below rows)), env', w) ∧ Page rows 2024 2 29 4 := by
  obtain ⟨env', he, _⟩ := C106_defines (H := Demo.host) (L := Demo.lib) (w := []) (usual_of_std demo_std)
    PreludeDemo.centuries (Nat.le_refl 5)
  refine ⟨env', he, fun w k hk => ?_⟩
  have hv : (⟨2024, 2, 29⟩ : Date).Valid := by decide
  obtain ⟨q, hq, _⟩ := C106_dates (t := ⟨2024, 2, 1⟩) (by decide)
  have : q = 4 := by rw [(weekday_formula hq).2]; rfl
  subst this
  exact C106_calendar (y := .lit 2024) (m := .lit 2) (d := .lit 29) (usual_of_std demo_std) PreludeDemo.centuries
    (Nat.le_refl _) PreludeDemo.wraps (Nat.le_refl 5) he rfl hk (by decide) (by decide) hv hq

example : Leap 2024 ∧ Leap 2000 ∧ ¬ Leap 1900 ∧ ¬ Leap 2023 ∧ Leap 0 ∧ Leap (-4) ∧ ¬ Leap (-100) := by decide

example : dayField 29 29 = c!"*29" ∧ dayField 5 5 = c!" *5" ∧ dayField 29 5 = c!"  5" := by decide +kernel

end Dune.Props
