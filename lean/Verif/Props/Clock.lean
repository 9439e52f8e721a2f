import Verif.Props.Basics
import Verif.Props.Keys

/-! C95: time and sleeping; C96: asking the user. -/

namespace Dune.Props

open Spec

/-! ### C95 -/

def digit (n : Nat) : Char := (c!"0123456789").getD n '?'

/-- The hours on the face of a clock, from midnight or noon on. -/
def hours : List Str :=
  [c!"12", c!"1", c!"2", c!"3", c!"4", c!"5", c!"6", c!"7", c!"8", c!"9", c!"10", c!"11"]

/-- The text of a time of day, such as `3:07 PM`. -/
def timeText (hour minute : Nat) : Str :=
  hours.getD (hour % 12) [] ++ [':', digit (minute / 10), digit (minute % 10)] ++
    if hour < 12 then c!" AM" else c!" PM"

/-- The text of a date, such as `12/31/99`. -/
def dateText (month day year : Nat) : Str :=
  [digit (month / 10), digit (month % 10), '/', digit (day / 10), digit (day % 10), '/',
    digit (year % 100 / 10), digit (year % 10)]

/-- A date and a time of day as they occur. -/
structure Real (c : Clock) : Prop where
  month : c.month ≤ 12
  day : c.day ≤ 31
  hour : c.hour < 24
  minute : c.minute < 60
  year : c.year < 2 ^ 31

section

variable {W : Type} {P : Plat} {H : Host W} {L : Lib} {n : Nat} {env env1 env2 : Env} {w w1 w2 : W}

theorem digit_eq {k : Nat} : k < 10 → Char.ofNat (48 + k) = digit k := by
  have h : ∀ k < 10, Char.ofNat (48 + k) = digit k := by decide
  exact h k

theorem clockTime_text {c : Clock} (hc : Real c) :
    Builtins.clockTime c = timeText c.hour c.minute := by
  have hh : ∀ h < 24, natToStr (if h % 12 = 0 then 12 else h % 12) = hours.getD (h % 12) [] := by
    decide
  have hm := hc.minute
  rw [Builtins.clockTime, timeText, hh _ hc.hour, Builtins.twoDigits, digit_eq (by omega),
    digit_eq (by omega), Nat.mod_eq_of_lt (by omega : c.minute / 10 < 10)]
  simp

theorem clockDate_text {c : Clock} (hc : Real c) :
    Builtins.clockDate c = dateText c.month c.day c.year := by
  have h1 := hc.month
  have h2 := hc.day
  rw [Builtins.clockDate, dateText, Builtins.twoDigits, Builtins.twoDigits, Builtins.twoDigits]
  simp only [digit_eq (Nat.mod_lt _ (by decide : 0 < 10))]
  rw [Nat.mod_eq_of_lt (by omega : c.month / 10 < 10), Nat.mod_eq_of_lt (by omega : c.day / 10 < 10),
    show c.year / 10 % 10 = c.year % 100 / 10 by omega]
  rfl

/-- C95, `time@now` is a map with the year, the month, the day, the hour (from 0 to 23), the time of day
as a text and the date as a text, and nothing else; no argument is evaluated. -/
theorem C95_now (hs : Std env) (args : List Expr) {c : Clock} (hc : Real c)
    (hw : H.io .now w = (.clock c, w1)) :
    ∃ m, evalN P H (stdB P L) (n + 1) (call c!"time" c!"now" args) env w = (.ok (.map m), env, w1) ∧
      (∃ i : I64, BMap.get? m c!"year" = some (.int i) ∧ i.val = c.year) ∧
      (∃ i : I64, BMap.get? m c!"month" = some (.int i) ∧ i.val = c.month) ∧
      (∃ i : I64, BMap.get? m c!"day" = some (.int i) ∧ i.val = c.day) ∧
      (∃ i : I64, BMap.get? m c!"hour" = some (.int i) ∧ i.val = c.hour) ∧
      BMap.get? m c!"time" = some (.map [(c!"str", .str (timeText c.hour c.minute))]) ∧
      BMap.get? m c!"date" = some (.map [(c!"str", .str (dateText c.month c.day c.year))]) ∧
      m.map (·.1) = [c!"date", c!"day", c!"hour", c!"month", c!"time", c!"year"] := by
  have hb := hc
  obtain ⟨h1, h2, h3, h4, h5⟩ := hc
  refine ⟨BMap.ofList [
      (c!"year", .int (I64.wrap c.year)), (c!"month", .int (I64.wrap c.month)),
      (c!"day", .int (I64.wrap c.day)), (c!"hour", .int (I64.wrap c.hour)),
      (c!"time", .map (BMap.ofList [(c!"str", .str (Builtins.clockTime c))])),
      (c!"date", .map (BMap.ofList [(c!"str", .str (Builtins.clockDate c))]))],
    ?_, ⟨I64.wrap c.year, rfl, wrap_small (by omega) (by omega)⟩,
    ⟨I64.wrap c.month, rfl, wrap_small (by omega) (by omega)⟩,
    ⟨I64.wrap c.day, rfl, wrap_small (by omega) (by omega)⟩,
    ⟨I64.wrap c.hour, rfl, wrap_small (by omega) (by omega)⟩, ?_, ?_, rfl⟩
  · lib hs, Init.timeM
    brun [Builtins.nowB, M.io, hw]
  · rw [← clockTime_text hb]
    rfl
  · rw [← clockDate_text hb]
    rfl

/-- C95, the text of the time tells the hour and the minute. -/
theorem C95_time_unique {h m h' m' : Nat} (hh : h < 24) (hm : m < 60) (hh' : h' < 24) (hm' : m' < 60)
    (e : timeText h m = timeText h' m') : h = h' ∧ m = m' := by
  have hdig : ∀ {a b : Nat}, a < 10 → b < 10 → digit a = digit b → a = b := by
    have : ∀ a < 10, ∀ b < 10, digit a = digit b → a = b := by decide
    exact fun {a b} ha hb => this a ha b hb
  have htake : ∀ {h : Nat}, h < 24 → ∀ t : Str,
      (hours.getD (h % 12) [] ++ ':' :: t).takeWhile (fun c => decide (c ≠ ':')) =
        hours.getD (h % 12) [] := by
    have : ∀ h < 24, ∀ c ∈ hours.getD (h % 12) [], decide (c ≠ ':') = true := by decide
    intro h hh t
    rw [List.takeWhile_append_of_pos (this h hh)]
    simp
  have hcase : ∀ h < 24, ∀ h' < 24, hours.getD (h % 12) [] = hours.getD (h' % 12) [] →
      ((if h < 12 then c!" AM" else c!" PM") = if h' < 12 then c!" AM" else c!" PM") → h = h' := by
    decide
  have e1 : hours.getD (h % 12) [] = hours.getD (h' % 12) [] := by
    have := congrArg (List.takeWhile fun c => decide (c ≠ ':')) e
    simpa only [timeText, List.append_assoc, List.cons_append, htake hh, htake hh'] using this
  rw [timeText, timeText, e1, List.append_assoc, List.append_assoc, List.append_cancel_left_eq] at e
  simp only [List.cons_append, List.nil_append, List.cons.injEq, true_and] at e
  obtain ⟨e2, e3, e4⟩ := e
  have := hdig (by omega) (by omega) e2
  have := hdig (by omega) (by omega) e3
  exact ⟨hcase h hh h' hh' e1 e4, by omega⟩

/-- C95, the text of the date tells the month, the day and the year in its century. -/
theorem C95_date_unique {m d y m' d' y' : Nat} (hm : m ≤ 12) (hd : d ≤ 31) (hm' : m' ≤ 12)
    (hd' : d' ≤ 31) (e : dateText m d y = dateText m' d' y') : m = m' ∧ d = d' ∧ y % 100 = y' % 100 := by
  have hdig : ∀ {a b : Nat}, a < 10 → b < 10 → digit a = digit b → a = b := by
    have : ∀ a < 10, ∀ b < 10, digit a = digit b → a = b := by decide
    exact fun {a b} ha hb => this a ha b hb
  simp only [dateText, List.cons.injEq, and_true, true_and] at e
  obtain ⟨e1, e2, e3, e4, e5, e6⟩ := e
  have := hdig (by omega) (by omega) e1
  have := hdig (by omega) (by omega) e2
  have := hdig (by omega) (by omega) e3
  have := hdig (by omega) (by omega) e4
  have := hdig (by omega) (by omega) e5
  have := hdig (by omega) (by omega) e6
  omega

/-- C95, `time@sleep k` waits k milliseconds once and gives `None`. -/
theorem C95_sleep (hs : Std env) {a : Expr} {k : I64} (hk : 0 ≤ k.val)
    (ha : evalN P H (stdB P L) n a env w = (.ok (.int k), env1, w1)) :
    evalN P H (stdB P L) (n + 1) (call c!"time" c!"sleep" [a]) env w =
      (.ok .none, env1, (H.io (.sleep k.val.toNat) w1).2) := by
  have e : k.asUsize = k.val.toNat := by
    have := k.hi
    rw [I64.asUsize, Int.emod_eq_of_lt hk (by omega)]
  lib hs, Init.timeM
  brun [Builtins.sleepB, ha, M.io, e]

/-- C95, a negative number of milliseconds is not an error: the shell sleeps for more than 292 million
years. -/
theorem C95_sleep_negative (hs : Std env) {a : Expr} {k : I64} (hk : k.val < 0)
    (ha : evalN P H (stdB P L) n a env w = (.ok (.int k), env1, w1)) :
    ∃ ms, evalN P H (stdB P L) (n + 1) (call c!"time" c!"sleep" [a]) env w =
      (.ok .none, env1, (H.io (.sleep ms) w1).2) ∧ 292000000 * 365 * 86400 * 1000 < ms := by
  refine ⟨k.asUsize, ?_, ?_⟩
  · lib hs, Init.timeM
    brun [Builtins.sleepB, ha, M.io]
  · have := k.lo
    rw [I64.asUsize]
    omega

/-- C95, anything but a number is an error, and there is no waiting. -/
theorem C95_sleep_bad (hs : Std env) {a v : Expr} (h1 : ∀ k, v ≠ .int k) (h2 : ∀ f, v ≠ .float f)
    (ha : evalN P H (stdB P L) n a env w = (.ok v, env1, w1)) :
    ∃ m, evalN P H (stdB P L) (n + 1) (call c!"time" c!"sleep" [a]) env w =
      (.err (.customError m), env1, w1) := by
  refine ⟨c!"expected integer or float, but got " ++ display P v, ?_⟩
  lib hs, Init.timeM
  cases v with
  | int k => exact absurd rfl (h1 k)
  | float f => exact absurd rfl (h2 f)
  | _ => brun [Builtins.sleepB, ha]

/-! ### C96 -/

theorem run_promptLoop {ev0 : Expr → M W Expr} {args vs : List Expr}
    (h : Evals ev0 args vs env w env1 w1) :
    (Builtins.promptLoop P args).run H ev0 env w =
      (.ok (Props.spaced (vs.map (display P))), env1, w1) := by
  induction h with
  | nil => rfl
  | @cons a as v vs _ _ _ _ _ _ h1 h2 ih =>
    rw [Builtins.promptLoop]
    simp only [BProg.run_bind, BProg.run_ev]
    rw [M.bind_ok h1, M.bind_ok ih]
    cases h2 with
    | nil =>
      simp [BProg.run_ret, Props.spaced]
    | cons _ _ =>
      simp [BProg.run_ret, Props.spaced]

/-- C96, `input a b …` evaluates its arguments in order, asks once with the values as prompt, separated
by spaces, and gives the line that was typed; at the end of the input it leaves the shell. -/
theorem C96_input (hs : Std env) {args vs : List Expr}
    (h : Evals (evalN P H (stdB P L) n) args vs env w env1 w1) :
    (∀ s w2, H.io (.editLine (Props.spaced (vs.map (display P)))) w1 = (.str s, w2) →
      evalN P H (stdB P L) (n + 1) (.apply (.symbol c!"input") args) env w = (.ok (.str s), env1, w2)) ∧
    (∀ w2, H.io (.editLine (Props.spaced (vs.map (display P)))) w1 = (.unit, w2) →
      evalN P H (stdB P L) (n + 1) (.apply (.symbol c!"input") args) env w = (.exit 0, env1, w2)) := by
  have hl := run_promptLoop (P := P) (H := H) h
  constructor <;> intros <;> rename_i hio <;>
  · rw [eval_top hs (nm := c!"input") (id := .input) (hlp := []) (by mem_tac), evalN_builtin]
    simp only [stdB, Builtins.inputB, BProg.run_bind]
    rw [M.bind_ok hl]
    brun [M.io, hio]

/-- C96, if an argument of `input` cannot be evaluated, nobody is asked. -/
theorem C96_input_error (hs : Std env) {args vs rest : List Expr} {b : Expr} {e : Error}
    (h : Evals (evalN P H (stdB P L) n) args vs env w env1 w1)
    (hb : evalN P H (stdB P L) n b env1 w1 = (.err e, env2, w2)) :
    evalN P H (stdB P L) (n + 1) (.apply (.symbol c!"input") (args ++ b :: rest)) env w =
      (.err e, env2, w2) := by
  have hl : (Builtins.promptLoop P (args ++ b :: rest)).run H (evalN P H (stdB P L) n) env w =
      (.err e, env2, w2) := by
    clear hs
    induction h with
    | nil =>
      rw [List.nil_append, Builtins.promptLoop]
      simp only [BProg.run_bind, BProg.run_ev]
      rw [M.bind_err hb]
    | cons h1 _ ih =>
      rw [List.cons_append, Builtins.promptLoop]
      simp only [BProg.run_bind, BProg.run_ev]
      rw [M.bind_ok h1, M.bind_err (ih hb)]
  rw [eval_top hs (nm := c!"input") (id := .input) (hlp := []) (by mem_tac), evalN_builtin]
  simp only [stdB, Builtins.inputB, BProg.run_bind]
  rw [M.bind_err hl]

/-- C96, `console@keyboard@read-line` and `console@keyboard@read-password` give exactly what was read,
the password with no echo; arguments are not evaluated. -/
theorem C96_read (hs : Std env) (args : List Expr) {f : Str} {op : IOp} {s : Str}
    (hf : (f, op) ∈ [(c!"read-line", IOp.readLine), (c!"read-password", IOp.readPassword)])
    (hio : H.io op w = (.str s, w1)) :
    evalN P H (stdB P L) (n + 1) (call2 c!"console" c!"keyboard" f args) env w =
      (.ok (.str s), env, w1) := by
  simp only [List.mem_cons, Prod.mk.injEq, List.not_mem_nil, or_false] at hf
  rcases hf with ⟨rfl, rfl⟩ | ⟨rfl, rfl⟩
  · rw [eval_console2 hs (tbl := Init.keyboardM) (nm := c!"read-line") (id := .cReadLine) (hlp := [])
      (by mem_tac) rfl, evalN_builtin]
    brun [Builtins.readLineB, M.io, hio]
  · rw [eval_console2 hs (tbl := Init.keyboardM) (nm := c!"read-password") (id := .cReadPassword)
      (hlp := []) (by mem_tac) rfl, evalN_builtin]
    brun [Builtins.readLineB, M.io, hio]

/-- C96, `console@mode@raw` switches the terminal to raw mode and `console@mode@cooked` back, each by
one request; if the terminal refuses, that is an error. -/
theorem C96_mode (hs : Std env) (args : List Expr) {f : Str} {on : Bool}
    (hf : (f, on) ∈ [(c!"raw", true), (c!"cooked", false)]) :
    (∀ w', H.io (.rawMode on) w = (.unit, w') →
      evalN P H (stdB P L) (n + 1) (call2 c!"console" c!"mode" f args) env w = (.ok .none, env, w')) ∧
    (∀ e w', H.io (.rawMode on) w = (.err e, w') → ∃ m,
      evalN P H (stdB P L) (n + 1) (call2 c!"console" c!"mode" f args) env w =
        (.err (.customError m), env, w')) := by
  simp only [List.mem_cons, Prod.mk.injEq, List.not_mem_nil, or_false] at hf
  rcases hf with ⟨rfl, rfl⟩ | ⟨rfl, rfl⟩
  · rw [eval_console2 hs (tbl := Init.modeM) (nm := c!"raw") (id := .cRaw) (hlp := [])
      (by mem_tac) rfl, evalN_builtin]
    refine ⟨fun w' h => ?_, fun e w' h => ⟨c!"could not enable raw mode", ?_⟩⟩ <;>
      brun [Builtins.rawModeB, M.io, h]
  · rw [eval_console2 hs (tbl := Init.modeM) (nm := c!"cooked") (id := .cCooked) (hlp := [])
      (by mem_tac) rfl, evalN_builtin]
    refine ⟨fun w' h => ?_, fun e w' h => ⟨c!"could not disable raw mode", ?_⟩⟩ <;>
      brun [Builtins.rawModeB, M.io, h]

end

/-! ### Examples -/

/-- a world where it is seven minutes past three in the afternoon on the last day of 2023, and where the
user types `me` -/
def clockHost : Host (List IOp) where
  io op w := (match op with
    | .now => .clock ⟨2023, 12, 31, 15, 7⟩
    | .editLine _ => .str c!"me"
    | .readLine => .str c!"line\n"
    | _ => .unit, w ++ [op])

def clockRun (e : Expr) : Outcome Expr × List IOp :=
  let r := evalN Demo.plat clockHost (stdB Demo.plat Demo.lib) 2 e Demo.env []
  (r.1, r.2.2)

example : timeText 15 7 = c!"3:07 PM" ∧ timeText 0 0 = c!"12:00 AM" ∧ dateText 12 31 2023 = c!"12/31/23" :=
  ⟨rfl, rfl, rfl⟩

example : (clockRun (call c!"time" c!"now" [])).1 = .ok (.map [
    (c!"date", .map [(c!"str", .str c!"12/31/23")]), (c!"day", .int (I64.lit 31)),
    (c!"hour", .int (I64.lit 15)), (c!"month", .int (I64.lit 12)),
    (c!"time", .map [(c!"str", .str c!"3:07 PM")]), (c!"year", .int (I64.lit 2023))]) := rfl

example : Real ⟨2023, 12, 31, 15, 7⟩ := ⟨by decide, by decide, by decide, by decide, by decide⟩

example : clockRun (call c!"time" c!"sleep" [.int (I64.lit 250)]) = (.ok .none, [.sleep 250]) := rfl

example : clockRun (call c!"time" c!"sleep" [.int ⟨-1, by decide, by decide⟩]) =
    (.ok .none, [.sleep 18446744073709551615]) := rfl

example : clockRun (.apply (.symbol c!"input") [.str c!"your name", .int (I64.lit 1)]) =
    (.ok (.str c!"me"), [.editLine c!"your name 1"]) := rfl

example : clockRun (call2 c!"console" c!"keyboard" c!"read-line" []) =
    (.ok (.str c!"line\n"), [.readLine]) := rfl

example : clockRun (call2 c!"console" c!"mode" c!"raw" []) = (.ok .none, [.rawMode true]) := rfl

/-! ### Instances: the hypotheses can be met -/

section

example := C95_sleep (P := Demo.plat) (H := Demo.host) (L := Demo.lib) (n := 0) (w := [])
  demo_std (a := .int (.lit 250)) (k := .lit 250) (by decide) rfl

example := C95_sleep_negative (P := Demo.plat) (H := Demo.host) (L := Demo.lib) (n := 0) (w := [])
  demo_std (a := .int .min) (k := .min) (by decide) rfl

example := C95_sleep_bad (P := Demo.plat) (H := Demo.host) (L := Demo.lib) (n := 0) (w := [])
  demo_std (a := .str c!"1") (v := .str c!"1")
  (by simp) (by simp) rfl

example := C96_input (P := Demo.plat) (H := Demo.host) (L := Demo.lib) (n := 0) (w := [])
  demo_std (args := [.str c!"?", .none]) (.cons rfl (.cons rfl .nil))

end

example := C95_now (P := Demo.plat) (H := clockHost) (L := Demo.lib) (n := 0) (w := []) demo_std []
  (c := ⟨2023, 12, 31, 15, 7⟩) ⟨by decide, by decide, by decide, by decide, by decide⟩ rfl

example := C95_time_unique (h := 15) (m := 7) (h' := 15) (m' := 7) (by decide) (by decide) (by decide)
  (by decide) rfl

example := C95_date_unique (m := 12) (d := 31) (y := 1923) (m' := 12) (d' := 31) (y' := 2023) (by decide)
  (by decide) (by decide) (by decide) rfl

example := C96_input_error (P := Demo.plat) (H := Demo.host) (L := Demo.lib) (n := 0) (w := [])
  demo_std (args := [.str c!"?"]) (b := .apply (.int (.lit 1)) []) (rest := [.none])
  (.cons rfl .nil) rfl

example := C96_read (P := Demo.plat) (H := clockHost) (L := Demo.lib) (n := 0) (w := []) demo_std []
  (f := c!"read-line") (by simp; rfl) rfl

end Dune.Props
