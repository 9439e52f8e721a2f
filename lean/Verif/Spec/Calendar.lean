import Verif.Model.Str

/-! The calendar, independent of any program. -/

namespace Dune.Spec.Calendar

/-- A year of the Gregorian calendar is a leap year if 4 divides it, except for the full centuries that
400 does not divide. -/
def Leap (y : Int) : Prop := 4 ∣ y ∧ (¬ 100 ∣ y ∨ 400 ∣ y)

instance (y : Int) : Decidable (Leap y) := inferInstanceAs (Decidable (_ ∧ _))

/-- Thirty days have April, June, September and November. -/
def monthDays (y : Int) (m : Nat) : Nat :=
  if m = 2 then (if Leap y then 29 else 28)
  else if m = 4 ∨ m = 6 ∨ m = 9 ∨ m = 11 then 30 else 31

/-- A date: year, month from 1, day from 1. -/
structure Date where
  year : Nat
  month : Nat
  day : Nat
deriving DecidableEq

/-- The date exists. -/
def Date.Valid (t : Date) : Prop :=
  1 ≤ t.year ∧ 1 ≤ t.month ∧ t.month ≤ 12 ∧ 1 ≤ t.day ∧ t.day ≤ monthDays t.year t.month

instance (t : Date) : Decidable t.Valid := inferInstanceAs (Decidable (_ ∧ _))

/-- The day after. -/
def Date.next (t : Date) : Date :=
  if t.day < monthDays t.year t.month then { t with day := t.day + 1 }
  else if t.month < 12 then ⟨t.year, t.month + 1, 1⟩
  else ⟨t.year + 1, 1, 1⟩

/-- The day of the week, Sunday being 0: the first of January of the year 1 is a Monday, and after each
day comes the next one. -/
inductive Weekday : Date → Nat → Prop
  | first : Weekday ⟨1, 1, 1⟩ 1
  | next {t : Date} {k : Nat} : Weekday t k → Weekday t.next ((k + 1) % 7)

/-! ### A page of the calendar -/

def monthName (m : Nat) : Str := [c!"January", c!"February", c!"March", c!"April", c!"May", c!"June", c!"July",
  c!"August", c!"September", c!"October", c!"November", c!"December"].getD (m - 1) []

/-- The days of the week, as they are written above the columns. -/
def dayNames : List Str := [c!" Su", c!" Mo", c!" Tu", c!" We", c!" Th", c!" Fr", c!" Sa"]

/-- A row with seven fields of three characters. -/
def gridRow (fields : List Str) : Str := ' ' :: fields.flatMap (· ++ c!" ") ++ c!" "

/-- The text at the right of a field of three characters. -/
def flush (s : Str) : Str := List.replicate (3 - s.length) ' ' ++ s

/-- The field of a day; the day `d` has a star. -/
def dayField (d k : Nat) : Str := flush ((if k = d then c!"*" else []) ++ (toString k).toList)

/-- The field `j` of a month of `len` days that begins in the field `first`. -/
def field (d first len j : Nat) : Str :=
  if first ≤ j ∧ j < first + len then dayField d (j - first + 1) else c!"   "

/-! ### Texts -/

/-- Printable ASCII characters only. -/
def Plain (l : Str) : Prop := ∀ c ∈ l, 32 ≤ c.toNat ∧ c.toNat ≤ 126

instance (l : Str) : Decidable (Plain l) := inferInstanceAs (Decidable (∀ c ∈ l, _))

/-- The text without the spaces at its end. -/
def noTrailing (l : Str) : Str := (l.reverse.dropWhile (· == ' ')).reverse

/-- The field `j` of a row. -/
def column (j : Nat) (row : Str) : Str := (row.drop (4 * j + 1)).take 3

end Dune.Spec.Calendar
