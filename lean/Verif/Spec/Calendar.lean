import Verif.Py.Date
/-!
# Calendar specification

The proleptic Gregorian calendar counted day by day: independent of the closed formulas used by `datetime`.
-/
namespace Verif.Spec
open Verif.Py

/-- leap years -/
def Leap (y : Nat) : Prop := 4 ∣ y ∧ (¬ 100 ∣ y ∨ 400 ∣ y)

instance (y : Nat) : Decidable (Leap y) := by unfold Leap; infer_instance

def yearDays (y : Nat) : Nat := if Leap y then 366 else 365

/-- lengths of the twelve months of year `y` -/
def monthDays (y : Nat) : List Nat :=
  [31, if Leap y then 29 else 28, 31, 30, 31, 30, 31, 31, 30, 31, 30, 31]

/-- days of the years `1 .. y-1` -/
def daysOfYearsBefore : Nat → Nat
  | 0 => 0
  | 1 => 0
  | y + 2 => daysOfYearsBefore (y + 1) + yearDays (y + 1)

/-- running day number: 0001-01-01 is 1 -/
def dayNumber (y m d : Nat) : Nat := daysOfYearsBefore y + ((monthDays y).take (m - 1)).sum + d

/-- a date of the calendar, years 1..9999 -/
def LegalDate (y m d : Nat) : Prop :=
  1 ≤ y ∧ y ≤ 9999 ∧ 1 ≤ m ∧ 1 ≤ d ∧ ∃ n, (monthDays y)[m - 1]? = some n ∧ d ≤ n

/-- a legal date and time -/
def Legal (t : DateTime) : Prop :=
  LegalDate t.year t.month t.day ∧ t.hour < 24 ∧ t.minute < 60 ∧ t.second < 60 ∧ t.micro < 1000000

/-- microseconds from the start of day 0 to day `n`, plus hours, minutes, seconds, microseconds (any integers) -/
def instantOf (n h mi s us : Int) : Int :=
  n * 86400000000 + h * 3600000000 + mi * 60000000 + s * 1000000 + us

/-- the instant of a date/time -/
def instant (t : DateTime) : Int :=
  instantOf (dayNumber t.year t.month t.day) t.hour t.minute t.second t.micro

end Verif.Spec
