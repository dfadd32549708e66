import Verif.Model.Timestamp
import Mathlib.Algebra.BigOperators.Intervals
import Mathlib.Order.Interval.Finset.Nat

/-!
# The calendar
-/

namespace CrowdDynamics.Spec

open CrowdDynamics

/-- Leap years of the Gregorian calendar. -/
def LeapYear (y : ℕ) : Prop := y % 4 = 0 ∧ (y % 100 ≠ 0 ∨ y % 400 = 0)

instance (y : ℕ) : Decidable (LeapYear y) := by
  unfold LeapYear
  infer_instance

/-- The number of days of a month. -/
def monthLength (y m : ℕ) : ℕ :=
  if m = 2 then (if LeapYear y then 29 else 28)
  else if m = 4 ∨ m = 6 ∨ m = 9 ∨ m = 11 then 30 else 31

/-- The number of days of a year. -/
def yearLength (y : ℕ) : ℕ := ∑ m ∈ Finset.Ico 1 13, monthLength y m

/-- The number of days from the beginning of the year 1 up to and including a day. -/
def dayNumber (y m d : ℕ) : ℕ :=
  ∑ i ∈ Finset.Ico 1 y, yearLength i + ∑ i ∈ Finset.Ico 1 m, monthLength y i + d

/-- The number of microseconds since a fixed moment. -/
def instant (t : UtcTime) : ℕ :=
  (((dayNumber t.year t.month t.day * 24 + t.hour) * 60 + t.minute) * 60 + t.second) * 1000000 +
    t.microsecond

/-- The moments that a `datetime` can represent. -/
structure Exists (t : UtcTime) : Prop where
  year : 1 ≤ t.year ∧ t.year ≤ 9999
  month : 1 ≤ t.month ∧ t.month ≤ 12
  day : 1 ≤ t.day ∧ t.day ≤ monthLength t.year t.month
  hour : t.hour < 24
  minute : t.minute < 60
  second : t.second < 60
  microsecond : t.microsecond < 1000000

/-- The order of strings in Python. -/
def TextBefore (s t : Text) : Prop := List.Lex (fun a b => a.toNat < b.toNat) s t

end CrowdDynamics.Spec
