import Mathlib.Algebra.BigOperators.Intervals
/-!
# The civil calendar, independently of the code
-/
namespace S2E.Calendar

/-- Gregorian leap years. -/
def isLeap (y : Nat) : Bool := y % 4 == 0 && (y % 100 != 0 || y % 400 == 0)

/-- "Every fourth year" leap years. -/
def isJulianLeap (y : Nat) : Bool := y % 4 == 0

/-- Days in month `m` (1-12) of a year that is a leap year or not. -/
def monthLen (leap : Bool) : Nat → Nat
  | 1 => 31
  | 2 => if leap then 29 else 28
  | 3 => 31
  | 4 => 30
  | 5 => 31
  | 6 => 30
  | 7 => 31
  | 8 => 31
  | 9 => 30
  | 10 => 31
  | 11 => 30
  | 12 => 31
  | _ => 0

/-- Days in a year. -/
def yearLen (leap : Bool) : Nat := if leap then 366 else 365

/-- Days elapsed from 1970-01-01 to the given date, in the calendar with the given leap rule. -/
def daysSince1970 (leap : Nat → Bool) (y m d : Nat) : Nat :=
  ∑ k ∈ Finset.Ico 1970 y, yearLen (leap k) + ∑ k ∈ Finset.Ico 1 m, monthLen (leap y) k + (d - 1)

/-- A date that exists in the calendar with the given leap rule. -/
def ValidDate (leap : Nat → Bool) (y m d : Nat) : Prop := 1970 ≤ y ∧ 1 ≤ m ∧ m ≤ 12 ∧ 1 ≤ d ∧ d ≤ monthLen (leap y) m

end S2E.Calendar
