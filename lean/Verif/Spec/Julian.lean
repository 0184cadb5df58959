import Verif.Model.Julian
import Verif.Spec.Calendar
/-!
# Julian dates of the Gregorian calendar, independently of the code
-/
namespace S2E.Julian
open S2E.Calendar

/-- Days from 1900-01-01 to a date of the Gregorian calendar. -/
def dayNumber (y m d : ℕ) : ℕ := ∑ k ∈ Finset.Ico 1900 y, yearLen (isLeap k) + ∑ k ∈ Finset.Ico 1 m, monthLen (isLeap y) k + (d - 1)

/-- The seconds from 1900-01-01 0h to a date and time (without leap seconds). -/
noncomputable def instant (y m d : ℕ) (h mi : ℤ) (s : ℝ) : ℝ := (dayNumber y m d : ℝ) * 86400 + h * 3600 + mi * 60 + s

/-- The Julian date of an instant; 1900-01-01 0h is JD 2415020.5. -/
noncomputable def julianDate (t : ℝ) : ℝ := 2415020.5 + t / 86400

/-- Dates of the Gregorian calendar from 1900-03-01 to 2100-02-28. -/
def Valid (y m d : ℕ) : Prop := 1 ≤ m ∧ m ≤ 12 ∧ 1 ≤ d ∧ d ≤ monthLen (isLeap y) m ∧ (1900 < y ∨ y = 1900 ∧ 3 ≤ m) ∧ (y < 2100 ∨ y = 2100 ∧ m < 3)

/-- In the last 18, 12 or 6 hours of a year, by its number in the cycle of four years (in the last year of the cycle: never). -/
def Late (y m d : ℕ) (h mi : ℤ) (s : ℝ) : Prop := m = 12 ∧ d = 31 ∧ ((y % 4 : ℕ) + 1 : ℝ) * 21600 ≤ (h : ℝ) * 3600 + mi * 60 + s

end S2E.Julian
