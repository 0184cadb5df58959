import Verif.Model.SpaceWeather
import Verif.Spec.Calendar
import Verif.Spec.TextLines
/-!
# Dates and space weather, independently of the code

The calendar is that of `Spec/Calendar`. Columns of a line count from 0.
-/
namespace S2E.SpaceWeather
open S2E.Log S2E.Sp3 S2E.Calendar

/-- The number of a day in its year; 1 January is 1. -/
def dayOfYear (y m d : ℕ) : ℕ := ∑ k ∈ Finset.Ico 1 m, monthLen (isLeap y) k + d

/-- A date of the calendar. -/
def IsDay (y m d : ℕ) : Prop := 1 ≤ m ∧ m ≤ 12 ∧ 1 ≤ d ∧ d ≤ monthLen (isLeap y) m

/-- The date and time that stand for the decimal year `x`: of the days that have passed, each a 365th or 366th part of the year, the whole ones are the number of the day in the year (1 if
there is none) and the rest is the time of day, cut to seconds. -/
structure Stands (x : ℝ) (d : Date) : Prop where
  year : (d.year : ℝ) ≤ x ∧ x < d.year + 1
  day : ∃ m n : ℕ, d.month = m ∧ d.day = n ∧ IsDay d.year.toNat m n ∧
    dayOfYear d.year.toNat m n = max 1 ⌊(x - d.year) * yearLen (isLeap d.year.toNat)⌋₊
  time : 0 ≤ d.hour ∧ d.hour < 24 ∧ 0 ≤ d.minute ∧ d.minute < 60 ∧ 0 ≤ d.second ∧ d.second < 60
  seconds : d.hour * 3600 + d.minute * 60 + d.second = ⌊Int.fract ((x - d.year) * yearLen (isLeap d.year.toNat)) * 86400⌋

/-- The decimal year of a date: the year and the part of it that has passed at the end of the day. -/
noncomputable def decimal (y m d : ℕ) : ℝ := y + (dayOfYear y m d : ℝ) / yearLen (isLeap y)

/-- Earlier in the calendar. -/
def Earlier (a b : ℕ × ℕ × ℕ) : Prop := a.1 < b.1 ∨ a.1 = b.1 ∧ (a.2.1 < b.2.1 ∨ a.2.1 = b.2.1 ∧ a.2.2 < b.2.2)

/-- `r` is the first element with the property. -/
def First {α : Type} (p : α → Prop) (l : List α) (r : α) : Prop := ∃ a b, l = a ++ r :: b ∧ p r ∧ ∀ s ∈ a, ¬p s

/-- The row used: the first of the day (or, in the monthly part of the table, of the month); the first row of the table if there is none. -/
def Used (daily : Prop) (d : Date) (table : List Row) (r : Row) : Prop :=
  let fits := fun s : Row => s.year = d.year ∧ s.month = d.month ∧ (daily → s.day = d.day)
  First fits table r ∨ (∀ s ∈ table, ¬fits s) ∧ table.head? = some r

/-- The quantities `gtd7` gets at decimal year `x` and the given place, for the given solar activity. -/
noncomputable def given (x : ℝ) (d : Date) (lat lon alt f107A f107 ap : ℝ) : Input where
  switches := List.replicate 24 1
  doy := ⌊(x - d.year) * 365.25⌋
  sec := d.hour * 3600 + d.minute * 60 + d.second
  alt := alt / 1000
  lat := lat * 180 / Real.pi
  long := lon * 180 / Real.pi
  lst := (d.hour * 3600 + d.minute * 60 + d.second) / 3600 + lon * 180 / Real.pi / 15
  f107A := f107A
  f107 := f107
  ap := ap
  aps := List.replicate 7 ap

/-- A line with data begins with a digit and has nothing else in its first four columns. -/
def IsData (l : Str) : Prop := cols l 0 4 ≠ [] ∧ ∀ ch ∈ cols l 0 4, ch.isDigit = true

/-- The line with the date of the last update. -/
def IsUpdate (l : Str) : Prop := cols l 0 4 = "UPDA".toList

/-- The months, by name. -/
def months : List String := ["Jan", "Feb", "Mar", "Apr", "May", "Jun", "Jul", "Aug", "Sep", "Oct", "Nov", "Dec"]

/-- The decimal year of a date as the code counts it, also for days that do not exist. -/
noncomputable def decimalOf (y m d : ℤ) : ℝ :=
  y + ((∑ k ∈ Finset.Ico 1 m.toNat, monthLen (isLeap y.natAbs) k : ℕ) + (d : ℝ)) / yearLen (isLeap y.natAbs)

/-- The decimal year of a line. -/
noncomputable def lineTime (c : Conv) (l : Str) : ℝ := decimalOf (c.atoi (cols l 0 4)) (c.atoi (cols l 5 2)) (c.atoi (cols l 8 2))

/-- A line is kept if it is neither after the last day nor more than 31/365 of a year before the first. -/
def Kept (c : Conv) (ini fin : Date) (l : Str) : Prop :=
  decimalOf ini.year ini.month ini.day - 31 / 365 ≤ lineTime c l ∧ lineTime c l ≤ decimalOf fin.year fin.month fin.day

/-- A line the reader survives. -/
def Good (c : Conv) (ini fin : Date) (l : Str) : Prop :=
  (IsData l → 8 ≤ l.length ∧ 1 ≤ c.atoi (cols l 5 2) ∧ c.atoi (cols l 5 2) ≤ 12 ∧ (Kept c ini fin l → 125 ≤ l.length)) ∧
  (IsUpdate l → 17 ≤ l.length ∧ ∃ k < 11, cols l 13 3 = (months.getD k "").toList)

/-- The row in a line. -/
def rowOf (c : Conv) (l : Str) : Row :=
  ⟨c.atoi (cols l 0 4), c.atoi (cols l 5 2), c.atoi (cols l 8 2), c.atof (cols l 80 3), c.atof (cols l 93 5), c.atof (cols l 101 5), c.atof (cols l 107 5),
    c.atof (cols l 113 5), c.atof (cols l 119 5), c.atof (cols l 125 5)⟩

open Classical in
/-- The rows of a file, in its order. -/
noncomputable def rows (c : Conv) (ini fin : Date) (L : List Str) : List Row := (L.filter fun l => decide (IsData l ∧ Kept c ini fin l)).map (rowOf c)

/-- The decimal year of the update and 14 days plus the length of the month after it (in a common year). -/
noncomputable def updateTime (c : Conv) (l : Str) (k : ℕ) : ℝ :=
  decimalOf (c.atoi (cols l 8 4)) (k + 1 : ℕ) (c.atoi (cols l 17 2)) + (monthLen false (k + 2) + 14 : ℝ) / 365

/-- The monthly part begins where the last update line says; without one the variable keeps its value. -/
def Monthly (c : Conv) (L : List Str) (before after : ℝ) : Prop :=
  (∃ A l B k, L = A ++ l :: B ∧ IsUpdate l ∧ (∀ m ∈ B, ¬IsUpdate m) ∧ k < 11 ∧ cols l 13 3 = (months.getD k "").toList ∧ after = updateTime c l k) ∨
  (∀ l ∈ L, ¬IsUpdate l) ∧ after = before

/-- What ends the reading at a line. -/
inductive Stops (c : Conv) (ini fin : Date) (l : Str) : Res (ℝ × List Row) → Prop
  /-- a line of data that is too short for its date -/
  | date (h : IsData l) (h8 : l.length < 8) : Stops c ini fin l .throws
  /-- a month that does not exist -/
  | month (h : IsData l) (h8 : 8 ≤ l.length) (hm : c.atoi (cols l 5 2) < 1 ∨ 12 < c.atoi (cols l 5 2)) : Stops c ini fin l .ub
  /-- a line of data in the period that is too short for its last value -/
  | short (h : IsData l) (h8 : 8 ≤ l.length) (hm : 1 ≤ c.atoi (cols l 5 2) ∧ c.atoi (cols l 5 2) ≤ 12) (hk : Kept c ini fin l) (hl : l.length < 125) : Stops c ini fin l .throws
  /-- an update line that is too short -/
  | update (h : IsUpdate l) (hl : l.length < 17) : Stops c ini fin l .throws
  /-- an update in December, or in a month whose name is not known -/
  | december (h : IsUpdate l) (hl : 17 ≤ l.length) (hm : ∀ k < 11, cols l 13 3 ≠ (months.getD k "").toList) : Stops c ini fin l .ub

/-- The first and the last moment of a run give dates. -/
structure Run (x endsec : ℝ) (ini fin : Date) : Prop where
  start : 0 ≤ x ∧ x < 2 ^ 31 ∧ Stands x ini
  stop : 0 ≤ x + endsec / 86400 / 365 ∧ x + endsec / 86400 / 365 < 2 ^ 31 ∧ Stands (x + endsec / 86400 / 365) fin

end S2E.SpaceWeather
