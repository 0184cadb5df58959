import Verif.Model.LinAlg
/-!
# Julian dates and the calendar: `src/math_physics/orbit/sgp4/sgp4ext.cpp`, `gstime` of `sgp4unit.cpp`

Doubles are real numbers; the conversions of floors to `int` are exact (the theorems bound the dates).
-/
namespace S2E.Julian

/-- A date with time of the day: `UTC`, simulation_time.hpp:40-47 (there unsigned). -/
structure Date where
  year : ℤ
  month : ℤ
  day : ℤ
  hour : ℤ
  minute : ℤ
  sec : ℝ

/-- `jday`, sgp4ext.cpp:591-595. -/
noncomputable def jday (d : Date) : ℝ :=
  367 * (d.year : ℝ) - (⌊(7 * ((d.year : ℝ) + (⌊((d.month : ℝ) + 9) / 12⌋ : ℤ))) * (1 / 4 : ℝ)⌋ : ℤ) + (⌊(275 * (d.month : ℝ)) / 9⌋ : ℤ) + d.day + 1721013.5 +
    ((d.sec / 60 + d.minute) / 60 + d.hour) / 24

/-- `lmonth`, sgp4ext.cpp:640, 644. -/
def lmonth (year : ℤ) (i : ℕ) : ℤ :=
  if i = 2 then (if year % 4 = 0 then 29 else 28)
  else if i = 4 ∨ i = 6 ∨ i = 9 ∨ i = 11 then 30 else 31

/-- The loop of lines 646-651: `i` and `inttemp`. -/
def monthLoop (year dayofyr : ℤ) (i : ℕ) (inttemp : ℤ) : ℕ × ℤ :=
  if dayofyr > inttemp + lmonth year i ∧ i < 12 then monthLoop year dayofyr (i + 1) (inttemp + lmonth year i) else (i, inttemp)
termination_by 12 - i

/-- `days2mdhms`, sgp4ext.cpp:637-661. -/
noncomputable def days2mdhms (year : ℤ) (days : ℝ) : Date :=
  let dayofyr := ⌊days⌋
  let x := monthLoop year dayofyr 1 0
  let temp := (days - dayofyr) * 24
  let hr := ⌊temp⌋
  let temp := (temp - hr) * 60
  let minute := ⌊temp⌋
  { year := year, month := x.1, day := dayofyr - x.2, hour := hr, minute := minute, sec := (temp - minute) * 60 }

/-- `leapyrs`, sgp4ext.cpp:715, 723. -/
noncomputable def leapyrs (year : ℤ) : ℤ := ⌊((year : ℝ) - 1901) * (1 / 4 : ℝ)⌋

/-- Year and day of the year, sgp4ext.cpp:712-725 and 738-751. -/
noncomputable def yearDays (jd : ℝ) : ℤ × ℝ :=
  let temp := jd - 2415019.5
  let year := 1900 + ⌊temp / 365.25⌋
  let days := temp - (((year : ℝ) - 1900) * 365 + leapyrs year) + 0.00000000001
  if days < 1 then (year - 1, temp - ((((year - 1 : ℤ) : ℝ) - 1900) * 365 + leapyrs (year - 1))) else (year, days)

/-- `invjday`, sgp4ext.cpp:707-730. -/
noncomputable def invjday (jd : ℝ) : Date :=
  let x := yearDays jd
  let d := days2mdhms x.1 x.2
  { d with sec := d.sec - 0.00000086400 }

/-- `JdToDecyear`, sgp4ext.cpp:733-754. -/
noncomputable def jdToDecyear (jd : ℝ) : ℝ := (yearDays jd).1 + (yearDays jd).2 / 365.25

/-- The C library's `fmod` for a positive divisor: the remainder has the sign of the dividend. -/
noncomputable def fmod (x m : ℝ) : ℝ := if 0 ≤ x then x - m * ⌊x / m⌋ else x + m * ⌊-x / m⌋

/-- `gstime`, sgp4unit.cpp:1752-1776. -/
noncomputable def gstime (jd : ℝ) : ℝ :=
  let t := (jd - 2451545) / 36525
  let temp := -6.2e-6 * t * t * t + 0.093104 * t * t + (876600 * 3600 + 8640184.812866) * t + 67310.54841
  let temp := fmod (temp * (Real.pi / 180) / 240) (2 * Real.pi)
  if temp < 0 then temp + 2 * Real.pi else temp

end S2E.Julian
