import Verif.Model.Sp3
import Verif.Model.Quantization
/-!
# `src/math_physics/atmosphere/wrapper_nrlmsise00.cpp`

Doubles are real numbers. `atoi` and `atof` are arbitrary functions (`Conv`); the density model `gtd7` of the external library is an arbitrary function of what it is given.
Characters outside ASCII, for which `isdigit` may be undefined, are taken as no digits. The messages on `cerr` are not modelled.
-/
namespace S2E.SpaceWeather
open S2E.Log S2E.Sp3

/-- `LeapYear`, line 34. -/
def leapYear (y : ℤ) : Bool := (y.tmod 4 == 0 && y.tmod 100 != 0) || y.tmod 400 == 0

/-- `days_month`, lines 37-41 and 127-130. -/
def daysMonth (leap : Bool) : List ℤ := [31, if leap then 29 else 28, 31, 30, 31, 30, 31, 31, 30, 31, 30, 31]

/-- `accumulate(days_month, days_month + k, 0)`. -/
def acc (leap : Bool) (k : ℕ) : ℤ := ((daysMonth leap).take k).sum

/-- `ConvertDaysToMonthDay`, lines 36-80; `none`: nothing is written. -/
def daysToMonthDay (days : ℤ) (leap : Bool) : Option (ℤ × ℤ) :=
  if days ≤ acc leap 1 then some (1, days)
  else if days > acc leap 1 ∧ days ≤ acc leap 2 then some (2, days - acc leap 1)
  else if days > acc leap 2 ∧ days ≤ acc leap 3 then some (3, days - acc leap 2)
  else if days > acc leap 3 ∧ days ≤ acc leap 4 then some (4, days - acc leap 3)
  else if days > acc leap 4 ∧ days ≤ acc leap 5 then some (5, days - acc leap 4)
  else if days > acc leap 5 ∧ days ≤ acc leap 6 then some (6, days - acc leap 5)
  else if days > acc leap 6 ∧ days ≤ acc leap 7 then some (7, days - acc leap 6)
  else if days > acc leap 7 ∧ days ≤ acc leap 8 then some (8, days - acc leap 7)
  else if days > acc leap 8 ∧ days ≤ acc leap 9 then some (9, days - acc leap 8)
  else if days > acc leap 9 ∧ days ≤ acc leap 10 then some (10, days - acc leap 9)
  else if days > acc leap 10 ∧ days ≤ acc leap 11 then some (11, days - acc leap 10)
  else if days > acc leap 11 ∧ days ≤ acc leap 12 then some (12, days - acc leap 11)
  else none

/-- `int date[6]`. -/
structure Date where
  year : ℤ
  month : ℤ
  day : ℤ
  hour : ℤ
  minute : ℤ
  second : ℤ
  deriving DecidableEq

/-- `days_per_year`, lines 86 and 125. -/
def daysPerYear (y : ℤ) : ℤ := if leapYear y then 366 else 365

/-- `ConvertDecyearToDate`, lines 82-121. Reading the month and day that were not written is undefined. -/
noncomputable def decyearToDate (x : ℝ) : Res Date :=
  (toInt32 x).bind fun year =>
    let daysD := (x - year) * daysPerYear year
    (toInt32 daysD).bind fun d =>
      let days := if d = 0 then 1 else d
      let hoursD := (daysD - d) * 24
      (toInt32 hoursD).bind fun hours =>
        let minutesD := (hoursD - hours) * 60
        (toInt32 minutesD).bind fun minutes =>
          let secondsD := (minutesD - minutes) * 60
          (toInt32 secondsD).bind fun seconds =>
            match daysToMonthDay days (leapYear year) with
            | some md => .ok ⟨year, md.1, md.2, hours, minutes, seconds⟩
            | none => .ub

/-- `ConvertDateToDecyear`, lines 123-135. The pointer `days_month + month - 1` is undefined outside of the array. -/
noncomputable def dateToDecyear (year month day : ℤ) : Res ℝ :=
  if 1 ≤ month ∧ month ≤ 12 then .ok (year + ((acc (leapYear year) (month - 1).toNat : ℝ) + day) / daysPerYear year) else .ub

/-- `ConvertMonthStrToMonthNum`, lines 137-165. -/
def monthNum (s : Str) : ℤ :=
  if s = "Jan".toList then 1 else if s = "Feb".toList then 2 else if s = "Mar".toList then 3 else if s = "Apr".toList then 4
  else if s = "May".toList then 5 else if s = "Jun".toList then 6 else if s = "Jul".toList then 7 else if s = "Aug".toList then 8
  else if s = "Sep".toList then 9 else if s = "Oct".toList then 10 else if s = "Nov".toList then 11 else if s = "Dec".toList then 12 else 0

/-- `nrlmsise_table`, wrapper_nrlmsise00.hpp:22-33. -/
structure Row where
  year : ℤ
  month : ℤ
  day : ℤ
  ap : ℝ
  f107Adj : ℝ
  ctr81Adj : ℝ
  lst81Adj : ℝ
  f107Obs : ℝ
  ctr81Obs : ℝ
  lst81Obs : ℝ

/-- What `gtd7` is given, lines 181-232; `switches` are the 24 flags, `aps` the array of seven. -/
structure Input where
  switches : List ℤ
  doy : ℤ
  sec : ℝ
  alt : ℝ
  lat : ℝ
  long : ℝ
  lst : ℝ
  f107A : ℝ
  f107 : ℝ
  ap : ℝ
  aps : List ℝ

/-- The loop of lines 208-222: the index found, 0 if none. -/
def search (daily : Bool) (d : Date) (table : List Row) : ℕ :=
  let i := table.findIdx fun r =>
    if daily then d.year == r.year && d.month == r.month && d.day == r.day else d.year == r.year && d.month == r.month
  if i < table.length then i else 0

/-- The values for manual parameters, lines 196-199: F10.7, its average and the Ap index. -/
structure Manual where
  f107 : ℝ
  f107A : ℝ
  ap : ℝ

/-- Lines 181-194 and 229-232: the input with the given solar activity. -/
noncomputable def mkInput (d : Date) (doy : ℤ) (lat lon alt f107A f107 ap : ℝ) : Input :=
  let sec : ℝ := d.hour * 60 * 60 + d.minute * 60 + d.second
  ⟨List.replicate 24 1, doy, sec, alt / 1000, lat * (180 / Real.pi), lon * (180 / Real.pi), sec / 3600 + lon * (180 / Real.pi) / 15,
    f107A, f107, ap, List.replicate 7 ap⟩

open Classical in
/-- `CalcNRLMSISE00`, lines 170-236; `monthly` is the variable `decyear_monthly`. -/
noncomputable def calcNrlmsise00 (gtd7 : Input → ℝ) (monthly x lat lon alt : ℝ) (table : List Row) (manual : Option Manual) : Res ℝ :=
  (decyearToDate x).bind fun d => (toInt32 x).bind fun y => (toInt32 ((x - y) * 365.25)).bind fun doy =>
    match manual with
    | some p => .ok (gtd7 (mkInput d doy lat lon alt p.f107A p.f107 p.ap))
    | none =>
      if table.length = 0 then .ok 0
      else
        match table[search (decide (x < monthly)) d table]? with
        | some r => .ok (gtd7 (mkInput d doy lat lon alt r.ctr81Adj r.f107Adj r.ap))
        | none => .ub

/-- `atoi` and `atof`. -/
structure Conv where
  atoi : Str → ℤ
  atof : Str → ℝ

/-- `atoi(line.substr(pos, n).c_str())`. -/
def Conv.int (c : Conv) (line : Str) (pos n : ℕ) : Res ℤ := (substr line pos n).bind fun f => .ok (c.atoi f)

/-- `atof(line.substr(pos, n).c_str())`. -/
def Conv.real (c : Conv) (line : Str) (pos n : ℕ) : Res ℝ := (substr line pos n).bind fun f => .ok (c.atof f)

/-- Lines 268-278: the line with the date of the last update. `days_month` is that of a common year and indexed by the number of the month. -/
noncomputable def readUpdate (c : Conv) (line : Str) : Res ℝ :=
  (c.int line 8 4).bind fun y => (substr line 13 3).bind fun ms => (c.int line 17 2).bind fun d =>
    (dateToDecyear y (monthNum ms) d).bind fun u =>
      match (daysMonth false)[(monthNum ms).toNat]? with
      | some n => .ok (u + (n + 14) / 365)
      | none => .ub

/-- Lines 294-303. -/
def readRow (c : Conv) (line : Str) (y m d : ℤ) : Res Row :=
  (c.real line 80 3).bind fun ap => (c.real line 93 5).bind fun a => (c.real line 101 5).bind fun b => (c.real line 107 5).bind fun e =>
    (c.real line 113 5).bind fun f => (c.real line 119 5).bind fun g => (c.real line 125 5).bind fun h => .ok ⟨y, m, d, ap, a, b, e, f, g, h⟩

open Classical in
/-- The body of the loop, lines 263-305; the state is `decyear_monthly` and the table. -/
noncomputable def step (c : Conv) (ini fin : Date) (line : Str) (s : ℝ × List Row) : Res (ℝ × List Row) :=
  (substr line 0 4).bind fun ys =>
    if !ys.all Char.isDigit || ys.isEmpty then
      if ys = "UPDA".toList then (readUpdate c line).bind fun m => .ok (m, s.2) else .ok s
    else
      let y := c.atoi ys
      (c.int line 5 2).bind fun m => (c.int line 8 2).bind fun d => (dateToDecyear y m d).bind fun l =>
        (dateToDecyear ini.year ini.month ini.day).bind fun a => (dateToDecyear fin.year fin.month fin.day).bind fun b =>
          if l < a - 31 / 365 ∨ l > b then .ok s else (readRow c line y m d).bind fun r => .ok (s.1, s.2 ++ [r])

/-- `while (getline(ifs, line))`, lines 262-306. -/
noncomputable def readLoop (c : Conv) (ini fin : Date) : ℕ → Stream → Str → ℝ × List Row → Res (ℝ × List Row)
  | 0, _, _, _ => .stuck
  | n + 1, f, line, s =>
    let g := f.getline line
    if g.1.fail then .ok s else (step c ini fin g.2 s).bind fun s => readLoop c ini fin n g.1 g.2 s

/-- `GetSpaceWeatherTable_`, lines 241-309: the value returned, `decyear_monthly` and the table. `none`: the file cannot be opened. -/
noncomputable def getTable (c : Conv) (n : ℕ) (x endsec : ℝ) (s : ℝ × List Row) : Option Str → Res (ℕ × (ℝ × List Row))
  | none => .ok (0, s)
  | some f =>
    (decyearToDate x).bind fun ini => (decyearToDate (x + endsec / 86400 / 365)).bind fun fin =>
      (readLoop c ini fin n ⟨f, false, false⟩ [] s).bind fun s => .ok (s.2.length, s)

end S2E.SpaceWeather
