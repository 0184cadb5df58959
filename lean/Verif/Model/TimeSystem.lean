import Verif.Model.Basic
import Mathlib.Algebra.Order.Field.Basic
import Mathlib.Algebra.Order.Floor.Ring
import Mathlib.Data.Int.Order.Basic
/-!
# `src/math_physics/time_system/`: `EpochTime`, `DateTime`, `GpsTime`

Doubles are elements of a linearly ordered field `K` with floor (exact arithmetic: no rounding, infinities or NaN). Unsigned 64-bit
integers (`uint64_t`, and `size_t` on the supported 64-bit platforms) are natural numbers reduced modulo `2^64` where an operation may
wrap; `int` and `time_t` are integers. Narrowing conversions to `int` keep the low 32 bits (implementation-defined before C++20, this on
every supported compiler). Signed overflow and double-to-integer conversions out of range are the outcome `ub`.
-/
namespace S2E.Time

/-- Conversion to a 64-bit unsigned integer. -/
def toU64 (z : Int) : Nat := (z % 2 ^ 64).toNat

/-- Conversion to a 32-bit signed integer. -/
def toI32 (z : Int) : Int := z.bmod (2 ^ 32)

/-- `EpochTime`, epoch_time.hpp:22-70. -/
structure EpochTime (K : Type) where
  time : Nat       -- time_s_, below 2^64
  fraction : K     -- fraction_s_
  deriving DecidableEq, Repr

/-- `DateTime`, date_time_format.hpp:21-63. -/
@[ext] structure DateTime (K : Type) where
  year : Nat
  month : Nat
  day : Nat
  hour : Nat
  minute : Nat
  second : K
  deriving DecidableEq, Repr

variable {K : Type} [Field K] [LinearOrder K] [IsStrictOrderedRing K] [FloorRing K]

/-- The table `doy`, epoch_time.cpp:14, indexed by `month - 1`. -/
def doyTable : List Nat := [1, 32, 60, 91, 121, 152, 182, 213, 244, 274, 305, 335]

/-- The day count of epoch_time.cpp:30 (without 64-bit reduction). -/
def epochDays (year month day : Nat) : Nat :=
  (year - 1970) * 365 + (year - 1969) / 4 + doyTable.getD (month - 1) 0 + day - 2 + (if year % 4 = 0 ∧ month ≥ 3 then 1 else 0)

/-- `EpochTime(DateTime)`, epoch_time.cpp:12-33. `none`: the constructor returned early and both members keep indeterminate values. -/
def EpochTime.ofDateTime (d : DateTime K) : Res (Option (EpochTime K)) :=
  if ⌊d.second⌋ < 0 ∨ 2 ^ 64 ≤ ⌊d.second⌋ then .ub
  else
    let second := ⌊d.second⌋.toNat
    if d.year < 1970 ∨ d.month < 1 ∨ 12 < d.month then .ok none
    else if d.day < 1 ∨ 32 ≤ d.day then .ok none
    else if 60 ≤ d.minute then .ok none
    else if 60 ≤ second then .ok none
    else .ok (some ⟨(epochDays d.year d.month d.day * 86400 + d.hour * 3600 + d.minute * 60 + second) % 2 ^ 64, d.second - (second : K)⟩)

/-- `operator==`, epoch_time.cpp:35-39. -/
def EpochTime.eq (a b : EpochTime K) : Bool :=
  if a.time ≠ b.time then false
  else if a.fraction ≠ b.fraction then false
  else true

/-- `operator>`, epoch_time.cpp:41-47. -/
def EpochTime.gt (a b : EpochTime K) : Bool :=
  if a.eq b then false
  else if a.time < b.time then false
  else if a.time > b.time then true
  else if a.fraction < b.fraction then false
  else true

/-- `operator<`, epoch_time.cpp:49-55. -/
def EpochTime.lt (a b : EpochTime K) : Bool :=
  if a.eq b then false
  else if a.time > b.time then false
  else if a.time < b.time then true
  else if a.fraction > b.fraction then false
  else true

/-- `operator!=`, epoch_time.hpp:59. -/
def EpochTime.ne (a b : EpochTime K) : Bool := !(a.eq b)

/-- `operator<=`, epoch_time.hpp:61. -/
def EpochTime.le (a b : EpochTime K) : Bool := !(a.gt b)

/-- `operator>=`, epoch_time.hpp:63. -/
def EpochTime.ge (a b : EpochTime K) : Bool := !(a.lt b)

/-- `GetTimeWithFraction_s`, epoch_time.hpp:55. -/
def EpochTime.timeWithFraction (a : EpochTime K) : K := (a.time : K) + a.fraction

/-- `operator+`, epoch_time.cpp:57-66. `time_s` is a signed 64-bit `time_t`: incrementing the largest one is undefined. -/
def EpochTime.add (a b : EpochTime K) : Res (EpochTime K) :=
  let t := (a.time + b.time) % 2 ^ 64
  let f := a.fraction + b.fraction
  if f > 1 then
    if t = 2 ^ 63 - 1 then .ub else .ok ⟨(t + 1) % 2 ^ 64, f - 1⟩
  else .ok ⟨t, f⟩

/-- `operator-`, epoch_time.cpp:68-77. Decrementing the smallest `time_t` is undefined. -/
def EpochTime.sub (a b : EpochTime K) : Res (EpochTime K) :=
  let t := (a.time + (2 ^ 64 - b.time)) % 2 ^ 64
  let f := a.fraction - b.fraction
  if f < 0 then
    if t = 2 ^ 63 then .ub else .ok ⟨(t + (2 ^ 64 - 1)) % 2 ^ 64, f + 1⟩
  else .ok ⟨t, f⟩

/-- The table `mday`, date_time_format.cpp:22-23. -/
def mdayTable : List Int :=
  [31, 28, 31, 30, 31, 30, 31, 31, 30, 31, 30, 31, 31, 28, 31, 30, 31, 30, 31, 31, 30, 31, 30, 31,
   31, 29, 31, 30, 31, 30, 31, 31, 30, 31, 30, 31, 31, 28, 31, 30, 31, 30, 31, 31, 30, 31, 30, 31]

/-- The month loop, date_time_format.cpp:30-35: walks the remaining table, returns the final `mon` and `day`. -/
def monthLoop : List Int → Int → Int → Int × Int
  | [], mon, day => (mon, day)
  | m :: ms, mon, day => if day ≥ m then monthLoop ms (mon + 1) (day - m) else (mon, day)

/-- `DateTime(EpochTime)`, date_time_format.cpp:20-43. C++ integer division and remainder truncate towards zero. -/
def DateTime.ofEpoch (e : EpochTime K) : DateTime K :=
  let days := toI32 ((e.time / 86400 : Nat) : Int)
  let sec := toI32 (toU64 ((e.time : Int) - days * 86400) : Int)
  let md := monthLoop mdayTable 0 (days.tmod 1461)
  { year := toU64 (1970 + days.tdiv 1461 * 4 + md.1.tdiv 12)
    month := toU64 (md.1.tmod 12 + 1)
    day := toU64 (md.2 + 1)
    hour := toU64 (sec.tdiv 3600)
    minute := toU64 ((sec.tmod 3600).tdiv 60)
    second := ((sec.tmod 60 : Int) : K) + e.fraction }

/-- `GpsTime`, gps_time.hpp:21-98. -/
structure GpsTime (K : Type) where
  week : Nat
  tow : K      -- elapsed_time_from_week_s_
  dateTime : DateTime K
  epoch : EpochTime K
  deriving DecidableEq, Repr

/-- `kEpochOfGpsTimeInEpochTime_`: the `EpochTime` of 1980/1/6 00:00:00, gps_time.cpp:10-11. The string is parsed by `sscanf`, which is not
modelled; `gpsEpoch_eq` in the proofs shows that this is `EpochTime.ofDateTime` of the six fields. -/
def gpsEpoch : EpochTime K := ⟨315964800, 0⟩

/-- `CalcGpsWeekTime`, gps_time.cpp:14-18: week and time of week. -/
def calcGpsWeekTime (e : EpochTime K) : Res (Nat × K) := do
  let d ← e.sub gpsEpoch
  let week := d.time / 604800
  .ok (week, ((d.time - week * 604800 : Nat) : K) + d.fraction)

/-- `CalcEpochTime`, gps_time.cpp:20-27. The conversion of the time of week to `size_t` truncates; it is undefined outside its range. -/
def calcEpochTime (week : Nat) (tow : K) : Res (EpochTime K) :=
  if tow ≤ -1 ∨ 2 ^ 64 ≤ tow then .ub
  else
    let i := ⌊tow⌋.toNat
    EpochTime.add gpsEpoch ⟨(week * 604800 + i) % 2 ^ 64, tow - (i : K)⟩

/-- `GpsTime(week, elapsed_time_from_week_s)`, gps_time.hpp:27-30. -/
def GpsTime.ofWeek (week : Nat) (tow : K) : Res (GpsTime K) := do
  let e ← calcEpochTime week tow
  .ok ⟨week, tow, DateTime.ofEpoch e, e⟩

/-- `GpsTime(EpochTime)`, gps_time.hpp:35. -/
def GpsTime.ofEpoch (e : EpochTime K) : Res (GpsTime K) := do
  let (w, t) ← calcGpsWeekTime e
  .ok ⟨w, t, DateTime.ofEpoch e, e⟩

/-- `GetDateTimeAsUtc`, gps_time.hpp:72 with `kLeapSecondAheadFromUtc_`, gps_time.cpp:12 (the `EpochTime` difference is converted to
`DateTime` implicitly). -/
def GpsTime.dateTimeAsUtc (g : GpsTime K) : Res (DateTime K) := do
  let e ← g.epoch.sub ⟨18, 0⟩
  .ok (DateTime.ofEpoch e)

end S2E.Time
