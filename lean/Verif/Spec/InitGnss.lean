import Verif.Spec.Settings
import Verif.Spec.InitWheel
import Verif.Spec.Calendar
import Verif.Spec.Sp3
/-!
# Specification: orbit products of the GNSS satellites, one file per day

`Calendar` is the Gregorian calendar; the days of the product names are given as year and day of the year.
-/
namespace S2E.Settings
open Log InitOrbit Time

/-- Seconds from the beginning of 1970 to a date and time. -/
noncomputable def instant (d : DateTime ℝ) : ℝ :=
  (Calendar.daysSince1970 Calendar.isLeap d.year d.month d.day : ℝ) * 86400 + (d.hour : ℝ) * 3600 + (d.minute : ℝ) * 60 + d.second

/-- A date and time from 1980 to 2099. -/
structure Possible (d : DateTime ℝ) : Prop where
  date : Calendar.ValidDate Calendar.isLeap d.year d.month d.day
  years : 1980 ≤ d.year ∧ d.year ≤ 2099
  hour : d.hour < 24
  minute : d.minute < 60
  second : 0 ≤ d.second ∧ d.second < 60

/-- A product: the lines of the header, what they say, when the product starts, the epochs, and whatever follows them in the file. -/
structure Product where
  header : Sp3.HeaderLines
  hd : Sp3.Header
  start : DateTime ℝ
  epochs : List Sp3.Epoch
  rest : Str

/-- The file. -/
def Product.text (p : Product) : Str := Sp3.text (p.header.lines ++ p.epochs.flatMap Sp3.Epoch.lines) ++ p.rest

/-- A product in the SP3 format, with positions of at least two satellites at at least two epochs, which are evenly spaced. -/
structure Product.Ok (c : Sp3.Codec) (p : Product) : Prop where
  header : Sp3.HeaderOk c p.header p.hd
  positions : p.header.first[2]? = some 'P'
  epochs : ∀ e ∈ p.epochs, Sp3.EpochOk c p.hd.satellites e
  count : p.hd.epochs = p.epochs.length
  two : 2 ≤ p.epochs.length
  satellites : 2 ≤ p.hd.satellites
  rest : ¬['E', 'P'] <+: p.rest
  dates : ∀ e ∈ p.epochs, Possible e.time
  start : p.hd.start = some p.start ∧ Possible p.start
  spacing : 0 < p.hd.interval
  even : ∀ j (h : j < p.epochs.length), instant p.epochs[j].time = instant (p.epochs[0]'(by omega)).time + j * p.hd.interval

/-- What an epoch says about satellite number `sat`; the marker for missing data if it has no such satellite. -/
noncomputable def saysOf (e : Sp3.Epoch) (sat : ℕ) : Sp3.PositionClock := ((e.sats[sat]?).map Sp3.Sat.value).getD {}

/-- The settings: where the products are, what they are called, and the first and the last day (year and day of the year). -/
structure ProductSheet where
  directory : Str
  header : Str
  period : Str
  footer : Str
  first : ℕ × ℕ
  last : ℕ × ℕ
  logging : Bool

/-- The settings file says so, with the calculation switched on. The text for the clock products is as long as the program needs. -/
def ProductSheet.In (s : ProductSheet) (rd : Reader) (file : File) : Prop :=
  let sec := "GNSS_SATELLITES".toList
  Switch rd file sec "calculation".toList true ∧ Switch rd file sec "logging".toList s.logging ∧ Text rd file sec "directory_path".toList s.directory ∧
  Text rd file sec "file_name_header".toList s.header ∧ Text rd file sec "orbit_data_period".toList s.period ∧
  Text rd file sec "clock_file_name_footer".toList s.footer ∧ Integer rd file sec "start_date".toList (s.first.1 * 1000 + s.first.2 : ℕ) ∧
  Integer rd file sec "end_date".toList (s.last.1 * 1000 + s.last.2 : ℕ)

/-- Path of the product of a day. -/
def ProductSheet.path (s : ProductSheet) (day : ℕ × ℕ) : Str :=
  s.directory ++ s.header ++ "_".toList ++ dec (day.1 * 1000 + day.2) ++ "0000_01D_".toList ++ s.period ++ "_ORB.SP3".toList

end S2E.Settings
