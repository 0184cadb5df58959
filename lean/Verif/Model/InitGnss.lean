import Verif.Model.InitOrbit
import Verif.Model.InitThermal
import Verif.Model.Gnss
import Verif.Model.GnssSat
import Verif.Model.Sp3
import Verif.Model.Julian
/-!
# GNSS satellites made from a settings file and SP3 files

`InitGnssSatellites`, `src/environment/global/gnss_satellites.cpp:179-238`, with the constructor (gnss_satellites.hpp:39-46) and the dates that `Initialize` and
`GetCurrentSp3File` convert. `read` gives the text of a file by its path, `none` if it cannot be opened; the conversions of the SP3 reader are those of `Model/Sp3`.
Console output is left out. The clock files are never read.
-/
namespace S2E.InitGnss
open Log Ini InitOrbit

/-- `EpochTime(date_time).GetTimeWithFraction_s()`, epoch_time.cpp:12-33: after an early return of the constructor the members are indeterminate. -/
noncomputable def seconds (d : Time.DateTime ℝ) : Res ℝ :=
  (Time.EpochTime.ofDateTime d).bind fun o => match o with | some e => .ok e.timeWithFraction | none => .ub

/-- The start of a file, gnss_satellites.cpp:116. A file that was not read has the default date, whose year is 0: an early return of the conversion. -/
noncomputable def startSeconds (r : Sp3.Reader) : Res ℝ := match r.header.start with | some d => seconds d | none => .ub

open Classical in
/-- The dates that `GetCurrentSp3File` converts, gnss_satellites.cpp:114-128; the file it finds is `GnssSat.getCurrentSp3File`. -/
noncomputable def scan : List Sp3.Reader → ℝ → Res Unit
  | [], _ => .ok ()
  | r :: l, t => (startSeconds r).bind fun s => if t - s < 0 then .ok () else if t - s < 24 * 60 * 60 then .ok () else scan l t

/-- The start of a file as a number; it is only used where `scan` has found it defined. -/
noncomputable def startOf (r : Sp3.Reader) : ℝ := match startSeconds r with | .ok s => s | _ => 0

/-- What `Model/GnssSat` needs of a file that was read. All dates of epochs are converted here, in the code only those that are used: a date that cannot be
converted is undefined here even if the program never reaches it. -/
noncomputable def convert (r : Sp3.Reader) : Res (GnssSat.Sp3 ℝ) :=
  (InitThermal.makeAll seconds r.epoch).bind fun e =>
    .ok ⟨startOf r, r.header.epochs, r.header.satellites, r.header.interval, e, r.position.map fun l => l.map fun p => ⟨p.position, p.clock⟩⟩

/-- Whether the clock file name can be made, gnss_satellites.cpp:197-200, 220-225: `substr(4, 7)` of a shorter text throws. -/
def clockName (period footer : Str) : Res Unit :=
  if footer = period ++ "_ORB.SP3".toList then .ok () else if footer.length < 4 then .throws else .ok ()

/-- The loop over the days, gnss_satellites.cpp:212-229. There are `2^64` values of the date: a loop of more rounds never ends. -/
def loadFiles (c : Sp3.Codec) (read : Str → Option Str) (dir header period footer : Str) (last : ℕ) : ℕ → ℕ → Res (List Sp3.Reader)
  | 0, date => if date ≤ last then .stuck else .ok []
  | k + 1, date =>
    if date ≤ last then
      (Sp3.readFile c (read (dir ++ Gnss.orbitFileName header date period "ORB.SP3".toList))).bind fun r =>
        (clockName period footer).bind fun _ => (loadFiles c read dir header period footer last k (Gnss.incrementYearDoy date)).bind fun l => .ok (r.2 :: l)
    else .ok []

/-- The object that is returned: its two switches and its data. -/
structure Made where
  calculation : Bool
  logging : Bool
  state : GnssSat.State ℝ

/-- Lines 231-235: the start of the simulation and `Initialize`. -/
noncomputable def begin_ (zero : ℝ) (start : Julian.Date) (l : List Sp3.Reader) : Res (GnssSat.State ℝ) :=
  if l = [] then .ub
  else
    (seconds ⟨Time.toU64 start.year, Time.toU64 start.month, Time.toU64 start.day, Time.toU64 start.hour, Time.toU64 start.minute, start.sec⟩).bind fun t =>
      (scan l t).bind fun _ => (InitThermal.makeAll convert l).bind fun f => GnssSat.initialise zero f t

/-- `InitGnssSatellites`, gnss_satellites.cpp:179-238; the constructor turns logging off together with the calculation. -/
noncomputable def initGnss (rd : Reader) (c : Sp3.Codec) (read : Str → Option Str) (zero : ℝ) (start : Julian.Date) (file : File) : Res Made :=
  let ini := file "GNSS_SATELLITES".toList
  let s := fun (key : String) => readString rd.paths ini key.toList
  if readEnable rd.paths ini "calculation".toList = false then .ok ⟨false, false, GnssSat.newState zero⟩
  else
    (loadFiles c read (s "directory_path") (s "file_name_header") (s "orbit_data_period") (s "clock_file_name_footer")
      (Time.toU64 (rd.int ini "end_date".toList)) (2 ^ 64) (Time.toU64 (rd.int ini "start_date".toList))).bind fun l =>
    (begin_ zero start l).bind fun st => .ok ⟨true, readEnable rd.paths ini "logging".toList, st⟩

end S2E.InitGnss
