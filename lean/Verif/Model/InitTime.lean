import Verif.Model.InitOrbit
import Verif.Model.SimTime
import Verif.Model.Julian
import Verif.Model.Tle
/-!
# The simulation clock made from a settings file

`InitSimulationTime`, `src/environment/global/simulation_time.cpp:249-279`, with the constructor (26-60) and `AssertTimeStepParams` (64-76).
`sscanf` is the one of `Model/Tle` (no hexadecimal numbers, infinities or NaN). SPICE's ephemeris time of a Julian date is a parameter.
-/
namespace S2E.InitTime
open Log Ini InitOrbit

/-- `%d` into an `int`, simulation_time.cpp:46. The members that `sscanf` fills have no value before (simulation_time.hpp, no initialisers), and line 47 reads
them: a conversion that fails is undefined, and so is a number that is not an `int`. -/
def readInt (s : Str) : Res (ℤ × Str) :=
  match Tle.scanInt s.length s with
  | none => .ub
  | some r => if -2 ^ 31 ≤ r.1 ∧ r.1 < 2 ^ 31 then .ok r else .ub

/-- `%lf`, simulation_time.cpp:46. -/
noncomputable def readReal (s : Str) : Res (ℝ × Str) :=
  match Tle.scanReal s.length s with
  | none => .ub
  | some r => .ok (r.1, r.2)

/-- A character of the format that must be there, simulation_time.cpp:46. -/
def expect (c : Char) : Str → Res Str
  | [] => .ub
  | d :: s => if d = c then .ok s else .ub

/-- `sscanf(start_ymdhms, "%d/%d/%d %d:%d:%lf", …)`, simulation_time.cpp:46; then `275 * mon` in `jday` (sgp4ext.cpp:592) must be an `int`. -/
noncomputable def scanStart (s : Str) : Res Julian.Date :=
  (readInt s).bind fun y => (expect '/' y.2).bind fun s => (readInt s).bind fun mo => (expect '/' mo.2).bind fun s => (readInt s).bind fun d =>
    (readInt (Tle.skip d.2)).bind fun h => (expect ':' h.2).bind fun s => (readInt s).bind fun mi => (expect ':' mi.2).bind fun s => (readReal s).bind fun sec =>
      if -2 ^ 31 ≤ 275 * mo.1 ∧ 275 * mo.1 < 2 ^ 31 then .ok ⟨y.1, mo.1, d.1, h.1, mi.1, sec.1⟩ else .ub

/-- What the constructor makes: the constants of the clock, the steps of the integrators, the frequency of the components in Hz, and the date, calendar, sidereal
time and decimal year at the beginning. -/
structure Clock where
  cfg : TimeCfg ℝ
  attitudeRk : ℝ
  orbitRk : ℝ
  thermalRk : ℝ
  frequency : ℤ
  start : Julian.Date
  utc : Julian.Date
  sidereal : ℝ
  decimalYear : ℝ

/-- `int(1.0 / component_update_interval_sec_)`, simulation_time.cpp:40: `1.0 / 0` is infinite. -/
noncomputable def frequencyOf (interval : ℝ) : Res ℤ := if interval = 0 then .ub else toInt32 (1 / interval)

open Classical in
/-- `AssertTimeStepParams`, simulation_time.cpp:64-76. -/
noncomputable def assertSteps (k : Clock) : Res Clock :=
  if k.attitudeRk ≤ k.cfg.attitude ∧ k.orbitRk ≤ k.cfg.orbit ∧ k.thermalRk ≤ k.cfg.thermal ∧ k.cfg.step ≤ k.cfg.attitude ∧ k.cfg.step ≤ k.cfg.orbit ∧
    k.cfg.step ≤ k.cfg.thermal ∧ k.cfg.step ≤ k.cfg.component ∧ k.cfg.step ≤ k.cfg.log then .ok k else .throws

/-- The constructor, simulation_time.cpp:26-60; `et` is `str2et_c` of `"jd …"`. -/
noncomputable def newClock (et : ℝ → ℝ) (endSec step attitude attitudeRk orbit orbitRk thermal thermalRk component log : ℝ) (start : Str) (speed : ℝ) : Res Clock :=
  (frequencyOf component).bind fun f => (scanStart start).bind fun d =>
    assertSteps
      { cfg := { endSec := endSec, step := step, attitude := attitude, orbit := orbit, thermal := thermal, component := component, log := log,
                 startJd := Julian.jday d, startEt := et (Julian.jday d), speed := speed, limitSec := 1 }
        attitudeRk := attitudeRk, orbitRk := orbitRk, thermalRk := thermalRk, frequency := f, start := d
        utc := Julian.invjday (Julian.jday d), sidereal := Julian.gstime (Julian.jday d), decimalYear := Julian.jdToDecyear (Julian.jday d) }

/-- `InitSimulationTime`, simulation_time.cpp:249-279. -/
noncomputable def initTime (rd : Reader) (et : ℝ → ℝ) (file : File) : Res Clock :=
  let ini := file "TIME".toList
  let d := fun (key : String) => readDouble rd.getReal ini key.toList
  newClock et (d "simulation_duration_s") (d "simulation_step_s") (d "attitude_update_period_s") (d "attitude_integral_step_s") (d "orbit_update_period_s")
    (d "orbit_integral_step_s") (d "thermal_update_period_s") (d "thermal_integral_step_s") (d "component_update_period_s") (d "log_output_period_s")
    (readString rd.paths ini "simulation_start_time_utc".toList) (d "simulation_speed_setting")

end S2E.InitTime
