import Verif.Spec.Settings
import Verif.Spec.Tle
import Verif.Spec.Julian
/-!
# Specification: times written in a settings file
-/
namespace S2E.Settings
open Log InitOrbit Tle

/-- The text is `year/month/day hour:minute:seconds`: decimal digits, leading zeros are allowed, the seconds may have a fraction, there may be more blanks between
date and time. -/
def StartText (text : Str) (y m d h mi : ℕ) (s : ℝ) : Prop :=
  ∃ ys ms ds hs mis ss fs : Str, ∃ blanks : ℕ,
    text = ys ++ "/".toList ++ ms ++ "/".toList ++ ds ++ List.replicate (blanks + 1) ' ' ++ hs ++ ":".toList ++ mis ++ ":".toList ++ ss ++ fs ∧
    (∀ t ∈ [ys, ms, ds, hs, mis, ss], Digits t ∧ t ≠ []) ∧ numeral ys = y ∧ numeral ms = m ∧ numeral ds = d ∧ numeral hs = h ∧ numeral mis = mi ∧
    (fs = [] ∧ s = numeral ss ∨ ∃ f, fs = '.' :: f ∧ Digits f ∧ f ≠ [] ∧ s = numeral ss + numeral f / 10 ^ f.length)

/-- The times of the section `TIME`, in seconds: duration, step, period of updates and integration step of attitude, orbit and temperatures, period of the
components, of the log; and the speed. -/
structure TimeSheet where
  duration : ℝ
  step : ℝ
  attitude : ℝ
  attitudeIntegral : ℝ
  orbit : ℝ
  orbitIntegral : ℝ
  thermal : ℝ
  thermalIntegral : ℝ
  component : ℝ
  log : ℝ
  speed : ℝ

def TimeSheet.In (t : TimeSheet) (rd : Reader) (file : File) : Prop :=
  let N := fun key : String => Number rd file "TIME".toList key.toList
  N "simulation_duration_s" t.duration ∧ N "simulation_step_s" t.step ∧ N "attitude_update_period_s" t.attitude ∧ N "attitude_integral_step_s" t.attitudeIntegral ∧
  N "orbit_update_period_s" t.orbit ∧ N "orbit_integral_step_s" t.orbitIntegral ∧ N "thermal_update_period_s" t.thermal ∧
  N "thermal_integral_step_s" t.thermalIntegral ∧ N "component_update_period_s" t.component ∧ N "log_output_period_s" t.log ∧ N "simulation_speed_setting" t.speed

/-- No integration step is longer than the period of updates, and no period is shorter than the step of the simulation. -/
def TimeSheet.Consistent (t : TimeSheet) : Prop :=
  (t.attitudeIntegral ≤ t.attitude ∧ t.orbitIntegral ≤ t.orbit ∧ t.thermalIntegral ≤ t.thermal) ∧
  ∀ period ∈ [t.attitude, t.orbit, t.thermal, t.component, t.log], t.step ≤ period

end S2E.Settings
