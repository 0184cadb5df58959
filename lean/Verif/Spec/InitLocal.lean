import Verif.Model.InitLocal
import Verif.Spec.InitWheel
/-!
# Specification: the local environment settings file
-/
namespace S2E.Settings
open Log InitOrbit

/-- What the file of the local environment says. -/
structure LocalSheet where
  magneticOn : Bool
  magneticLogged : Bool
  coefficients : Str
  walkStd : ℝ
  walkLimit : ℝ
  whiteStd : ℝ
  srpOn : Bool
  srpLogged : Bool
  shadows : List Str
  albedoOn : Bool
  factor : ℝ
  infraredOn : Bool
  hot : ℝ
  cold : ℝ
  airOn : Bool
  airLogged : Bool
  model : Str
  weather : Str
  airStd : ℝ
  manual : Bool
  daily : ℝ
  average : ℝ
  ap : ℝ
  bodiesLogged : Bool

def LocalSheet.In (s : LocalSheet) (rd : Reader) (file : File) : Prop :=
  let M := "MAGNETIC_FIELD_ENVIRONMENT".toList
  let S := "SOLAR_RADIATION_PRESSURE_ENVIRONMENT".toList
  let A := "ATMOSPHERE".toList
  (Switch rd file M "calculation".toList s.magneticOn ∧ Switch rd file M "logging".toList s.magneticLogged ∧ Text rd file M "coefficient_file".toList s.coefficients ∧
    Number rd file M "magnetic_field_random_walk_standard_deviation_nT".toList s.walkStd ∧ Number rd file M "magnetic_field_random_walk_limit_nT".toList s.walkLimit ∧
    Number rd file M "magnetic_field_white_noise_standard_deviation_nT".toList s.whiteStd) ∧
  (Switch rd file S "calculation".toList s.srpOn ∧ Switch rd file S "logging".toList s.srpLogged ∧ Integer rd file S "number_of_third_shadow_source".toList s.shadows.length ∧
    ∀ i : Fin s.shadows.length, Text rd file S ("third_shadow_source_name(".toList ++ dec i ++ ")".toList) s.shadows[i]) ∧
  (Switch rd file "EARTH_ALBEDO".toList "calculation".toList s.albedoOn ∧ Number rd file "EARTH_ALBEDO".toList "earth_albedo_factor".toList s.factor) ∧
  (Switch rd file "EARTH_INFRARED".toList "calculation".toList s.infraredOn ∧ Number rd file "EARTH_INFRARED".toList "earth_infrared_temperature_hot_side_K".toList s.hot ∧
    Number rd file "EARTH_INFRARED".toList "earth_infrared_temperature_cold_side_K".toList s.cold) ∧
  (Switch rd file A "calculation".toList s.airOn ∧ Switch rd file A "logging".toList s.airLogged ∧ Text rd file A "model".toList s.model ∧
    Text rd file A "nrlmsise00_table_file".toList s.weather ∧ Number rd file A "air_density_standard_deviation".toList s.airStd ∧
    Switch rd file A "is_manual_parameter_used".toList s.manual ∧ Number rd file A "manual_daily_f107".toList s.daily ∧
    Number rd file A "manual_average_f107".toList s.average ∧ Number rd file A "manual_ap".toList s.ap) ∧
  Switch rd file "LOCAL_CELESTIAL_INFORMATION".toList "logging".toList s.bodiesLogged

/-- A flux of the Sun that is too low to be meant is replaced. -/
noncomputable def flux (x : ℝ) : ℝ := if x < 50 then 150 else x

/-- The bodies as the spacecraft saw them at the last update with the attitude flag, `before` if there was none. -/
def lastSeen (before : Env.Local) : List InitLocal.Moment → Env.Local
  | [] => before
  | m :: ms => lastSeen (if m.attitude then m.bodies.localUpdate m.position m.velocity m.i2b m.rate else before) ms

end S2E.Settings
