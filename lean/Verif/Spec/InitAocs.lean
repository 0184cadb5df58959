import Verif.Spec.Settings
import Verif.Model.InitAocs
/-!
# Specification: data sheets of sensors and actuators and how they are written in a settings file
-/
namespace S2E.Settings
open Log InitOrbit

/-- Data sheet of a three-axis sensor. -/
structure SensorSheet where
  scale : Mat 3 3
  bias : Vec 3
  noise : Vec 3
  walk : Vec 3
  walkLimit : Vec 3
  toConst : ℝ
  toZero : ℝ

/-- The sheet is in the section `SENSOR_BASE_…` of the named sensor, with keys that end in the unit. The ranges make sense. -/
def SensorSheet.In (s : SensorSheet) (rd : Reader) (file : File) (name : Str) (unit : String) : Prop :=
  let sec := "SENSOR_BASE_".toList ++ name
  (Grid rd file sec "scale_factor_c".toList s.scale ∧ s.scale ≠ 0) ∧ Triple rd file sec ("constant_bias_c_" ++ unit).toList s.bias ∧
  Triple rd file sec ("normal_random_standard_deviation_c_" ++ unit).toList s.noise ∧ Triple rd file sec ("random_walk_standard_deviation_c_" ++ unit).toList s.walk ∧
  Triple rd file sec ("random_walk_limit_c_" ++ unit).toList s.walkLimit ∧ Number rd file sec ("range_to_constant_" ++ unit).toList s.toConst ∧
  Number rd file sec ("range_to_zero_" ++ unit).toList s.toZero ∧ 0 ≤ s.toConst ∧ s.toConst ≤ s.toZero

/-- Data sheet of a magnetorquer. -/
structure MtqSheet where
  scale : Mat 3 3
  b2c : Quat
  max : Vec 3
  min : Vec 3
  bias : Vec 3
  walk : Vec 3
  walkLimit : Vec 3
  noise : Vec 3

def MtqSheet.In (s : MtqSheet) (rd : Reader) (file : File) (sec : Str) : Prop :=
  Grid rd file sec "scale_factor_c".toList s.scale ∧ Quaternion rd file sec "quaternion_b2c".toList s.b2c ∧
  Triple rd file sec "max_output_magnetic_moment_c_Am2".toList s.max ∧ Triple rd file sec "min_output_magnetic_moment_c_Am2".toList s.min ∧
  Triple rd file sec "constant_bias_noise_c_Am2".toList s.bias ∧ Triple rd file sec "random_walk_standard_deviation_c_Am2".toList s.walk ∧
  Triple rd file sec "random_walk_limit_c_Am2".toList s.walkLimit ∧ Triple rd file sec "white_noise_standard_deviation_c_Am2".toList s.noise

/-- Data sheet of a star sensor: angles in degrees, times in seconds. -/
structure StarSheet where
  b2c : Quat
  sigmaSight : ℝ
  sigmaOrthogonal : ℝ
  delay : ℝ
  interval : ℝ
  sun : ℝ
  earth : ℝ
  moon : ℝ
  rate : ℝ

def StarSheet.In (s : StarSheet) (rd : Reader) (file : File) (sec : Str) : Prop :=
  Quaternion rd file sec "quaternion_b2c".toList s.b2c ∧ Number rd file sec "standard_deviation_sight_direction_rad".toList s.sigmaSight ∧
  Number rd file sec "standard_deviation_orthogonal_direction_rad".toList s.sigmaOrthogonal ∧ Number rd file sec "output_delay_s".toList s.delay ∧
  Number rd file sec "output_interval_s".toList s.interval ∧ Number rd file sec "sun_exclusion_angle_deg".toList s.sun ∧
  Number rd file sec "earth_exclusion_angle_deg".toList s.earth ∧ Number rd file sec "moon_exclusion_angle_deg".toList s.moon ∧
  Number rd file sec "angular_rate_limit_deg_s".toList s.rate

/-- Data sheet of a sun sensor: angles in degrees, threshold in per cent. -/
structure SunSheet where
  b2c : Quat
  fieldOfView : ℝ
  noise : ℝ
  bias : ℝ
  threshold : ℝ

def SunSheet.In (s : SunSheet) (rd : Reader) (file : File) (sec : Str) : Prop :=
  Quaternion rd file sec "quaternion_b2c".toList s.b2c ∧ Number rd file sec "field_of_view_deg".toList s.fieldOfView ∧
  Number rd file sec "white_noise_standard_deviation_deg".toList s.noise ∧ Number rd file sec "bias_standard_deviation_deg".toList s.bias ∧
  Number rd file sec "intensity_lower_threshold_percent".toList s.threshold

/-- Data sheet of a GNSS receiver. -/
structure GnssSheet where
  model : String
  position : Vec 3
  b2c : Quat
  halfWidth : ℝ
  noisePosition : Vec 3
  noiseVelocity : Vec 3

def GnssSheet.In (s : GnssSheet) (rd : Reader) (file : File) (sec : Str) : Prop :=
  Text rd file sec "antenna_model".toList s.model.toList ∧ Triple rd file sec "antenna_position_b_m".toList s.position ∧
  Quaternion rd file sec "quaternion_b2c".toList s.b2c ∧ Number rd file sec "antenna_half_width_deg".toList s.halfWidth ∧
  Triple rd file sec "white_noise_standard_deviation_position_ecef_m".toList s.noisePosition ∧
  Triple rd file sec "white_noise_standard_deviation_velocity_ecef_m_s".toList s.noiseVelocity

end S2E.Settings
