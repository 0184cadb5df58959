import Verif.Spec.Settings
import Verif.Model.InitOthers
/-!
# Specification: data sheets of antennas, batteries, panels, thrusters and telescopes and how they are written in a settings file
-/
namespace S2E.Settings
open Log InitOrbit InitOthers

/-- The entry is there and is read as the truth value `b`. -/
def Flag (ex : Extra) (file : File) (sec key : Str) (b : Bool) : Prop := ∃ text, file sec key = some text ∧ ex.boolean text = b

/-- One direction of a radio link: gain and losses in dB, the word for the gain model, the grid of the table and the table. -/
structure LinkSheet where
  gain : ℝ
  feeder : ℝ
  pointing : ℝ
  model : Str
  lengthTheta : ℕ
  lengthPhi : ℕ
  thetaMax : ℝ
  phiMax : ℝ
  table : List (List ℝ)

/-- The keys begin with `tx` or `rx`; the table is in the file whose name is given. -/
def LinkSheet.In (s : LinkSheet) (rd : Reader) (ex : Extra) (file : File) (sec : Str) (pre : String) : Prop :=
  Number rd file sec (pre ++ "_gain_dBi").toList s.gain ∧ Number rd file sec (pre ++ "_loss_feeder_dB").toList s.feeder ∧
  Number rd file sec (pre ++ "_loss_pointing_dB").toList s.pointing ∧ Text rd file sec (pre ++ "_antenna_gain_model").toList s.model ∧
  Integer rd file sec (pre ++ "_length_theta").toList s.lengthTheta ∧ Integer rd file sec (pre ++ "_length_phi").toList s.lengthPhi ∧
  Number rd file sec (pre ++ "_theta_max_rad").toList s.thetaMax ∧ Number rd file sec (pre ++ "_phi_max_rad").toList s.phiMax ∧
  ∃ path, Text rd file sec (pre ++ "_antenna_radiation_pattern_file").toList path ∧ ex.table path = .ok s.table

/-- Data sheet of an antenna; the sheet of a direction that is not used is `none`. -/
structure AntennaSheet where
  b2c : Quat
  frequency : ℝ
  bitrate : ℝ
  power : ℝ
  temperature : ℝ
  tx : Option LinkSheet
  rx : Option LinkSheet

def AntennaSheet.In (s : AntennaSheet) (rd : Reader) (ex : Extra) (file : File) (sec : Str) : Prop :=
  Quaternion rd file sec "quaternion_b2c".toList s.b2c ∧ Number rd file sec "frequency_MHz".toList s.frequency ∧ Number rd file sec "tx_bitrate_bps".toList s.bitrate ∧
  Number rd file sec "tx_output_W".toList s.power ∧ Number rd file sec "rx_system_noise_temperature_K".toList s.temperature ∧
  Flag ex file sec "is_transmitter".toList s.tx.isSome ∧ Flag ex file sec "is_receiver".toList s.rx.isSome ∧
  (∀ l, s.tx = some l → l.In rd ex file sec "tx") ∧ ∀ l, s.rx = some l → l.In rd ex file sec "rx"

/-- Data sheet of the link calculator. -/
structure CalculatorSheet where
  polarization : ℝ
  atmosphere : ℝ
  rainfall : ℝ
  others : ℝ
  ebn0 : ℝ
  deterioration : ℝ
  codingGain : ℝ
  margin : ℝ
  bitrate : ℝ

def CalculatorSheet.In (s : CalculatorSheet) (rd : Reader) (file : File) : Prop :=
  let sec := "GROUND_STATION_CALCULATOR".toList
  Number rd file sec "loss_polarization_dB".toList s.polarization ∧ Number rd file sec "loss_atmosphere_dB".toList s.atmosphere ∧
  Number rd file sec "loss_rainfall_dB".toList s.rainfall ∧ Number rd file sec "loss_others_dB".toList s.others ∧ Number rd file sec "ebn0_dB".toList s.ebn0 ∧
  Number rd file sec "hardware_deterioration_dB".toList s.deterioration ∧ Number rd file sec "coding_gain_dB".toList s.codingGain ∧
  Number rd file sec "margin_requirement_dB".toList s.margin ∧ Number rd file sec "downlink_bitrate_bps".toList s.bitrate

/-- Data sheet of a battery: cells in series and parallel, capacity of a cell, its discharge curve, depth of discharge in per cent, charge limits, resistance. -/
structure BatterySheet where
  series : ℤ
  parallel : ℤ
  capacity : ℝ
  curve : List ℝ
  dod : ℝ
  ccRate : ℝ
  cvVoltage : ℝ
  resistance : ℝ

def BatterySheet.In (s : BatterySheet) (rd : Reader) (file : File) (sec : Str) : Prop :=
  Integer rd file sec "number_of_series".toList s.series ∧ Integer rd file sec "number_of_parallel".toList s.parallel ∧
  Number rd file sec "cell_capacity_Ah".toList s.capacity ∧ Integer rd file sec "approximation_order".toList (s.curve.length - 1) ∧
  (∀ k (hk : k < s.curve.length), Number rd file sec ("cell_discharge_curve_coefficients(".toList ++ dec k ++ ")".toList) s.curve[k]) ∧
  Number rd file sec "initial_dod".toList s.dod ∧ Number rd file sec "constant_charge_current_rate_C".toList s.ccRate ∧
  Number rd file sec "constant_voltage_charge_voltage_V".toList s.cvVoltage ∧ Number rd file sec "battery_resistance_Ohm".toList s.resistance

/-- Data sheet of a solar panel. -/
structure PanelSheet where
  series : ℤ
  parallel : ℤ
  area : ℝ
  normal : Vec 3
  efficiency : ℝ
  transmission : ℝ

def PanelSheet.In (s : PanelSheet) (rd : Reader) (file : File) (sec : Str) : Prop :=
  Integer rd file sec "number_of_series".toList s.series ∧ Integer rd file sec "number_of_parallel".toList s.parallel ∧ Number rd file sec "cell_area_m2".toList s.area ∧
  Triple rd file sec "normal_vector_b".toList s.normal ∧ Number rd file sec "cell_efficiency".toList s.efficiency ∧
  Number rd file sec "transmission_efficiency".toList s.transmission

/-- Data sheet of a thruster; the error of the direction is in degrees. -/
structure ThrusterSheet where
  position : Vec 3
  direction : Vec 3
  thrust : ℝ
  sigmaThrust : ℝ
  sigmaDirection : ℝ
  deadTime : ℝ
  timeConstant : ℝ
  step : ℝ

def ThrusterSheet.In (s : ThrusterSheet) (rd : Reader) (file : File) (sec : Str) : Prop :=
  Triple rd file sec "thruster_position_b_m".toList s.position ∧ Triple rd file sec "thruster_direction_b".toList s.direction ∧
  Number rd file sec "thrust_magnitude_N".toList s.thrust ∧ Number rd file sec "thrust_error_standard_deviation_N".toList s.sigmaThrust ∧
  Number rd file sec "direction_error_standard_deviation_deg".toList s.sigmaDirection ∧ Number rd file sec "dead_time_s".toList s.deadTime ∧
  Number rd file sec "time_constant_s".toList s.timeConstant ∧ Number rd file sec "step_width_s".toList s.step

/-- Data sheet of a telescope: angles in degrees, pixels and degrees per pixel in two directions, number of stars in the log. -/
structure TelescopeSheet where
  b2c : Quat
  sun : ℝ
  earth : ℝ
  moon : ℝ
  nx : ℤ
  ny : ℤ
  px : ℝ
  py : ℝ
  stars : ℕ

def TelescopeSheet.In (s : TelescopeSheet) (rd : Reader) (file : File) (sec : Str) : Prop :=
  Quaternion rd file sec "quaternion_b2c".toList s.b2c ∧ Number rd file sec "sun_exclusion_angle_deg".toList s.sun ∧ Number rd file sec "earth_exclusion_angle_deg".toList s.earth ∧
  Number rd file sec "moon_exclusion_angle_deg".toList s.moon ∧ Integer rd file sec "x_number_of_pixel".toList s.nx ∧ Integer rd file sec "y_number_of_pixel".toList s.ny ∧
  Number rd file sec "x_fov_deg_per_pixel".toList s.px ∧ Number rd file sec "y_fov_deg_per_pixel".toList s.py ∧ Integer rd file sec "number_of_stars_for_log".toList s.stars

end S2E.Settings
