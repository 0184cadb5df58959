import Verif.Model.InitAocs
import Verif.Model.Communication
import Verif.Model.Eps
import Verif.Model.Thruster
import Verif.Model.Telescope
import Verif.Model.Ideal
/-!
# Antennas, power components, thrusters, telescopes and ideal components made from a settings file

The `Init…` functions at the end of `src/components/real/communication/{antenna,ground_station_calculator}.cpp`,
`src/components/real/power/{battery,solar_array_panel,pcu_initial_study}.cpp`, `src/components/real/propulsion/simple_thruster.cpp`,
`src/components/real/mission/telescope.cpp` and `src/components/ideal/{torque_generator,force_generator,orbit_observer,attitude_observer}.cpp`. Settings files,
`Made`, `prescalerOf` and `portOf` are as in `Model/InitAocs`; the same simplifications hold.
-/
namespace S2E.InitOthers
open Log Ini InitOrbit InitAttitude InitAocs

/-- What is read besides the entries: `boolean` is the reading of a text by `INIReader::GetBoolean` (a library), `table` the numbers of a CSV file
(`Ini.readCsvDouble` of its text). -/
structure Extra where
  boolean : Str → Bool
  table : Str → Res (List (List ℝ))

/-- `ReadBoolean`, initialize_file_access.cpp:91-103. -/
def readBoolean (ex : Extra) (ini : Str → Option Str) (key : Str) : Bool :=
  match ini key with
  | none => false
  | some raw => ex.boolean raw

/-- `SetAntennaGainModel`, antenna.cpp:100-108. -/
def gainModel (name : Str) : Comm.GainModel :=
  if name = "ISOTROPIC".toList then .isotropic else if name = "RADIATION_PATTERN_CSV".toList then .pattern else .isotropic

/-- The constructor of `AntennaRadiationPattern` with a file, antenna_radiation_pattern.cpp:16-21. A negative length is a huge `size_t` for which `reserve`
throws. -/
noncomputable def readPattern (ex : Extra) (path : Str) (lengthTheta lengthPhi : ℤ) (thetaMax phiMax : ℝ) : Res Comm.Pattern :=
  if lengthTheta < 0 ∨ lengthPhi < 0 then .throws
  else (ex.table path).bind fun t => .ok ⟨lengthTheta.toNat, lengthPhi.toNat, thetaMax, phiMax, t⟩

/-- The default constructor, antenna_radiation_pattern.cpp:14 with antenna_radiation_pattern.hpp:59-62. -/
noncomputable def defaultPattern : Comm.Pattern := ⟨360, 181, 2 * Real.pi, Real.pi, List.replicate 360 (List.replicate 181 0)⟩

/-- The parameters of one direction of a link: antenna.cpp:126-143 (`pre = "tx"`) and 145-163 (`pre = "rx"`, which reads the file first with the default
lengths, 151, and then again). -/
noncomputable def readParams (rd : Reader) (ex : Extra) (ini : Str → Option Str) (pre : Str) (used first : Bool) : Res Comm.Params :=
  let d := fun (key : String) => readDouble rd.getReal ini (pre ++ key.toList)
  let path := readString rd.paths ini (pre ++ "_antenna_radiation_pattern_file".toList)
  if used then
    (if first then readPattern ex path 360 181 (2 * Real.pi) Real.pi else .ok defaultPattern).bind fun _ =>
      (readPattern ex path (rd.int ini (pre ++ "_length_theta".toList)) (rd.int ini (pre ++ "_length_phi".toList)) (d "_theta_max_rad") (d "_phi_max_rad")).bind fun p =>
        .ok ⟨d "_gain_dBi", d "_loss_feeder_dB", d "_loss_pointing_dB", gainModel (readString rd.paths ini (pre ++ "_antenna_gain_model".toList)), p⟩
  else .ok ⟨0, 0, 0, .isotropic, defaultPattern⟩

/-- `InitAntenna`, antenna.cpp:110-168. -/
noncomputable def initAntenna (rd : Reader) (ex : Extra) (file : File) (id : ℤ) : Res Comm.Antenna :=
  let ini := file ("ANTENNA_".toList ++ idStr id)
  let d := fun (key : String) => readDouble rd.getReal ini key.toList
  let isTx := readBoolean ex ini "is_transmitter".toList
  let isRx := readBoolean ex ini "is_receiver".toList
  (readParams rd ex ini "tx".toList isTx false).bind fun tx =>
    (readParams rd ex ini "rx".toList isRx true).bind fun rx =>
      .ok (Comm.Antenna.new (readQuat rd ini "quaternion_b2c".toList) isTx isRx (d "frequency_MHz") (d "tx_bitrate_bps") (d "tx_output_W") tx
        (d "rx_system_noise_temperature_K") rx)

/-- `InitGsCalculator`, ground_station_calculator.cpp:122-140. -/
noncomputable def initGsCalculator (rd : Reader) (file : File) : Comm.Calculator :=
  let d := fun (key : String) => readDouble rd.getReal (file "GROUND_STATION_CALCULATOR".toList) key.toList
  Comm.Calculator.new (d "loss_polarization_dB") (d "loss_atmosphere_dB") (d "loss_rainfall_dB") (d "loss_others_dB") (d "ebn0_dB") (d "hardware_deterioration_dB")
    (d "coding_gain_dB") (d "margin_requirement_dB") (d "downlink_bitrate_bps")

/-- `InitBAT`, battery.cpp:92-134. The returned object is the local one (`elided`, the copy is left out by the compiler) or a copy of it. -/
noncomputable def initBattery (rd : Reader) (file : File) (id : ℤ) (step : ℝ) (elided : Bool) : Eps.Battery ℝ :=
  let ini := file ("BATTERY_".toList ++ idStr id)
  let d := fun (key : String) => readDouble rd.getReal ini key.toList
  let order := rd.int ini "approximation_order".toList
  let coeffs := (List.range (order + 1).toNat).map fun i => readDouble rd.getReal ini (indexedKey "cell_discharge_curve_coefficients".toList i)
  let b := Eps.Battery.make (prescalerOf rd ini) (rd.int ini "number_of_series".toList) (rd.int ini "number_of_parallel".toList) (d "cell_capacity_Ah") coeffs (d "initial_dod")
    (d "constant_charge_current_rate_C") (d "constant_voltage_charge_voltage_V") (d "battery_resistance_Ohm") step
  if elided then b else b.copy

/-- `InitSAP`, solar_array_panel.cpp:120-152 (with the celestial information, `hasLocal`) and 154-185 (without). -/
noncomputable def initPanel (rd : Reader) (file : File) (id : ℤ) (hasLocal : Bool) (step : ℝ) : Made Eps.Panel :=
  let ini := file ("SOLAR_ARRAY_PANEL_".toList ++ idStr id)
  let d := fun (key : String) => readDouble rd.getReal ini key.toList
  ⟨prescalerOf rd ini, .newDefault,
    Eps.Panel.make (rd.int ini "number_of_series".toList) (rd.int ini "number_of_parallel".toList) (d "cell_area_m2") (rd.vec3 ini "normal_vector_b".toList)
      (d "cell_efficiency") (d "transmission_efficiency") hasLocal step⟩

/-- A power control unit: the charge limits it takes from its battery (pcu_initial_study.cpp:14-25), the step, bus voltage and consumption. -/
structure Pcu where
  ccCurrent : ℝ
  cvVoltage : ℝ
  step : ℝ
  bus : ℝ
  consumption : ℝ

/-- `InitPCU_InitialStudy`, pcu_initial_study.cpp:119-131, with the constructor (14-25). -/
noncomputable def initPcu (rd : Reader) (file : File) (id : ℤ) (battery : Eps.Battery ℝ) (step : ℝ) : Made Pcu :=
  ⟨prescalerOf rd (file ("PCU_INITIAL_STUDY_".toList ++ idStr id)), .newDefault, battery.ccCurrent, battery.cvVoltage, step, 0, 0⟩

/-- `InitSimpleThruster`, simple_thruster.cpp:150-181 and 183-216: the step width is read from the file. -/
noncomputable def initThruster {γ : Type} (rd : Reader) (file : File) (id : ℤ) (g0 : γ) (port : Option (PowerPort ℝ)) : Res (Made (Thruster.Thruster γ)) :=
  let ini := file ("THRUSTER_".toList ++ idStr id)
  let d := fun (key : String) => readDouble rd.getReal ini key.toList
  (Thruster.Thruster.new ⟨rd.vec3 ini "thruster_position_b_m".toList, rd.vec3 ini "thruster_direction_b".toList, d "thrust_magnitude_N",
      d "thrust_error_standard_deviation_N", d "direction_error_standard_deviation_deg" * Real.pi / 180, d "dead_time_s", d "time_constant_s", d "step_width_s"⟩ g0).bind
    fun t => .ok ⟨prescalerOf rd ini, portOf rd file port, t⟩

/-- `InitTelescope`, telescope.cpp:247-287. The constructor takes the number of stars as `size_t`: for a negative number its loop (telescope.cpp:47-56) runs out
of memory. The prescaler is 1 (telescope.cpp:20). -/
noncomputable def initTelescope (rd : Reader) (file : File) (id : ℤ) (orbit : Option (Vec 3 × ℝ)) : Res (Made Telescope.Telescope) :=
  let ini := file ("TELESCOPE_".toList ++ idStr id)
  let d := fun (key : String) => readDouble rd.getReal ini key.toList
  let logged := rd.int ini "number_of_stars_for_log".toList
  if logged < 0 then .throws
  else
    (Telescope.Telescope.new ⟨readQuat rd ini "quaternion_b2c".toList, d "sun_exclusion_angle_deg" * Real.pi / 180, d "earth_exclusion_angle_deg" * Real.pi / 180,
      d "moon_exclusion_angle_deg" * Real.pi / 180, rd.int ini "x_number_of_pixel".toList, rd.int ini "y_number_of_pixel".toList, d "x_fov_deg_per_pixel" * Real.pi / 180,
      d "y_fov_deg_per_pixel" * Real.pi / 180, logged.toNat⟩ orbit).bind fun t => .ok ⟨1, .newDefault, t⟩

/-- A generator with its standard deviations of magnitude and direction (rad) and its state. -/
structure Generator (α : Type) where
  sigmaMagnitude : ℝ
  sigmaDirection : ℝ
  state : α

/-- `InitializeTorqueGenerator`, torque_generator.cpp:84-102, with the constructor (14-22). -/
noncomputable def initTorque (rd : Reader) (file : File) : Made (Generator Ideal.Torque) :=
  let d := fun (key : String) => readDouble rd.getReal (file "TORQUE_GENERATOR".toList) key.toList
  ⟨prescalerOf rd (file "COMPONENT_BASE".toList), .newDefault, d "torque_magnitude_standard_deviation_Nm",
    Real.pi / 180 * d "torque_direction_standard_deviation_deg", ⟨fun _ => 0, fun _ => 0⟩⟩

/-- `InitializeForceGenerator`, force_generator.cpp:110-127, with the constructor (14-21). -/
noncomputable def initForce (rd : Reader) (file : File) : Made (Generator Ideal.Force) :=
  let d := fun (key : String) => readDouble rd.getReal (file "FORCE_GENERATOR".toList) key.toList
  ⟨prescalerOf rd (file "COMPONENT_BASE".toList), .newDefault, d "force_magnitude_standard_deviation_N",
    Real.pi / 180 * d "force_direction_standard_deviation_deg", .new⟩

/-- An orbit observer: the frame of its noise (`true` for RTN) and its six noise sources. -/
structure OrbitBody (γ : Type) where
  rtn : Bool
  noise : Fin 6 → γ

/-- `InitializeOrbitObserver`, orbit_observer.cpp:88-105, with the constructor (13-19). -/
noncomputable def initOrbitObserver {γ : Type} (rd : Reader) (file : File) (gen : ℕ → ℝ → γ) : Made (OrbitBody γ) :=
  let ini := file "ORBIT_OBSERVER".toList
  ⟨prescalerOf rd (file "COMPONENT_BASE".toList), .newDefault, Ideal.noiseFrame (String.ofList (readString rd.paths ini "noise_frame".toList)),
    fun i => gen i (readDouble rd.getReal ini (indexedKey "noise_standard_deviation".toList i))⟩

/-- `InitializeAttitudeObserver`, attitude_observer.cpp:52-67: the standard deviation of the error angle (rad). -/
noncomputable def initAttitudeObserver (rd : Reader) (file : File) : Made ℝ :=
  ⟨prescalerOf rd (file "COMPONENT_BASE".toList), .newDefault,
    Real.pi / 180 * readDouble rd.getReal (file "ATTITUDE_OBSERVER".toList) "error_angle_standard_deviation_deg".toList⟩

end S2E.InitOthers
