import Verif.Model.InitAttitude
import Verif.Model.Sensor
import Verif.Model.Magnetorquer
import Verif.Model.StarSensor
import Verif.Model.SunSensor
import Verif.Model.GnssReceiver
import Verif.Model.Power
/-!
# Sensors and actuators made from a settings file

The `Init…` functions at the end of `src/components/real/aocs/{magnetometer,gyro_sensor,magnetorquer,star_sensor,sun_sensor,gnss_receiver}.cpp` and of
`src/components/ideal/angular_velocity_observer.cpp`, `ReadSensorInformation` (sensor_template_functions.hpp:80-124), the constructor of
`MtqMagnetometerInterference` and `PowerPort::InitializeWithInitializeFile`. A settings file is as in `Model/InitOrbit`.

`gen k σ` is the normal generator with average 0 and standard deviation `σ` that gets the `k`-th seed drawn from `global_randomization` while the component is
made; `g0` is the state of a generator that gets no seed. Pointers to the environment and the dynamics are inputs of the later calls.
-/
namespace S2E.InitAocs
open Log Ini InitOrbit InitAttitude

/-- `std::to_string(static_cast<long long>(id))`. -/
def idStr (id : ℤ) : Str := if id < 0 then "-".toList ++ dec id.natAbs else dec id.natAbs

/-- A component: the prescaler its base class keeps, its power port (the second overloads get one, the first make their own, component.cpp:10-24) and its own
data. -/
structure Made (α : Type) where
  prescaler : ℕ
  port : PowerPort ℝ
  body : α

/-- `int prescaler = ReadInt(section, "prescaler"); if (prescaler <= 1) prescaler = 1;`, magnetometer.cpp:60-61 and in the same words in every other `Init…`
function. -/
def prescalerOf (rd : Reader) (ini : Str → Option Str) : ℕ := if rd.int ini "prescaler".toList ≤ 1 then 1 else (rd.int ini "prescaler".toList).toNat

/-- `PowerPort::InitializeWithInitializeFile`, power_port.cpp:70-78. -/
noncomputable def initializePort (rd : Reader) (file : File) (p : PowerPort ℝ) : PowerPort ℝ :=
  (p.setMin (readDouble rd.getReal (file "POWER_PORT".toList) "minimum_voltage_V".toList)).setPower
    (readDouble rd.getReal (file "POWER_PORT".toList) "assumed_power_consumption_W".toList)

/-- The port of a component: `none` for the overload without a port (component.cpp:10-16), `some p` for the overload with one, e.g. magnetometer.cpp:92. -/
noncomputable def portOf (rd : Reader) (file : File) : Option (PowerPort ℝ) → PowerPort ℝ
  | none => .newDefault
  | some p => initializePort rd file p

/-- `ReadSensorInformation<3>`, sensor_template_functions.hpp:80-124, with the constructor of the sensor (14-28) and of its random walk
(random_walk_template_functions.hpp:14-21), which takes its seeds first. -/
noncomputable def readSensor {γ : Type} (rd : Reader) (file : File) (step : ℝ) (name unit : Str) (gen : ℕ → ℝ → γ) : SensorBase.Sensor 3 γ :=
  let ini := file ("SENSOR_BASE_".toList ++ name)
  let scale := SensorBase.readScaleFactor 3 fun k => readDouble rd.getReal ini (indexedKey "scale_factor_c".toList k)
  let bias := rd.vec3 ini ("constant_bias_c_".toList ++ unit)
  let noiseStd := rd.vec3 ini ("normal_random_standard_deviation_c_".toList ++ unit)
  let walkStd := rd.vec3 ini ("random_walk_standard_deviation_c_".toList ++ unit)
  let walkLimit := rd.vec3 ini ("random_walk_limit_c_".toList ++ unit)
  let toConst := readDouble rd.getReal ini ("range_to_constant_".toList ++ unit)
  let toZero := readDouble rd.getReal ini ("range_to_zero_".toList ++ unit)
  SensorBase.Sensor.new scale (fun _ => toConst) (fun _ => toZero) bias step walkLimit (fun i => gen (3 + i.val) (noiseStd i)) (fun i => gen i.val (walkStd i))

/-- `InitMagnetometer`, magnetometer.cpp:53-72 and 74-96: the mounting and the sensor. -/
noncomputable def initMagnetometer {γ : Type} (rd : Reader) (file : File) (id : ℤ) (step : ℝ) (gen : ℕ → ℝ → γ) (port : Option (PowerPort ℝ)) :
    Made (Quat × SensorBase.Sensor 3 γ) :=
  let sec := "MAGNETOMETER_".toList ++ idStr id
  let ini := file sec
  let p := prescalerOf rd ini
  ⟨p, portOf rd file port, readQuat rd ini "quaternion_b2c".toList, readSensor rd file (step * p) sec "nT".toList gen⟩

/-- `InitGyroSensor`, gyro_sensor.cpp:50-69 and 71-92. -/
noncomputable def initGyro {γ : Type} (rd : Reader) (file : File) (id : ℤ) (step : ℝ) (gen : ℕ → ℝ → γ) (port : Option (PowerPort ℝ)) :
    Made (Quat × SensorBase.Sensor 3 γ) :=
  let sec := "GYRO_SENSOR_".toList ++ idStr id
  let ini := file sec
  let p := prescalerOf rd ini
  ⟨p, portOf rd file port, readQuat rd ini "quaternion_b2c".toList, readSensor rd file (step * p) sec "rad_s".toList gen⟩

/-- `InitializeAngularVelocityObserver`, angular_velocity_observer.cpp:38-52. -/
noncomputable def initRateObserver {γ : Type} (rd : Reader) (file : File) (step : ℝ) (gen : ℕ → ℝ → γ) : Made (SensorBase.Sensor 3 γ) :=
  let p := prescalerOf rd (file "COMPONENT_BASE".toList)
  ⟨p, .newDefault, readSensor rd file (step * p) "ANGULAR_VELOCITY_OBSERVER".toList "rad_s".toList gen⟩

/-- `InitMagnetorquer`, magnetorquer.cpp:118-161 and 163-209. Only the random walk takes seeds. -/
noncomputable def initMagnetorquer {γ δ : Type} (rd : Reader) (file : File) (id : ℤ) (step : ℝ) (gen : ℕ → ℝ → δ) (g0 : γ) (port : Option (PowerPort ℝ)) :
    Made (Mtq.Mtq γ δ) :=
  let ini := file ("MAGNETORQUER_".toList ++ idStr id)
  let p := prescalerOf rd ini
  let sf : ℕ → ℝ := fun k => readDouble rd.getReal ini (indexedKey "scale_factor_c".toList k)
  let walkStd := rd.vec3 ini "random_walk_standard_deviation_c_Am2".toList
  ⟨p, portOf rd file port,
    Mtq.Mtq.new (readQuat rd ini "quaternion_b2c".toList) (Matrix.of fun i j => sf (i.val * 3 + j.val)) (rd.vec3 ini "max_output_magnetic_moment_c_Am2".toList)
      (rd.vec3 ini "min_output_magnetic_moment_c_Am2".toList) (rd.vec3 ini "constant_bias_noise_c_Am2".toList) (step * p)
      (rd.vec3 ini "random_walk_limit_c_Am2".toList) (fun i => gen i.val (walkStd i)) (rd.vec3 ini "white_noise_standard_deviation_c_Am2".toList) g0⟩

/-- The loop of the constructor of `MtqMagnetometerInterference`, mtq_magnetometer_interference.cpp:22-32, for the given degrees. -/
noncomputable def readCoefficients (rd : Reader) (ini : Str → Option Str) : List ℕ → List (Mat 3 3)
  | [] => []
  | degree :: rest =>
    let v : ℕ → ℝ := fun k => readDouble rd.getReal ini (indexedKey ("additional_bias_by_mtq_coefficients_".toList ++ dec degree) k)
    Matrix.of (fun i j : Fin 3 => v (i.val * 3 + j.val)) :: readCoefficients rd ini rest

/-- The constructor of `MtqMagnetometerInterference`, mtq_magnetometer_interference.cpp:12-33. A negative degree becomes a huge `size_t`; the loop then runs out
of memory (`Res.throws`). -/
noncomputable def initInterference (rd : Reader) (file : File) (id : ℕ) : Res Mtq.Interference :=
  let ini := file ("MTQ_MAGNETOMETER_INTERFERENCE_".toList ++ dec id)
  let degree := rd.int ini "polynomial_degree".toList
  if degree < 0 then .throws else .ok ⟨readCoefficients rd ini (List.range' 1 degree.toNat), fun _ => 0⟩

/-- A star sensor with the standard deviations of its sources around the line of sight and across it. -/
structure StarBody where
  sensor : Star.Sensor
  sigmaSight : ℝ
  sigmaOrthogonal : ℝ

/-- `InitStarSensor`, star_sensor.cpp:221-252 and 254-288. -/
noncomputable def initStar (rd : Reader) (file : File) (id : ℤ) (step : ℝ) (port : Option (PowerPort ℝ)) : Res (Made StarBody) :=
  let ini := file ("STAR_SENSOR_".toList ++ idStr id)
  let d := fun (key : String) => readDouble rd.getReal ini key.toList
  let p := prescalerOf rd ini
  let stepTime := step * p
  (Star.steps (d "output_delay_s") stepTime).bind fun delay =>
    (Star.steps (d "output_interval_s") stepTime).bind fun interval =>
      let config : Star.Config := ⟨readQuat rd ini "quaternion_b2c".toList, d "sun_exclusion_angle_deg" * Real.pi / 180, d "earth_exclusion_angle_deg" * Real.pi / 180,
        d "moon_exclusion_angle_deg" * Real.pi / 180, d "angular_rate_limit_deg_s" * Real.pi / 180⟩
      (Star.Sensor.new config stepTime delay.toNat interval.toNat).bind fun s =>
        .ok ⟨p, portOf rd file port, s, d "standard_deviation_sight_direction_rad", d "standard_deviation_orthogonal_direction_rad"⟩

/-- A sun sensor with the standard deviation of its two white noise sources. -/
structure SunBody where
  sensor : Sun.Sensor
  sigma : ℝ

/-- `InitSunSensor`, sun_sensor.cpp:157-189 and 191-225, with `Initialize` (48-57): both biases are drawn from one generator. -/
noncomputable def initSun {γ : Type} (rd : Reader) (file : File) (id : ℤ) (gen : ℕ → ℝ → γ) (draw : γ → ℝ × γ) (port : Option (PowerPort ℝ)) : Made SunBody :=
  let ini := file ("SUN_SENSOR_".toList ++ idStr id)
  let d := fun (key : String) => readDouble rd.getReal ini key.toList
  let g := gen 0 (d "bias_standard_deviation_deg" * (Real.pi / 180))
  ⟨prescalerOf rd ini, portOf rd file port,
    Sun.Sensor.new (readQuat rd ini "quaternion_b2c".toList) (Real.pi / 180 * d "field_of_view_deg") (d "intensity_lower_threshold_percent") (draw g).1 (draw (draw g).2).1,
    d "white_noise_standard_deviation_deg" * (Real.pi / 180)⟩

/-- A GNSS receiver with its noise sources. -/
structure GnssBody (γ : Type) where
  config : GnssRx.Config
  state : GnssRx.State
  positionNoise : Fin 3 → γ
  velocityNoise : Fin 3 → γ

/-- `InitGnssReceiver`, gnss_receiver.cpp:296-305 and 307-319, with `ReadGnssReceiverIni` (266-294) and the constructor (15-57), which takes the seeds for
position and velocity in turn. -/
noncomputable def initGnss {γ : Type} (rd : Reader) (file : File) (id : ℕ) (satellitesEnabled : Bool) (gen : ℕ → ℝ → γ) (port : Option (PowerPort ℝ)) :
    Made (GnssBody γ) :=
  let ini := file ("GNSS_RECEIVER_".toList ++ dec id)
  let position := rd.vec3 ini "white_noise_standard_deviation_position_ecef_m".toList
  let velocity := rd.vec3 ini "white_noise_standard_deviation_velocity_ecef_m_s".toList
  ⟨prescalerOf rd ini, portOf rd file port,
    ⟨GnssRx.antennaModel (String.ofList (readString rd.paths ini "antenna_model".toList)) satellitesEnabled, rd.vec3 ini "antenna_position_b_m".toList,
      readQuat rd ini "quaternion_b2c".toList, readDouble rd.getReal ini "antenna_half_width_deg".toList⟩,
    GnssRx.State.new, fun i => gen (2 * i.val) (position i), fun i => gen (2 * i.val + 1) (velocity i)⟩

end S2E.InitAocs
