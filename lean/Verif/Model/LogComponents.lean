import Verif.Model.LogColumns
import Verif.Model.LinAlg
/-!
# `GetLogHeader` and `GetLogValue` of the components

Numbers of type `double` are printed by `fmt` (any function of the precision and the number), whole numbers as decimals, `bool` as 0 or 1.
-/
namespace S2E.LogComponents
open Log LogColumns

/-- The component classes with a log, with the number they carry in their column names. -/
inductive Kind where
  | gyro (id : ℕ)
  | magnetometer (id : ℕ)
  | starSensor (id : ℕ)
  | sunSensor (id : ℕ)
  | gnssReceiver (id : ℕ)
  | magnetorquer (id : ℕ)
  | thruster (id : ℕ)
  | solarPanel (id : ℕ)
  | reactionWheel (id : ℕ)
  | forceGenerator
  | torqueGenerator
  | angularVelocityObserver
  | attitudeObserver
  | orbitObserver
  | battery
  | powerStudy
  | link
  deriving DecidableEq

/-- The members that the logs show. -/
structure Readings where
  angularVelocity : Fin 3 → ℝ
  magneticField : Fin 3 → ℝ
  starQuaternion : Fin 4 → ℝ
  starError : Bool
  sunDirection : Fin 3 → ℝ
  sunDetected : Bool
  year : ℕ
  month : ℕ
  day : ℕ
  hour : ℕ
  minute : ℕ
  second : ℝ
  position : Fin 3 → ℝ
  velocity : Fin 3 → ℝ
  latitude : ℝ
  longitude : ℝ
  altitude : ℝ
  gnssVisible : Bool
  satellites : ℕ
  moment : Fin 3 → ℝ
  torque : Fin 3 → ℝ
  thrust : Fin 3 → ℝ
  thrustTorque : Fin 3 → ℝ
  orderedForce : Fin 3 → ℝ
  forceB : Fin 3 → ℝ
  forceI : Fin 3 → ℝ
  forceRtn : Fin 3 → ℝ
  orderedTorque : Fin 3 → ℝ
  generatedTorque : Fin 3 → ℝ
  observedAngularVelocity : Fin 3 → ℝ
  observedQuaternion : Fin 4 → ℝ
  observedPosition : Fin 3 → ℝ
  observedVelocity : Fin 3 → ℝ
  batteryVoltage : ℝ
  depthOfDischarge : ℝ
  consumption : ℝ
  busVoltage : ℝ
  generation : ℝ
  bitrate : ℝ
  margin : ℝ
  wheelSpeed : ℝ
  wheelSpeedRpm : ℝ
  speedLimitRpm : ℝ
  targetAcceleration : ℝ
  acceleration : ℝ
  jitterForce : Fin 3 → ℝ
  jitterTorque : Fin 3 → ℝ
  jitterLogged : Bool       -- `is_logged_jitter_`, set by the constructor
  jitterCalculated : Bool   -- `is_calculated_jitter_`, set by the constructor

/-- The beginning of the names: `sensor_name`, `head`, `component_name`, … in the `GetLogHeader` functions. -/
def head : Kind → Str
  | .gyro id => "gyro_sensor".toList ++ dec id ++ "_".toList
  | .magnetometer id => "magnetometer".toList ++ dec id ++ "_".toList
  | .starSensor id => "stt".toList ++ dec id ++ "_".toList
  | .sunSensor id => "sun_sensor".toList ++ dec id ++ "_".toList
  | .gnssReceiver id => "gnss_receiver".toList ++ dec id ++ "_".toList
  | .magnetorquer id => "magnetorquer".toList ++ dec id ++ "_".toList
  | .thruster id => "simple_thruster".toList ++ dec id ++ "_".toList
  | .solarPanel id => "sap".toList ++ dec id ++ "_".toList
  | .reactionWheel id => "rw".toList ++ dec id ++ "_".toList
  | .forceGenerator => "ideal_force_generator_".toList
  | .torqueGenerator => "ideal_torque_generator_".toList
  | .angularVelocityObserver => "angular_velocity_observer_".toList
  | .attitudeObserver => "attitude_observer_".toList
  | .orbitObserver => "orbit_observer_".toList
  | .battery => "battery_".toList
  | .powerStudy => "pcu_initial_study_".toList
  | .link => "gs_calculator_".toList

/-- `GetLogHeader`: gyro_sensor.cpp:33-40, magnetometer.cpp:36-43, star_sensor.cpp:186-195, sun_sensor.cpp:137-146, gnss_receiver.cpp:201-222, magnetorquer.cpp:99-108,
simple_thruster.cpp:93-101, solar_array_panel.cpp:88-93, force_generator.cpp:67-77, torque_generator.cpp:45-53, angular_velocity_observer.cpp:21-28,
attitude_observer.cpp:35-42, reaction_wheel.cpp:197-213, orbit_observer.cpp:57-65, battery.cpp:58-64, pcu_initial_study.cpp:40-46, ground_station_calculator.cpp:103-111. -/
def header (r : Readings) (k : Kind) : Str :=
  let h := head k
  match k with
  | .gyro _ => vectorHeader (h ++ "measured_angular_velocity".toList) "c".toList "rad/s".toList 3
  | .magnetometer _ => vectorHeader (h ++ "measured_magnetic_field".toList) "c".toList "nT".toList 3
  | .starSensor _ => quaternionHeader (h ++ "measured_quaternion".toList) "i2c".toList ++ plainHeader (h ++ "error_flag".toList)
  | .sunSensor _ => vectorHeader (h ++ "measured_sun_direction".toList) "c".toList "-".toList 3 ++ scalarHeader (h ++ "sun_detected_flag".toList) "-".toList
  | .gnssReceiver _ =>
      plainHeader (h ++ "measured_utc_time_year".toList) ++ plainHeader (h ++ "measured_utc_time_month".toList) ++ plainHeader (h ++ "measured_utc_time_day".toList) ++
      plainHeader (h ++ "measured_utc_time_hour".toList) ++ plainHeader (h ++ "measured_utc_time_min".toList) ++ plainHeader (h ++ "measured_utc_time_sec".toList) ++
      vectorHeader (h ++ "measured_position".toList) "ecef".toList "m".toList 3 ++ vectorHeader (h ++ "measured_velocity".toList) "ecef".toList "m/s".toList 3 ++
      scalarHeader (h ++ "measured_latitude".toList) "rad".toList ++ scalarHeader (h ++ "measured_longitude".toList) "rad".toList ++
      scalarHeader (h ++ "measured_altitude".toList) "m".toList ++ plainHeader (h ++ "satellite_visible_flag".toList) ++
      plainHeader (h ++ "number_of_visible_satellites".toList)
  | .magnetorquer _ => vectorHeader (h ++ "output_magnetic_moment".toList) "b".toList "Am2".toList 3 ++ vectorHeader (h ++ "output_torque".toList) "b".toList "Nm".toList 3
  | .thruster _ => vectorHeader (h ++ "output_thrust".toList) "b".toList "N".toList 3 ++ vectorHeader (h ++ "output_torque".toList) "b".toList "Nm".toList 3 ++
      scalarHeader (h ++ "output_thrust_norm".toList) "N".toList
  | .solarPanel _ => scalarHeader (h ++ "generated_power".toList) "W".toList
  | .reactionWheel _ => reactionWheelHeader h r.jitterLogged r.jitterCalculated
  | .forceGenerator => vectorHeader (h ++ "ordered_force".toList) "b".toList "N".toList 3 ++ vectorHeader (h ++ "generated_force".toList) "b".toList "N".toList 3 ++
      vectorHeader (h ++ "generated_force".toList) "i".toList "N".toList 3 ++ vectorHeader (h ++ "generated_force".toList) "rtn".toList "N".toList 3
  | .torqueGenerator => vectorHeader (h ++ "ordered_torque".toList) "b".toList "Nm".toList 3 ++ vectorHeader (h ++ "generated_torque".toList) "b".toList "Nm".toList 3
  | .angularVelocityObserver => vectorHeader (h ++ "measured_value".toList) "b".toList "rad/s".toList 3
  | .attitudeObserver => quaternionHeader (h ++ "quaternion".toList) "i2b".toList
  | .orbitObserver => vectorHeader (h ++ "position".toList) "i".toList "m".toList 3 ++ vectorHeader (h ++ "velocity".toList) "i".toList "m/s".toList 3
  | .battery => scalarHeader (h ++ "voltage".toList) "V".toList ++ scalarHeader (h ++ "dod".toList) "%".toList
  | .powerStudy => scalarHeader (h ++ "power_consumption".toList) "W".toList ++ scalarHeader (h ++ "bus_voltage".toList) "V".toList
  | .link => scalarHeader (h ++ "max_bitrate".toList) "Mbps".toList ++ scalarHeader (h ++ "receive_margin".toList) "dB".toList

/-- `WriteScalar` of a whole number, log_utility.hpp:87-92. -/
def wholeValue (n : ℕ) : Str := dec n ++ ",".toList

/-- `WriteScalar` of a `bool`. -/
def boolValue (b : Bool) : Str := wholeValue (if b then 1 else 0)

/-- `double(flag)`. -/
noncomputable def flagNumber (b : Bool) : ℝ := if b then 1 else 0

/-- `GetLogValue`: gyro_sensor.cpp:42-48, magnetometer.cpp:45-51, star_sensor.cpp:197-204, sun_sensor.cpp:148-155, gnss_receiver.cpp:224-242, magnetorquer.cpp:110-116,
simple_thruster.cpp:103-111, solar_array_panel.cpp:95-99, force_generator.cpp:79-88, torque_generator.cpp:55-62, angular_velocity_observer.cpp:30-36,
attitude_observer.cpp:44-50, reaction_wheel.cpp:215-230, orbit_observer.cpp:67-74, battery.cpp:66-71, pcu_initial_study.cpp:48-53, ground_station_calculator.cpp:113-119. -/
noncomputable def value (fmt : ℕ → ℝ → Str) (r : Readings) : Kind → Str
  | .gyro _ => vectorValue fmt 6 r.angularVelocity
  | .magnetometer _ => vectorValue fmt 6 r.magneticField
  | .starSensor _ => quaternionValue fmt 6 r.starQuaternion ++ scalarValue fmt 6 (flagNumber r.starError)
  | .sunSensor _ => vectorValue fmt 6 r.sunDirection ++ scalarValue fmt 6 (flagNumber r.sunDetected)
  | .gnssReceiver _ =>
      wholeValue r.year ++ wholeValue r.month ++ wholeValue r.day ++ wholeValue r.hour ++ wholeValue r.minute ++ scalarValue fmt 6 r.second ++
      vectorValue fmt 10 r.position ++ vectorValue fmt 10 r.velocity ++ scalarValue fmt 10 r.latitude ++ scalarValue fmt 10 r.longitude ++
      scalarValue fmt 10 r.altitude ++ boolValue r.gnssVisible ++ wholeValue r.satellites
  | .magnetorquer _ => vectorValue fmt 6 r.moment ++ vectorValue fmt 6 r.torque
  | .thruster _ => vectorValue fmt 6 r.thrust ++ vectorValue fmt 6 r.thrustTorque ++ scalarValue fmt 6 (calcNorm r.thrust)
  | .solarPanel _ => scalarValue fmt 6 r.generation
  | .reactionWheel _ =>
      reactionWheelValue fmt r.jitterLogged r.jitterCalculated ![r.wheelSpeed, r.wheelSpeedRpm, r.speedLimitRpm, r.targetAcceleration, r.acceleration]
        r.jitterForce r.jitterTorque
  | .forceGenerator => vectorValue fmt 6 r.orderedForce ++ vectorValue fmt 6 r.forceB ++ vectorValue fmt 6 r.forceI ++ vectorValue fmt 6 r.forceRtn
  | .torqueGenerator => vectorValue fmt 6 r.orderedTorque ++ vectorValue fmt 6 r.generatedTorque
  | .angularVelocityObserver => vectorValue fmt 6 r.observedAngularVelocity
  | .attitudeObserver => quaternionValue fmt 6 r.observedQuaternion
  | .orbitObserver => vectorValue fmt 16 r.observedPosition ++ vectorValue fmt 16 r.observedVelocity
  | .battery => scalarValue fmt 6 r.batteryVoltage ++ scalarValue fmt 6 r.depthOfDischarge
  | .powerStudy => scalarValue fmt 6 r.consumption ++ scalarValue fmt 6 r.busVoltage
  | .link => scalarValue fmt 6 r.bitrate ++ scalarValue fmt 6 r.margin

/-- What the logger sees of a component; the user registers it with `AddLogList` (logger.hpp:65) in `Components::LogSetup`. -/
noncomputable def loggable (fmt : ℕ → ℝ → Str) (enabled : Kind → Bool) (r : Kind → Readings) (k : Kind) : Loggable :=
  ⟨enabled k, header (r k) k, value fmt (r k) k⟩

end S2E.LogComponents
