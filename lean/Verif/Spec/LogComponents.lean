import Verif.Model.LogComponents
import Verif.Model.Ini
/-!
# Specification: the columns of every component, by name

`title` is the part of the name that tells the component; `cells` lists the rest of the name (quantity, frame and axis, unit) with the text under it.
-/
namespace S2E.LogComponents
open Log

/-- The class of the component, as it stands in the names. -/
def word : Kind → String
  | .gyro _ => "gyro_sensor"
  | .magnetometer _ => "magnetometer"
  | .starSensor _ => "stt"
  | .sunSensor _ => "sun_sensor"
  | .gnssReceiver _ => "gnss_receiver"
  | .magnetorquer _ => "magnetorquer"
  | .thruster _ => "simple_thruster"
  | .solarPanel _ => "sap"
  | .reactionWheel _ => "rw"
  | .forceGenerator => "ideal_force_generator"
  | .torqueGenerator => "ideal_torque_generator"
  | .angularVelocityObserver => "angular_velocity_observer"
  | .attitudeObserver => "attitude_observer"
  | .orbitObserver => "orbit_observer"
  | .battery => "battery"
  | .powerStudy => "pcu_initial_study"
  | .link => "gs_calculator"

/-- The number in the names, if there is one. -/
def number : Kind → Option ℕ
  | .gyro id | .magnetometer id | .starSensor id | .sunSensor id | .gnssReceiver id | .magnetorquer id | .thruster id | .solarPanel id
  | .reactionWheel id => some id
  | _ => none

/-- `<class><number>_` or `<class>_`. -/
def title (k : Kind) : Str := (word k).toList ++ (match number k with | some id => dec id | none => []) ++ ['_']

/-- Rest of the name, and text. -/
abbrev Cell := String × Str

/-- The three components of a vector. -/
def xyz (text : ℝ → Str) (name unit : String) (v : Fin 3 → ℝ) : List Cell :=
  [(name ++ "_x[" ++ unit ++ "]", text (v 0)), (name ++ "_y[" ++ unit ++ "]", text (v 1)), (name ++ "_z[" ++ unit ++ "]", text (v 2))]

/-- The three components of a vector, and the real part. -/
def xyzw (text : ℝ → Str) (name : String) (q : Fin 4 → ℝ) : List Cell :=
  [(name ++ "_x", text (q 0)), (name ++ "_y", text (q 1)), (name ++ "_z", text (q 2)), (name ++ "_w", text (q 3))]

/-- The columns of a component. -/
noncomputable def cells (fmt : ℕ → ℝ → Str) (r : Readings) : Kind → List Cell
  | .gyro _ => xyz (fmt 6) "measured_angular_velocity_c" "rad/s" r.angularVelocity
  | .magnetometer _ => xyz (fmt 6) "measured_magnetic_field_c" "nT" r.magneticField
  | .starSensor _ => xyzw (fmt 6) "measured_quaternion_i2c" r.starQuaternion ++ [("error_flag", fmt 6 (if r.starError then 1 else 0))]
  | .sunSensor _ => xyz (fmt 6) "measured_sun_direction_c" "-" r.sunDirection ++ [("sun_detected_flag[-]", fmt 6 (if r.sunDetected then 1 else 0))]
  | .gnssReceiver _ =>
      [("measured_utc_time_year", dec r.year), ("measured_utc_time_month", dec r.month), ("measured_utc_time_day", dec r.day),
       ("measured_utc_time_hour", dec r.hour), ("measured_utc_time_min", dec r.minute), ("measured_utc_time_sec", fmt 6 r.second)] ++
      xyz (fmt 10) "measured_position_ecef" "m" r.position ++ xyz (fmt 10) "measured_velocity_ecef" "m/s" r.velocity ++
      [("measured_latitude[rad]", fmt 10 r.latitude), ("measured_longitude[rad]", fmt 10 r.longitude), ("measured_altitude[m]", fmt 10 r.altitude),
       ("satellite_visible_flag", if r.gnssVisible then ['1'] else ['0']), ("number_of_visible_satellites", dec r.satellites)]
  | .magnetorquer _ => xyz (fmt 6) "output_magnetic_moment_b" "Am2" r.moment ++ xyz (fmt 6) "output_torque_b" "Nm" r.torque
  | .thruster _ => xyz (fmt 6) "output_thrust_b" "N" r.thrust ++ xyz (fmt 6) "output_torque_b" "Nm" r.thrustTorque ++
      [("output_thrust_norm[N]", fmt 6 (Real.sqrt (r.thrust 0 ^ 2 + r.thrust 1 ^ 2 + r.thrust 2 ^ 2)))]
  | .solarPanel _ => [("generated_power[W]", fmt 6 r.generation)]
  | .reactionWheel _ =>
      [("angular_velocity[rad/s]", fmt 6 r.wheelSpeed), ("angular_velocity[rpm]", fmt 6 r.wheelSpeedRpm),
       ("angular_velocity_upper_limit[rpm]", fmt 6 r.speedLimitRpm), ("target_angular_acceleration[rad/s2]", fmt 6 r.targetAcceleration),
       ("angular_acceleration[rad/s2]", fmt 6 r.acceleration)] ++
      if r.jitterLogged = true ∧ r.jitterCalculated = true then
        xyz (fmt 6) "jitter_force_c" "N" r.jitterForce ++ xyz (fmt 6) "jitter_torque_c" "Nm" r.jitterTorque else []
  | .forceGenerator => xyz (fmt 6) "ordered_force_b" "N" r.orderedForce ++ xyz (fmt 6) "generated_force_b" "N" r.forceB ++
      xyz (fmt 6) "generated_force_i" "N" r.forceI ++ xyz (fmt 6) "generated_force_rtn" "N" r.forceRtn
  | .torqueGenerator => xyz (fmt 6) "ordered_torque_b" "Nm" r.orderedTorque ++ xyz (fmt 6) "generated_torque_b" "Nm" r.generatedTorque
  | .angularVelocityObserver => xyz (fmt 6) "measured_value_b" "rad/s" r.observedAngularVelocity
  | .attitudeObserver => xyzw (fmt 6) "quaternion_i2b" r.observedQuaternion
  | .orbitObserver => xyz (fmt 16) "position_i" "m" r.observedPosition ++ xyz (fmt 16) "velocity_i" "m/s" r.observedVelocity
  | .battery => [("voltage[V]", fmt 6 r.batteryVoltage), ("dod[%]", fmt 6 r.depthOfDischarge)]
  | .powerStudy => [("power_consumption[W]", fmt 6 r.consumption), ("bus_voltage[V]", fmt 6 r.busVoltage)]
  | .link => [("max_bitrate[Mbps]", fmt 6 r.bitrate), ("receive_margin[dB]", fmt 6 r.margin)]

/-- The table read back from the log file of a run with `n` outputs, when the components `ks` are registered in this order after the spacecraft, and
then `rest`. `r j k` are the readings of component `k` at output `j`. -/
noncomputable def runTable (fmt : ℕ → ℝ → Str) (fmt3 : ℝ → Str) (c : LogColumns.Config) (state : ℕ → LogColumns.State) (enabled : Kind → Bool)
    (r : ℕ → Kind → Readings) (ks : List Kind) (rest : ℕ → List Loggable) (l : Logger) (n : ℕ) : List (List Str) :=
  Ini.readCsvString (LogColumns.writeRun l (fun j => LogColumns.logList fmt fmt3 c (state j) (ks.map (loggable fmt enabled (r j)) ++ rest j)) n).file

end S2E.LogComponents
