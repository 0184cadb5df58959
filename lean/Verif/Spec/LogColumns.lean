import Verif.Model.LogColumns
/-!
# Specification: the columns of the log, by name

One entry per column: the name in the first line of the file, and what stands under it.
-/
namespace S2E.LogColumns
open Log

abbrev Column := Str × Str

def col (name : String) (text : Str) : Column := (name.toList, text)

/-- The date and time in UTC: the year in four characters, month, day, hour and minute in two digits, and the seconds down to a millisecond. -/
noncomputable def dateText (fmt3 : ℝ → Str) (s : State) : Str :=
  blank4 s.year ++ "/".toList ++ zero2 s.month ++ "/".toList ++ zero2 s.day ++ " ".toList ++ zero2 s.hour ++ ":".toList ++ zero2 s.minute ++
    ":".toList ++ fmt3 (secFloor s.second)

/-- Three columns `<name>_<frame>_x[<unit>]`, ... -/
def xyz (name tail : String) (text : Fin 3 → Str) : List Column :=
  [(name.toList ++ "_x".toList ++ tail.toList, text 0), (name.toList ++ "_y".toList ++ tail.toList, text 1),
   (name.toList ++ "_z".toList ++ tail.toList, text 2)]

/-- The six columns of a body. -/
def bodyColumns (fmt : ℕ → ℝ → Str) (name : Str) (origin frame : String) (position velocity : ℕ → ℝ) : List Column :=
  [(name ++ ("_position" ++ origin ++ "_" ++ frame ++ "_x[m]").toList, fmt 6 (position 0)),
   (name ++ ("_position" ++ origin ++ "_" ++ frame ++ "_y[m]").toList, fmt 6 (position 1)),
   (name ++ ("_position" ++ origin ++ "_" ++ frame ++ "_z[m]").toList, fmt 6 (position 2)),
   (name ++ ("_velocity" ++ origin ++ "_" ++ frame ++ "_x[m/s]").toList, fmt 6 (velocity 0)),
   (name ++ ("_velocity" ++ origin ++ "_" ++ frame ++ "_y[m/s]").toList, fmt 6 (velocity 1)),
   (name ++ ("_velocity" ++ origin ++ "_" ++ frame ++ "_z[m/s]").toList, fmt 6 (velocity 2))]

/-- One column of every thermal node that is not a boundary. -/
def nodeColumns (nodes : List NodeInfo) (label unit : String) (text : ℕ → Str) : List Column :=
  nodes.zipIdx.flatMap (fun x => if x.1.isBoundary then [] else
    [(label.toList ++ dec x.1.id ++ (" (".toList ++ x.1.name ++ (")[" ++ unit ++ "]").toList), text x.2)])

/-- The columns of a part. -/
noncomputable def columns (fmt : ℕ → ℝ → Str) (fmt3 : ℝ → Str) (c : Config) (s : State) : Part → List Column
  | .time => [col "elapsed_time[s]" (fmt 6 s.elapsed), col "time[UTC]" (dateText fmt3 s)]
  | .celestial => c.bodies.zipIdx.flatMap (fun b => bodyColumns fmt b.1 "" "i" (fun j => s.bodyPosition (b.2 * 3 + j)) (fun j => s.bodyVelocity (b.2 * 3 + j)))
  | .gnss => (List.range 32).flatMap (fun i =>
      [("GPS".toList ++ dec i ++ "_position_ecef_x[m]".toList, fmt 16 (s.gnssPosition i 0)),
       ("GPS".toList ++ dec i ++ "_position_ecef_y[m]".toList, fmt 16 (s.gnssPosition i 1)),
       ("GPS".toList ++ dec i ++ "_position_ecef_z[m]".toList, fmt 16 (s.gnssPosition i 2)),
       ("GPS".toList ++ dec i ++ "_clock_offset[s]".toList, fmt 6 (s.gnssClock i))])
  | .attitude => xyz "spacecraft_angular_velocity_b" "[rad/s]" (fun i => fmt 6 (s.angularVelocity i)) ++
      [col "spacecraft_quaternion_i2b_x" (fmt 6 (s.quaternion 0)), col "spacecraft_quaternion_i2b_y" (fmt 6 (s.quaternion 1)),
       col "spacecraft_quaternion_i2b_z" (fmt 6 (s.quaternion 2)), col "spacecraft_quaternion_i2b_w" (fmt 6 (s.quaternion 3))] ++
      xyz "spacecraft_torque_b" "[Nm]" (fun i => fmt 6 (s.torque i)) ++
      [col "spacecraft_total_angular_momentum[Nms]" (fmt 6 s.angularMomentum), col "spacecraft_kinematic_energy[J]" (fmt 6 s.kineticEnergy)] ++
      if c.cantilever then xyz "euler_angular_cantilever_c" "[rad]" (fun i => fmt 6 (s.eulerCantilever i)) ++
        xyz "angular_velocity_cantilever_c" "[rad/s]" (fun i => fmt 6 (s.angularVelocityCantilever i)) else []
  | .orbit => xyz "spacecraft_position_i" "[m]" (fun i => fmt 16 (s.positionI i)) ++ xyz "spacecraft_position_ecef" "[m]" (fun i => fmt 16 (s.positionEcef i)) ++
      xyz "spacecraft_velocity_i" "[m/s]" (fun i => fmt 10 (s.velocityI i)) ++ xyz "spacecraft_velocity_b" "[m/s]" (fun i => fmt 10 (s.velocityB i)) ++
      xyz "spacecraft_acceleration_i" "[m/s2]" (fun i => fmt 10 (s.accelerationI i)) ++
      [col "spacecraft_latitude[rad]" (fmt 6 s.latitude), col "spacecraft_longitude[rad]" (fmt 6 s.longitude), col "spacecraft_altitude[m]" (fmt 6 s.altitude)]
  | .temperature => nodeColumns c.nodes "temp_" "deg" (fun i => fmt 6 (s.thermal i 0)) ++ nodeColumns c.nodes "heat_" "W" (fun i => fmt 6 (s.thermal i 1)) ++
      nodeColumns c.nodes "solar_" "W" (fun i => fmt 6 (s.thermal i 2)) ++ nodeColumns c.nodes "albedo_" "W" (fun i => fmt 6 (s.thermal i 3)) ++
      nodeColumns c.nodes "earthIR_" "W" (fun i => fmt 6 (s.thermal i 4))
  | .geomagnetic => xyz "geomagnetic_field_at_spacecraft_position_i" "[nT]" (fun i => fmt 6 (s.magneticFieldI i)) ++
      xyz "geomagnetic_field_at_spacecraft_position_b" "[nT]" (fun i => fmt 6 (s.magneticFieldB i))
  | .radiation => [col "solar_radiation_pressure_at_spacecraft_position[N/m2]" (fmt 6 (s.pressure * s.shadow)),
      col "shadow_coefficient_at_spacecraft_position" (fmt 6 s.shadow)]
  | .albedo => [col "earth_albedo_factor" (fmt 6 s.albedoFactor), col "earth_albedo_W_m2" (fmt 6 s.albedoPower)]
  | .infrared => [col "earth_infrared_temperature_hot_side_K" (fmt 6 s.infraredHot), col "earth_infrared_temperature_cold_side_K" (fmt 6 s.infraredCold),
      col "earth_infrared_W_m2" (fmt 6 s.infraredPower)]
  | .atmosphere => [col "air_density_at_spacecraft_position[kg/m3]" (fmt 6 s.airDensity)]
  | .localCelestial => c.bodies.zipIdx.flatMap (fun b =>
      bodyColumns fmt b.1 "_from_spacecraft" "b" (fun j => s.localPosition (b.2 * 3 + j)) (fun j => s.localVelocity (b.2 * 3 + j)))
  | .gravityGradient => xyz "gravity_gradient_torque_b" "[Nm]" (fun i => fmt 6 (s.gravityGradientTorque i))
  | .radiationPressure => xyz "srp_torque_b" "[Nm]" (fun i => fmt 6 (s.radiationTorque i)) ++ xyz "srp_force_b" "[N]" (fun i => fmt 6 (s.radiationForce i))
  | .thirdBody => xyz "third_body_acceleration_i" "[m/s2]" (fun i => fmt 6 (s.thirdBodyAcceleration i))
  | .lunar => xyz "lunar_gravity_acceleration_mcmf" "[m/s2]" (fun i => fmt 15 (s.lunarAcceleration i))
  | .airDrag => xyz "air_drag_torque_b" "[Nm]" (fun i => fmt 6 (s.airDragTorque i)) ++ xyz "air_drag_force_b" "[N]" (fun i => fmt 6 (s.airDragForce i))
  | .magnetic => xyz "spacecraft_magnetic_moment_b" "[Am2]" (fun i => fmt 6 (s.magneticMoment i)) ++
      xyz "magnetic_disturbance_torque_b" "[Nm]" (fun i => fmt 6 (s.magneticTorque i))
  | .geopotential => xyz "geopotential_acceleration_ecef" "[m/s2]" (fun i => fmt 15 (s.geopotentialAcceleration i))

/-- The parts that are logged for a centre body. -/
def Logged (center : Str) : Part → Prop
  | .lunar => center = "MOON".toList
  | .airDrag | .magnetic | .geopotential => center = "EARTH".toList
  | _ => True

/-- What stands under the first column with the given name in line `k` of the values of a table. -/
def byName (table : List (List Str)) (name : Str) (k : ℕ) : Option Str :=
  match table[0]?, table[k + 1]? with
  | some names, some cells => cells[names.idxOf name]?
  | _, _ => none

end S2E.LogColumns
