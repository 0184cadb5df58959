import Verif.Model.Log
import Mathlib.Data.Real.Archimedean
/-!
# The log of one spacecraft: `GetLogHeader` and `GetLogValue` of the simulation time, the global environment, the dynamics, the local environment
and the disturbances, and the order in which they are registered

The quantities are real numbers; printing one with a precision is an arbitrary function `fmt`, printing one with `%.3f` an arbitrary function
`fmt3`. The debug columns of `DEBUG_GEOPOTENTIAL` and `DEBUG_LUNAR_GRAVITY_FIELD` are not compiled by default and not modelled.
-/
namespace S2E.LogColumns
open Log

abbrev Vec := Fin 3 → ℝ

/-- The objects that are registered in the log list. -/
inductive Part
  | time | celestial | gnss | attitude | orbit | temperature | geomagnetic | radiation | albedo | infrared | atmosphere | localCelestial
  | gravityGradient | radiationPressure | thirdBody | lunar | airDrag | magnetic | geopotential
  deriving DecidableEq

/-- What does not change during a run: names of the selected bodies (in lower case), the centre body, the thermal nodes, whether the attitude is
the one with a cantilever, and the log flag of every part. -/
structure Config where
  bodies : List Str
  center : Str
  nodes : List NodeInfo
  cantilever : Bool
  enabled : Part → Bool

/-- The quantities that are logged. -/
structure State where
  elapsed : ℝ
  year : ℤ
  month : ℤ
  day : ℤ
  hour : ℤ
  minute : ℤ
  second : ℝ
  bodyPosition : ℕ → ℝ        -- flat array of length 3 * number of bodies
  bodyVelocity : ℕ → ℝ
  gnssPosition : ℕ → Vec
  gnssClock : ℕ → ℝ
  angularVelocity : Vec
  quaternion : Fin 4 → ℝ
  torque : Vec
  angularMomentum : ℝ
  kineticEnergy : ℝ
  eulerCantilever : Vec
  angularVelocityCantilever : Vec
  positionI : Vec
  positionEcef : Vec
  velocityI : Vec
  velocityB : Vec
  accelerationI : Vec
  latitude : ℝ
  longitude : ℝ
  altitude : ℝ
  thermal : ℕ → Fin 5 → ℝ     -- of node i: temperature, heat load, solar, albedo, infrared
  magneticFieldI : Vec
  magneticFieldB : Vec
  pressure : ℝ
  shadow : ℝ
  albedoFactor : ℝ
  albedoPower : ℝ
  infraredHot : ℝ
  infraredCold : ℝ
  infraredPower : ℝ
  airDensity : ℝ
  localPosition : ℕ → ℝ       -- flat array of length 3 * number of bodies
  localVelocity : ℕ → ℝ
  gravityGradientTorque : Vec
  radiationTorque : Vec
  radiationForce : Vec
  thirdBodyAcceleration : Vec
  lunarAcceleration : Vec
  airDragTorque : Vec
  airDragForce : Vec
  magneticMoment : Vec
  magneticTorque : Vec
  geopotentialAcceleration : Vec

/-- `%d` of an `int`. -/
def decInt : ℤ → Str
  | .ofNat n => dec n
  | .negSucc n => '-' :: dec (n + 1)

/-- `%4d`: blanks on the left up to four characters. -/
def blank4 (z : ℤ) : Str := List.replicate (4 - (decInt z).length) ' ' ++ decInt z

/-- `%02d`: zeros on the left up to two characters (a negative number has two characters at least). -/
def zero2 (z : ℤ) : Str := List.replicate (2 - (decInt z).length) '0' ++ decInt z

/-- `sec_floor`, simulation_time.cpp:220. -/
noncomputable def secFloor (x : ℝ) : ℝ := (⌊x * 1000⌋ : ℝ) / 1000

/-- `WriteScalar(name)` of a string: printed as it is, log_utility.hpp:87-92. -/
def plainHeader (name : Str) : Str := scalarValue (fun _ (x : Str) => x) 6 name

/-- `SimulationTime::GetLogHeader`, simulation_time.cpp:204-211. -/
def timeHeader : Str := scalarHeader "elapsed_time".toList "s".toList ++ scalarHeader "time".toList "UTC".toList

/-- `SimulationTime::GetLogValue`, simulation_time.cpp:213-227: `snprintf` keeps 99 characters at most. -/
noncomputable def timeValue (fmt : ℕ → ℝ → Str) (fmt3 : ℝ → Str) (s : State) : Str :=
  scalarValue fmt 6 s.elapsed ++
  (blank4 s.year ++ "/".toList ++ zero2 s.month ++ "/".toList ++ zero2 s.day ++ " ".toList ++ zero2 s.hour ++ ":".toList ++ zero2 s.minute ++
    ":".toList ++ fmt3 (secFloor s.second) ++ ",".toList).take 99

/-- `Attitude::GetLogHeader`, attitude.cpp:24-34; with a cantilever attitude_with_cantilever_vibration.cpp:47-54. -/
def attitudeHeader (cantilever : Bool) : Str :=
  vectorHeader "spacecraft_angular_velocity".toList "b".toList "rad/s".toList 3 ++ quaternionHeader "spacecraft_quaternion".toList "i2b".toList ++
  vectorHeader "spacecraft_torque".toList "b".toList "Nm".toList 3 ++ scalarHeader "spacecraft_total_angular_momentum".toList "Nms".toList ++
  scalarHeader "spacecraft_kinematic_energy".toList "J".toList ++
  if cantilever then vectorHeader "euler_angular_cantilever".toList "c".toList "rad".toList 3 ++
    vectorHeader "angular_velocity_cantilever".toList "c".toList "rad/s".toList 3 else []

/-- `Attitude::GetLogValue`, attitude.cpp:36-46; with a cantilever attitude_with_cantilever_vibration.cpp:56-63. -/
def attitudeValue (fmt : ℕ → ℝ → Str) (cantilever : Bool) (s : State) : Str :=
  vectorValue fmt 6 s.angularVelocity ++ quaternionValue fmt 6 s.quaternion ++ vectorValue fmt 6 s.torque ++ scalarValue fmt 6 s.angularMomentum ++
  scalarValue fmt 6 s.kineticEnergy ++
  if cantilever then vectorValue fmt 6 s.eulerCantilever ++ vectorValue fmt 6 s.angularVelocityCantilever else []

/-- `Orbit::GetLogHeader`, orbit.cpp:69-82. -/
def orbitHeader : Str :=
  vectorHeader "spacecraft_position".toList "i".toList "m".toList 3 ++ vectorHeader "spacecraft_position".toList "ecef".toList "m".toList 3 ++
  vectorHeader "spacecraft_velocity".toList "i".toList "m/s".toList 3 ++ vectorHeader "spacecraft_velocity".toList "b".toList "m/s".toList 3 ++
  vectorHeader "spacecraft_acceleration".toList "i".toList "m/s2".toList 3 ++ scalarHeader "spacecraft_latitude".toList "rad".toList ++
  scalarHeader "spacecraft_longitude".toList "rad".toList ++ scalarHeader "spacecraft_altitude".toList "m".toList

/-- `Orbit::GetLogValue`, orbit.cpp:84-97. -/
def orbitValue (fmt : ℕ → ℝ → Str) (s : State) : Str :=
  vectorValue fmt 16 s.positionI ++ vectorValue fmt 16 s.positionEcef ++ vectorValue fmt 10 s.velocityI ++ vectorValue fmt 10 s.velocityB ++
  vectorValue fmt 10 s.accelerationI ++ scalarValue fmt 6 s.latitude ++ scalarValue fmt 6 s.longitude ++ scalarValue fmt 6 s.altitude

/-- `Temperature::GetLogValue`, temperature.cpp:243-276, with the values of node `i` at place `i`. -/
def thermalValue (fmt : ℕ → ℝ → Str) (nodes : List NodeInfo) (s : State) : Str :=
  temperatureValue fmt (nodes.zipIdx.map (fun x => (x.1, s.thermal x.2)))

/-- The `GetLogHeader` functions: geomagnetic_field.cpp:57-64, solar_radiation_pressure_environment.cpp:42-49, earth_albedo.cpp:27-34,
earth_infrared.cpp:27-35, atmosphere.cpp:96-102, gravity_gradient.cpp:38-44, solar_radiation_pressure_disturbance.cpp:39-46,
third_body_gravity.cpp:47-52, lunar_gravity_field.cpp:116-126, air_drag.cpp:80-87, magnetic_disturbance.cpp:49-56, geopotential.cpp:93-103, and
those above and in `Model/Log`. -/
def header (c : Config) : Part → Str
  | .time => timeHeader
  | .celestial => celestialHeader "".toList "i".toList c.bodies
  | .gnss => gnssHeader
  | .attitude => attitudeHeader c.cantilever
  | .orbit => orbitHeader
  | .temperature => temperatureHeader c.nodes
  | .geomagnetic => vectorHeader "geomagnetic_field_at_spacecraft_position".toList "i".toList "nT".toList 3 ++
      vectorHeader "geomagnetic_field_at_spacecraft_position".toList "b".toList "nT".toList 3
  | .radiation => scalarHeader "solar_radiation_pressure_at_spacecraft_position".toList "N/m2".toList ++
      plainHeader "shadow_coefficient_at_spacecraft_position".toList
  | .albedo => plainHeader "earth_albedo_factor".toList ++ plainHeader "earth_albedo_W_m2".toList
  | .infrared => plainHeader "earth_infrared_temperature_hot_side_K".toList ++ plainHeader "earth_infrared_temperature_cold_side_K".toList ++
      plainHeader "earth_infrared_W_m2".toList
  | .atmosphere => scalarHeader "air_density_at_spacecraft_position".toList "kg/m3".toList
  | .localCelestial => celestialHeader "_from_spacecraft".toList "b".toList c.bodies
  | .gravityGradient => vectorHeader "gravity_gradient_torque".toList "b".toList "Nm".toList 3
  | .radiationPressure => vectorHeader "srp_torque".toList "b".toList "Nm".toList 3 ++ vectorHeader "srp_force".toList "b".toList "N".toList 3
  | .thirdBody => vectorHeader "third_body_acceleration".toList "i".toList "m/s2".toList 3
  | .lunar => vectorHeader "lunar_gravity_acceleration".toList "mcmf".toList "m/s2".toList 3
  | .airDrag => vectorHeader "air_drag_torque".toList "b".toList "Nm".toList 3 ++ vectorHeader "air_drag_force".toList "b".toList "N".toList 3
  | .magnetic => vectorHeader "spacecraft_magnetic_moment".toList "b".toList "Am2".toList 3 ++
      vectorHeader "magnetic_disturbance_torque".toList "b".toList "Nm".toList 3
  | .geopotential => vectorHeader "geopotential_acceleration".toList "ecef".toList "m/s2".toList 3

/-- The `GetLogValue` functions: geomagnetic_field.cpp:66-73, solar_radiation_pressure_environment.cpp:51-58, earth_albedo.cpp:36-43,
earth_infrared.cpp:37-45, atmosphere.cpp:89-94, gravity_gradient.cpp:46-52, solar_radiation_pressure_disturbance.cpp:48-55,
third_body_gravity.cpp:54-59, lunar_gravity_field.cpp:128-139, air_drag.cpp:89-96, magnetic_disturbance.cpp:58-65, geopotential.cpp:105-116, and
those above and in `Model/Log`. -/
noncomputable def value (fmt : ℕ → ℝ → Str) (fmt3 : ℝ → Str) (c : Config) (s : State) : Part → Str
  | .time => timeValue fmt fmt3 s
  | .celestial => celestialValue fmt c.bodies.length s.bodyPosition s.bodyVelocity
  | .gnss => gnssValue fmt s.gnssPosition s.gnssClock
  | .attitude => attitudeValue fmt c.cantilever s
  | .orbit => orbitValue fmt s
  | .temperature => thermalValue fmt c.nodes s
  | .geomagnetic => vectorValue fmt 6 s.magneticFieldI ++ vectorValue fmt 6 s.magneticFieldB
  | .radiation => scalarValue fmt 6 (s.pressure * s.shadow) ++ scalarValue fmt 6 s.shadow
  | .albedo => scalarValue fmt 6 s.albedoFactor ++ scalarValue fmt 6 s.albedoPower
  | .infrared => scalarValue fmt 6 s.infraredHot ++ scalarValue fmt 6 s.infraredCold ++ scalarValue fmt 6 s.infraredPower
  | .atmosphere => scalarValue fmt 6 s.airDensity
  | .localCelestial => celestialValue fmt c.bodies.length s.localPosition s.localVelocity
  | .gravityGradient => vectorValue fmt 6 s.gravityGradientTorque
  | .radiationPressure => vectorValue fmt 6 s.radiationTorque ++ vectorValue fmt 6 s.radiationForce
  | .thirdBody => vectorValue fmt 6 s.thirdBodyAcceleration
  | .lunar => vectorValue fmt 15 s.lunarAcceleration
  | .airDrag => vectorValue fmt 6 s.airDragTorque ++ vectorValue fmt 6 s.airDragForce
  | .magnetic => vectorValue fmt 6 s.magneticMoment ++ vectorValue fmt 6 s.magneticTorque
  | .geopotential => vectorValue fmt 15 s.geopotentialAcceleration

/-- `GlobalEnvironment::LogSetup`, global_environment.cpp:42-46. -/
def globalParts : List Part := [.time, .celestial, .gnss]

/-- `Disturbances::InitializeInstances`, disturbances.cpp:61-97: the list that `LogSetup` (54-59) registers. -/
def disturbanceParts (center : Str) : List Part :=
  [.gravityGradient, .radiationPressure, .thirdBody] ++ (if center = "MOON".toList then [.lunar] else []) ++
    if center ≠ "EARTH".toList then [] else [.airDrag, .magnetic, .geopotential]

/-- `Spacecraft::LogSetup` without the components, spacecraft.cpp:48-51: dynamics.cpp:65-69, local_environment.cpp:77-84 and the disturbances. -/
def spacecraftParts (center : Str) : List Part :=
  [.attitude, .orbit, .temperature] ++ [.geomagnetic, .radiation, .albedo, .infrared, .atmosphere, .localCelestial] ++ disturbanceParts center

/-- What the logger sees of a part. -/
noncomputable def loggable (fmt : ℕ → ℝ → Str) (fmt3 : ℝ → Str) (c : Config) (s : State) (p : Part) : Loggable :=
  ⟨c.enabled p, header c p, value fmt fmt3 c s p⟩

/-- The log list of a simulation: the global environment, registered first (simulation_case.cpp:108), the spacecraft, and whatever is registered
after them (the components of the spacecraft, more spacecraft, ground stations, ...). -/
noncomputable def logList (fmt : ℕ → ℝ → Str) (fmt3 : ℝ → Str) (c : Config) (s : State) (others : List Loggable) : List Loggable :=
  (globalParts ++ spacecraftParts c.center).map (loggable fmt fmt3 c s) ++ others

/-- The log of a simulation: the headers once (`Initialize`, simulation_case.cpp:48), and the values at every output of `Main` (58-61). `list k` is
what the log list shows at output `k`. -/
def writeRun (l : Logger) (list : ℕ → List Loggable) : ℕ → Logger
  | 0 => Logger.writeHeaders { l with logList := list 0 } true
  | n + 1 => Logger.writeValues { writeRun l list n with logList := list n } true

end S2E.LogColumns
