import Verif.Model.OrbitProp
import Verif.Model.TimeSeriesOrbit
import Verif.Model.Geodetic
import Verif.Model.Ini
/-!
# Choice, construction and propagation of the orbit of a spacecraft

`src/dynamics/orbit/initialize_orbit.cpp`, `kepler_orbit_propagation.cpp`, `sgp4_orbit_propagation.cpp`, the base class `orbit.{hpp,cpp}` and the way
`src/dynamics/dynamics.cpp` uses it. The propagators RK4, RELATIVE, ENCKE and TIME_SERIES_FILE are those of `Model/OrbitProp` and `Model/TimeSeriesOrbit`;
this file adds the Earth-fixed state, which every constructor and every `Propagate` computes at its end, and the end of the program when the altitude
is negative (`Res.throws`).

A settings file is a function of section and key (`none`: no such key). `GetReal` and `GetInteger` of `INIReader` on a value that is present are arbitrary
functions; the SGP4 code (`twoline2rv`, `sgp4`) is an arbitrary library. The rotation of the Earth read from `CelestialInformation` and the state of the
reference satellite are inputs of each call. Console output is left out.
-/
namespace S2E.InitOrbit
open Log Ini OrbitProp Kepler Geodetic

/-- A settings file: section, key. -/
abbrev File := Str → Str → Option Str

/-- What surrounds a call: everything the constructors and `Propagate` read from other objects. -/
structure World where
  /-- `GetEarthRotation().GetDcmJ2000ToEcef()` -/
  dcm : Mat 3 3
  /-- `relative_information` (`none`: null pointer): position and velocity of a registered spacecraft, `none` for one that is not registered
  (`dynamics_database_.at` throws). The id is an `unsigned int`. -/
  relatives : Option (ℕ → Option (Vec 3 × Vec 3))
  /-- fuel for the loops (geodetic latitude, propagation) -/
  fuel : ℕ

/-- The Earth-fixed members of `Orbit`, orbit.hpp:198-203. -/
structure Earth where
  /-- `spacecraft_position_ecef_m_` -/
  position : Vec 3
  /-- `spacecraft_velocity_ecef_m_s_` -/
  velocity : Vec 3
  /-- `spacecraft_geodetic_position_` -/
  geodetic : GeodeticPosition

/-- `TransformEciToEcef` and `TransformEcefToGeodetic`, orbit.cpp:33-53. A negative altitude ends the program. -/
noncomputable def transform (w : World) (p v : Vec 3) : Res Earth := do
  let pe := ecefPosition w.dcm p
  let g ← updateFromEcef w.fuel pe
  if g.altitude < 0 then .throws else .ok ⟨pe, ecefVelocity w.dcm p v, g⟩

/-! ## KeplerOrbitPropagation -/

/-- `KeplerOrbitPropagation`, kepler_orbit_propagation.hpp:18, with the members of `KeplerOrbit` (kepler_orbit.hpp) it uses. -/
structure KeplerProp where
  mu : ℝ
  oe : OrbitalElements
  position : Vec 3
  velocity : Vec 3
  enabled : Bool

/-- `UpdateState` without the Earth-fixed part, kepler_orbit_propagation.cpp:30-33. -/
noncomputable def KeplerProp.updateState (s : KeplerProp) (jd : ℝ) : KeplerProp :=
  { s with position := Kepler.position s.mu s.oe jd, velocity := Kepler.velocity s.mu s.oe jd }

/-! ## Sgp4OrbitPropagation -/

/-- `gravconsttype`, sgp4unit.h. -/
inductive Wgs where
  | wgs72old
  | wgs72
  | wgs84
  deriving DecidableEq

/-- The SGP4 code, `src/math_physics/orbit/sgp4`: any functions. -/
structure Sgp4Lib where
  /-- `elsetrec` -/
  Data : Type
  /-- `twoline2rv` with run type `'c'` -/
  read : Wgs → Str → Str → Data
  /-- `jdsatepoch` -/
  epoch : Data → ℝ
  /-- `sgp4`: minutes since the epoch to the new record, position in km, velocity in km/s -/
  run : Wgs → Data → ℝ → Data × Vec 3 × Vec 3

/-- `Sgp4OrbitPropagation`, sgp4_orbit_propagation.hpp. -/
structure Sgp4 (lib : Sgp4Lib) where
  wgs : Wgs
  data : lib.Data
  position : Vec 3
  velocity : Vec 3
  enabled : Bool

/-- The choice of the constants, sgp4_orbit_propagation.cpp:19-25; `none`: `gravity_constant_setting_` stays uninitialised. -/
def wgsOf (setting : ℤ) : Option Wgs :=
  if setting = 0 then some .wgs72old else if setting = 1 then some .wgs72 else if setting = 2 then some .wgs84 else none

/-- The state computed by `Propagate`, sgp4_orbit_propagation.cpp:53-66. -/
noncomputable def Sgp4.step {lib : Sgp4Lib} (s : Sgp4 lib) (jd : ℝ) : Sgp4 lib :=
  let r := lib.run s.wgs s.data ((jd - lib.epoch s.data) * (24 * 60))
  { s with data := r.1, position := scale 1000 r.2.1, velocity := scale 1000 r.2.2 }

/-! ## The orbit of a spacecraft -/

/-- The propagator behind the pointer `Orbit*`. For RELATIVE: the object, the reference id, and whether the matrix its method reads has been
calculated (a model number other than 0 leaves it uninitialised, relative_orbit.cpp:71-97). -/
inductive Motor (lib : Sgp4Lib) where
  | rk4 (s : Rk4Orbit)
  | sgp4 (s : Sgp4 lib)
  | relative (s : Relative) (reference : ℕ) (hasMatrix : Bool)
  | kepler (s : KeplerProp)
  | encke (s : Encke)
  | file (c : TimeSeries.Config) (s : TimeSeries.State)

/-- `GetPosition_i_m`, orbit.hpp:94. The coordinates of a time series orbit that are not numbers do not occur in an `Orbit` that exists
(`finite`, below). -/
noncomputable def Motor.position {lib : Sgp4Lib} : Motor lib → Vec 3
  | .rk4 s => s.position
  | .sgp4 s => s.position
  | .relative s _ _ => s.position
  | .kepler s => s.position
  | .encke s => s.position
  | .file _ s => fun i => (s.position i).getD 0

/-- `GetVelocity_i_m_s`, orbit.hpp:104. -/
noncomputable def Motor.velocity {lib : Sgp4Lib} : Motor lib → Vec 3
  | .rk4 s => s.velocity
  | .sgp4 s => s.velocity
  | .relative s _ _ => s.velocity
  | .kepler s => s.velocity
  | .encke s => s.velocity
  | .file _ s => fun i => (s.velocity i).getD 0

/-- `GetIsCalcEnabled`, orbit.hpp:84. -/
def Motor.enabled {lib : Sgp4Lib} : Motor lib → Bool
  | .rk4 s => s.enabled
  | .sgp4 s => s.enabled
  | .relative s _ _ => s.enabled
  | .kepler s => s.enabled
  | .encke s => s.enabled
  | .file _ s => s.enabled

/-- `SetIsCalcEnabled`, orbit.hpp:138. -/
def Motor.setEnabled {lib : Sgp4Lib} (b : Bool) : Motor lib → Motor lib
  | .rk4 s => .rk4 { s with enabled := b }
  | .sgp4 s => .sgp4 { s with enabled := b }
  | .relative s r m => .relative { s with enabled := b } r m
  | .kepler s => .kepler { s with enabled := b }
  | .encke s => .encke { s with enabled := b }
  | .file c s => .file c { s with enabled := b }

/-- `SetAcceleration_i_m_s2`, orbit.hpp:143, for the propagators that read the acceleration. -/
def Motor.setAcceleration {lib : Sgp4Lib} (a : Vec 3) : Motor lib → Motor lib
  | .rk4 s => .rk4 { s with acceleration := a }
  | .encke s => .encke { s with acceleration := a }
  | m => m

/-- An `Orbit` object: the propagator, the Earth-fixed state, the velocity in the body frame and `is_log_enabled_`. -/
structure Orbit (lib : Sgp4Lib) where
  motor : Motor lib
  earth : Earth
  /-- `spacecraft_velocity_b_m_s_` -/
  velocityB : Vec 3
  logging : Bool

/-- The end of every constructor and of every `Propagate`: the Earth-fixed state of the new state. Coordinates that are not numbers reach the conversion to
`int` in `FMod2p`, whose behaviour is then undefined. -/
noncomputable def finish {lib : Sgp4Lib} (w : World) (m : Motor lib) : Res (Motor lib × Earth) :=
  match m with
  | .file _ s =>
    if (∀ i, (s.position i).isSome) ∧ (∀ i, (s.velocity i).isSome) then
      (transform w m.position m.velocity).bind fun e => .ok (m, e)
    else .ub
  | _ => (transform w m.position m.velocity).bind fun e => .ok (m, e)

/-- The state of the reference satellite, `relative_information_->GetReferenceSatDynamics(id)->GetOrbit()`, relative_orbit.cpp:43-45, 113-115. -/
def reference (w : World) (id : ℕ) : Res (Vec 3 × Vec 3) :=
  match w.relatives with
  | none => .ub
  | some f => match f id with
    | none => .throws
    | some s => .ok s

/-- `Propagate` of every propagator (`Orbit::Propagate`), with the Earth-fixed state: rk4_orbit_propagation.cpp:67-90, sgp4_orbit_propagation.cpp:49-70,
relative_orbit.cpp:99-154, kepler_orbit_propagation.cpp:21-27, encke_orbit_propagation.cpp:29-62, time_series_file_orbit_propagation.cpp:85-134. -/
noncomputable def Motor.propagate {lib : Sgp4Lib} (w : World) (endTime jd : ℝ) (m : Motor lib) : Res (Motor lib × Earth) :=
  match m with
  | .rk4 s => (s.propagate w.fuel endTime).bind fun s => finish w (.rk4 s)
  | .sgp4 s => finish w (.sgp4 (s.step jd))
  | .relative s id hasMatrix =>
    if hasMatrix then
      (reference w id).bind fun r => (s.propagate w.fuel endTime r.1 r.2).bind fun s => finish w (.relative s id true)
    else .ub
  | .kepler s => finish w (.kepler (s.updateState jd))
  | .encke s =>
    -- the rectification calls `Initialize`, which already computes the Earth-fixed state
    (if calcNorm s.diffPosition / calcNorm s.position > s.tolerance then
      (transform w (s.rectify jd).position (s.rectify jd).velocity).bind fun _ => .ok ()
     else .ok ()).bind fun _ => (s.propagate w.fuel endTime jd).bind fun s => finish w (.encke s)
  | .file c s => (TimeSeries.propagate c s jd).bind fun s => finish w (.file c s)

/-- `Propagate` of the object: nothing happens unless the calculation is enabled (the first line of every `Propagate`). -/
noncomputable def Orbit.propagate {lib : Sgp4Lib} (w : World) (endTime jd : ℝ) (o : Orbit lib) : Res (Orbit lib) :=
  if o.motor.enabled then
    (o.motor.propagate w endTime jd).bind fun r => .ok { o with motor := r.1, earth := r.2 }
  else .ok o

/-! ## InitOrbit -/

/-- `SetOrbitInitializeMode`, orbit.cpp:55-67. -/
inductive InitializeMode where
  | default
  | inertialPositionAndVelocity
  | orbitalElements
  deriving DecidableEq

@[inherit_doc InitializeMode]
def setOrbitInitializeMode (s : Str) : InitializeMode :=
  if s = "DEFAULT".toList then .default
  else if s = "POSITION_VELOCITY_I".toList then .inertialPositionAndVelocity
  else if s = "ORBITAL_ELEMENTS".toList then .orbitalElements
  else .default

/-- How settings values are read: the compile-time paths, `strtod`, `strtol` (a value that does not parse gives the default 0), and the reading of the
file named in a time series orbit. -/
structure Reader where
  paths : Paths
  getReal : Str → ℝ
  getInteger : Str → ℤ
  rows : Str → List TimeSeries.Row

/-- `ReadInt`, initialize_file_access.cpp:69-79. -/
def Reader.int (rd : Reader) (ini : Str → Option Str) (key : Str) : ℤ :=
  match ini key with
  | none => 0
  | some raw => rd.getInteger raw

/-- `ReadVector<3>`, initialize_file_access.hpp:212-219. -/
def Reader.vec3 (rd : Reader) (ini : Str → Option Str) (key : Str) : Vec 3 :=
  fun i => readDouble rd.getReal ini (indexedKey key i)

/-- The six orbital elements, initialize_orbit.cpp:80-86, 141-147. -/
noncomputable def Reader.elements (rd : Reader) (ini : Str → Option Str) : OrbitalElements where
  semiMajorAxis := readDouble rd.getReal ini "semi_major_axis_m".toList
  eccentricity := readDouble rd.getReal ini "eccentricity".toList
  inclination := readDouble rd.getReal ini "inclination_rad".toList
  raan := readDouble rd.getReal ini "raan_rad".toList
  argPerigee := readDouble rd.getReal ini "argument_of_perigee_rad".toList
  epochJday := readDouble rd.getReal ini "epoch_jday".toList

/-- `InitializePosVel`, initialize_orbit.cpp:132-164. -/
noncomputable def initializePosVel (rd : Reader) (file : File) (jd mu : ℝ) (sec : Str) : Vec 3 × Vec 3 :=
  match setOrbitInitializeMode (readString rd.paths (file sec) "initialize_mode".toList) with
  | .orbitalElements => (Kepler.position mu (rd.elements (file sec)) jd, Kepler.velocity mu (rd.elements (file sec)) jd)
  | _ => (rd.vec3 (file sec) "initial_position_i_m".toList, rd.vec3 (file sec) "initial_velocity_i_m_s".toList)

/-- The default value of the last parameter of `InitializePosVel`, initialize_orbit.hpp:42. -/
def defaultSection : Str := "ORBIT".toList

/-- The RK4 branches, initialize_orbit.cpp:30-39, 113-125 (`initial_time_s` has the default 0): `InitializePosVel` is called without a section. -/
noncomputable def rk4Motor (lib : Sgp4Lib) (rd : Reader) (file : File) (step jd mu : ℝ) : Motor lib :=
  let pv := initializePosVel rd file jd mu defaultSection
  .rk4 (Rk4Orbit.new mu step pv.1 pv.2 0)

/-- The SGP4 branch, initialize_orbit.cpp:40-47, and the constructor, sgp4_orbit_propagation.cpp:14-47. -/
noncomputable def sgp4Motor (lib : Sgp4Lib) (rd : Reader) (ini : Str → Option Str) (jd : ℝ) : Res (Motor lib) :=
  match wgsOf (rd.int ini "wgs_setting".toList) with
  | none => .ub
  | some wgs =>
    let data := lib.read wgs (readChar rd.paths ini "tle1".toList 80) (readChar rd.paths ini "tle2".toList 80)
    .ok (.sgp4 { (⟨wgs, data, 0, 0, true⟩ : Sgp4 lib).step jd with enabled := false })

/-- The RELATIVE branch, initialize_orbit.cpp:48-66, and the constructor, relative_orbit.cpp:13-69. The id is converted to `unsigned int`. -/
noncomputable def relativeMotor (lib : Sgp4Lib) (rd : Reader) (ini : Str → Option Str) (step mu : ℝ) (w : World) : Res (Motor lib) :=
  let method := if rd.int ini "relative_orbit_update_method".toList = 0 then UpdateMethod.rk4 else UpdateMethod.stm
  let hasMatrix : Bool := if rd.int ini "relative_orbit_update_method".toList = 0 then rd.int ini "relative_dynamics_model_type".toList = 0
    else rd.int ini "stm_model_type".toList = 0
  let id := (rd.int ini "reference_satellite_id".toList % 2 ^ 32).toNat
  (reference w id).bind fun r =>
    .ok (.relative (Relative.new mu step method (rd.vec3 ini "initial_relative_position_lvlh_m".toList)
      (rd.vec3 ini "initial_relative_velocity_lvlh_m_s".toList) r.1 r.2) id hasMatrix)

/-- The KEPLER branch, initialize_orbit.cpp:67-89, and the constructor, kepler_orbit_propagation.cpp:13-17. -/
noncomputable def keplerMotor (lib : Sgp4Lib) (rd : Reader) (ini : Str → Option Str) (jd mu : ℝ) (mode : InitializeMode) : Motor lib :=
  let oe := if mode = .inertialPositionAndVelocity then
      calcOeFromPosVel mu jd (rd.vec3 ini "initial_position_i_m".toList) (rd.vec3 ini "initial_velocity_i_m_s".toList)
    else rd.elements ini
  .kepler ((⟨mu, oe, 0, 0, false⟩ : KeplerProp).updateState jd)

/-- The ENCKE branch, initialize_orbit.cpp:90-102: `InitializePosVel` is called without a section. -/
noncomputable def enckeMotor (lib : Sgp4Lib) (rd : Reader) (file : File) (ini : Str → Option Str) (step jd mu : ℝ) : Motor lib :=
  let pv := initializePosVel rd file jd mu defaultSection
  .encke (Encke.new mu step jd pv.1 pv.2 (readDouble rd.getReal ini "error_tolerance".toList))

/-- The TIME_SERIES_FILE branch, initialize_orbit.cpp:103-111 (a negative number of points is not modelled). -/
noncomputable def fileMotor (lib : Sgp4Lib) (rd : Reader) (ini : Str → Option Str) (jd : ℝ) : Res (Motor lib) :=
  let c : TimeSeries.Config :=
    { rows := rd.rows (readString rd.paths ini "time_series_file_path".toList)
      number := (rd.int ini "number_of_interpolation".toList).toNat
      method := rd.int ini "interpolation_method".toList
      period := readDouble rd.getReal ini "orbital_period_correction_s".toList }
  (TimeSeries.construct c jd).bind fun s => .ok (.file c s)

/-- The choice of the propagator, initialize_orbit.cpp:25-125. -/
noncomputable def chooseMotor (lib : Sgp4Lib) (rd : Reader) (w : World) (file : File) (step jd mu : ℝ) (sec : Str) : Res (Motor lib) :=
  let ini := file sec
  let initializeMode := setOrbitInitializeMode (readString rd.paths ini "initialize_mode".toList)
  let propagateMode := readString rd.paths ini "propagate_mode".toList
  if propagateMode = "RK4".toList then .ok (rk4Motor lib rd file step jd mu)
  else if propagateMode = "SGP4".toList then sgp4Motor lib rd ini jd
  else if propagateMode = "RELATIVE".toList then relativeMotor lib rd ini step mu w
  else if propagateMode = "KEPLER".toList then .ok (keplerMotor lib rd ini jd mu initializeMode)
  else if propagateMode = "ENCKE".toList then .ok (enckeMotor lib rd file ini step jd mu)
  else if propagateMode = "TIME_SERIES_FILE".toList then fileMotor lib rd ini jd
  else .ok (rk4Motor lib rd file step jd mu)

/-- `InitOrbit`, initialize_orbit.cpp:18-130. The velocity in the body frame is not set by the constructors (`garbage`). -/
noncomputable def initOrbit (lib : Sgp4Lib) (rd : Reader) (w : World) (garbage : Vec 3) (file : File) (step jd mu : ℝ) (sec : Str) : Res (Orbit lib) :=
  (chooseMotor lib rd w file step jd mu sec).bind fun m => (finish w m).bind fun r =>
    .ok ⟨r.1.setEnabled (readEnable rd.paths (file sec) "calculation".toList), r.2, garbage, readEnable rd.paths (file sec) "logging".toList⟩

/-! ## Dynamics -/

/-- `Dynamics`, dynamics.hpp: attitude object of any type `A` (with its `Propagate` and `GetQuaternion_i2b`), orbit. The temperature does not influence the
other two and is left out. -/
structure Dynamics (lib : Sgp4Lib) (A : Type) where
  attitude : A
  orbit : Orbit lib

/-- `UpdateByAttitude`, orbit.hpp:75-77. -/
noncomputable def Orbit.updateByAttitude {lib : Sgp4Lib} (o : Orbit lib) (q : Quat) : Orbit lib :=
  { o with velocityB := q.frameConversion o.motor.velocity }

/-- `Dynamics::Initialize`, dynamics.cpp:23-39: orbit first, then the attitude (which may read the orbit), then `UpdateByAttitude`. -/
noncomputable def Dynamics.init {lib : Sgp4Lib} {A : Type} (orbit : Res (Orbit lib)) (initAttitude : Orbit lib → Res A) (i2b : A → Quat) :
    Res (Dynamics lib A) :=
  orbit.bind fun o => (initAttitude o).bind fun a => .ok ⟨a, o.updateByAttitude (i2b a)⟩

/-- `Dynamics::Update`, dynamics.cpp:41-57: flags, elapsed time and Julian date of `SimulationTime`. The attitude objects read the orbit object. -/
noncomputable def Dynamics.update {lib : Sgp4Lib} {A : Type} (propagateAttitude : Orbit lib → ℝ → A → Res A) (i2b : A → Quat) (w : World)
    (attitudeFlag orbitFlag : Bool) (elapsed jd : ℝ) (d : Dynamics lib A) : Res (Dynamics lib A) :=
  (if attitudeFlag then propagateAttitude d.orbit elapsed d.attitude else .ok d.attitude).bind fun a =>
    (if orbitFlag then d.orbit.propagate w elapsed jd else .ok d.orbit).bind fun o =>
      .ok ⟨a, o.updateByAttitude (i2b a)⟩

end S2E.InitOrbit
