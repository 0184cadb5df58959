import Verif.Model.InitOrbit
import Verif.Model.EarthRadiation
import Verif.Model.Atmosphere
import Verif.Model.GeomagneticField
/-!
# The local environment made from its settings file

`LocalEnvironment::Initialize` and `Update` (`src/environment/local/local_environment.cpp:27-75`) with `InitGeomagneticField` (`geomagnetic_field.cpp:75-89`), `InitAtmosphere`
(`atmosphere.cpp:104-136`), `InitSolarRadiationPressureEnvironment` (`solar_radiation_pressure_environment.cpp:107-123`), `InitEarthAlbedo` (`earth_albedo.cpp:49-59`) and
`InitEarthInfrared` (`earth_infrared.cpp:55-66`).

NRLMSISE-00 is an external function; the copy of the settings file to the log directory is in `Model/LogFiles`.
-/
namespace S2E.InitLocal
open Log Ini InitOrbit Env Geomag Atmosphere Geodetic

/-- What an update reads: the propagation flags and the times of the simulation clock, the global information about the bodies, the orbit, the attitude, what NRLMSISE-00 gives there
— by whether its parameters are written by hand, and these parameters —, the standard normal value drawn, and two doubles of the stack that igrf.cpp reads. -/
structure Moment where
  attitude : Bool
  orbit : Bool
  year : ℝ
  sidereal : ℝ
  bodies : Celestial
  position : Vec 3
  velocity : Vec 3
  geodetic : GeodeticPosition
  i2b : Quat
  rate : Vec 3
  nrlmsise : Bool → ℝ → ℝ → ℝ → ℝ
  noise : ℝ
  junk : ℝ × ℝ

/-- The parameters of `Atmosphere` that are only used with NRLMSISE-00, atmosphere.hpp:88-91. -/
structure Manual where
  used : Bool
  daily : ℝ
  average : ℝ
  ap : ℝ

/-- `LocalEnvironment`, local_environment.hpp, with the log flags of its parts. -/
structure LocalEnv where
  magnetic : GeoField
  rad : EarthRad
  atmo : Atmo
  manual : Manual
  bodies : Local
  magneticLogged : Bool
  srpLogged : Bool
  albedoLogged : Bool
  infraredLogged : Bool
  atmoLogged : Bool
  bodiesLogged : Bool

/-- `InitGeomagneticField`, geomagnetic_field.cpp:75-89, and the centre, local_environment.cpp:46-47. -/
noncomputable def initMagnetic {γ : Type} (rd : Reader) (w : World γ) (center : String) (file : File) : Res (World γ × GeoField) :=
  let ini := file "MAGNETIC_FIELD_ENVIRONMENT".toList
  let x := fun (key : String) => readDouble rd.getReal ini key.toList
  (create w (readString rd.paths ini "coefficient_file".toList) (x "magnetic_field_random_walk_standard_deviation_nT") (x "magnetic_field_random_walk_limit_nT")
    (x "magnetic_field_white_noise_standard_deviation_nT")).bind fun r => .ok (r.1, r.2.configure (readEnable rd.paths ini "calculation".toList) center)

/-- `InitAtmosphere`, atmosphere.cpp:104-136, and the centre, local_environment.cpp:46, 48. `tableRead`: whether `GetSpaceWeatherTable_` succeeds on a path. -/
noncomputable def initAtmosphere (rd : Reader) (tableRead : Str → Bool) (center : String) (file : File) : Atmo × Manual :=
  let ini := file "ATMOSPHERE".toList
  let x := fun (key : String) => readDouble rd.getReal ini key.toList
  let used := readEnable rd.paths ini "is_manual_parameter_used".toList
  (Atmo.new (String.ofList (readString rd.paths ini "model".toList)) used (tableRead (readString rd.paths ini "nrlmsise00_table_file".toList))
      (x "air_density_standard_deviation") (readEnable rd.paths ini "calculation".toList) center,
    ⟨used, manualF107 (x "manual_daily_f107"), manualF107 (x "manual_average_f107"), x "manual_ap"⟩)

/-- `InitSolarRadiationPressureEnvironment`, solar_radiation_pressure_environment.cpp:107-123. A negative number becomes a `size_t` of more entries than memory holds:
an exception. -/
noncomputable def initSrp (rd : Reader) (spice : String → Option Int) (c : Celestial) (file : File) : Res Srp :=
  let ini := file "SOLAR_RADIATION_PRESSURE_ENVIRONMENT".toList
  let n := rd.int ini "number_of_third_shadow_source".toList
  if n < 0 then (Srp.new spice c).bind fun _ => .throws
  else Srp.init spice c (readEnable rd.paths ini "calculation".toList) ((readVectorString rd.paths ini "third_shadow_source_name".toList n.toNat).map String.ofList)

/-- `InitEarthAlbedo`, earth_albedo.cpp:49-59, and `InitEarthInfrared`, earth_infrared.cpp:55-66: both are logged, whatever the file says. -/
noncomputable def initRad (rd : Reader) (srp : Srp) (file : File) : EarthRad :=
  let a := file "EARTH_ALBEDO".toList
  let i := file "EARTH_INFRARED".toList
  EarthRad.new srp (readEnable rd.paths a "calculation".toList) (readDouble rd.getReal a "earth_albedo_factor".toList) (readEnable rd.paths i "calculation".toList)
    (readDouble rd.getReal i "earth_infrared_temperature_hot_side_K".toList) (readDouble rd.getReal i "earth_infrared_temperature_cold_side_K".toList)

/-- `Initialize`, local_environment.cpp:27-54; the arrays of `LocalCelestialInformation` start at zero (local_celestial_information.cpp:19-36). -/
noncomputable def initLocal {γ : Type} (rd : Reader) (tableRead : Str → Bool) (spice : String → Option Int) (c : Celestial) (w : World γ) (file : File) : Res (World γ × LocalEnv) :=
  let zeros := c.ids.map fun _ => (fun _ => 0 : Vec 3)
  let logged := fun (sec : String) => readEnable rd.paths (file sec.toList) "logging".toList
  (initMagnetic rd w c.center file).bind fun m => (initSrp rd spice c file).bind fun srp =>
    let a := initAtmosphere rd tableRead c.center file
    .ok (m.1, ⟨m.2, initRad rd srp file, a.1, a.2, ⟨zeros, zeros, zeros, zeros⟩, logged "MAGNETIC_FIELD_ENVIRONMENT", logged "SOLAR_RADIATION_PRESSURE_ENVIRONMENT", true, true,
      logged "ATMOSPHERE", logged "LOCAL_CELESTIAL_INFORMATION"⟩)

/-- The direction to the Sun that `CalcAirDensity_kg_m3` asks for, atmosphere.cpp:70-72: only in the Harris-Priester model. -/
def sunFor (spice : String → Option Int) (a : Atmo) (m : Moment) : Res (Vec 3) :=
  if m.orbit = true ∧ a.enabled = true ∧ a.model = "HARRIS_PRIESTER" then m.bodies.getPositionFromCenter spice "SUN" else .ok fun _ => 0

/-- What `CalcMagneticField` is called with, local_environment.cpp:64-65. -/
def Moment.args (m : Moment) : Args := ⟨m.year, m.sidereal, m.geodetic.latitude, m.geodetic.longitude, m.geodetic.altitude, m.i2b⟩

/-- What is seen after an update, local_environment.cpp:61-63. -/
def Moment.sees (m : Moment) (before : Local) : Local := if m.attitude then m.bodies.localUpdate m.position m.velocity m.i2b m.rate else before

/-- `Update`, local_environment.cpp:56-75. -/
noncomputable def LocalEnv.update {γ : Type} (draw : ℝ → γ → ℝ × γ) (fresh : (Fin 3 → γ) × γ) (files : List Char → Option Igrf.Table) (spice : String → Option Int)
    (w : World γ) (e : LocalEnv) (m : Moment) : Res (World γ × LocalEnv) :=
  (localUpdate draw fresh files m.junk m.attitude w e.magnetic m.args).bind fun g =>
    (e.rad.step spice (m.orbit, m.bodies, m.sees e.bodies)).bind fun rad =>
      (sunFor spice e.atmo m).bind fun sun =>
        (e.atmo.update m.orbit ⟨m.geodetic, sun, m.nrlmsise e.manual.used e.manual.daily e.manual.average e.manual.ap, m.noise⟩).bind fun a =>
          .ok (g.1, { e with magnetic := g.2, rad := rad, atmo := a, bodies := m.sees e.bodies })

/-- A history of updates. -/
noncomputable def LocalEnv.run {γ : Type} (draw : ℝ → γ → ℝ × γ) (fresh : (Fin 3 → γ) × γ) (files : List Char → Option Igrf.Table) (spice : String → Option Int)
    (w : World γ) (e : LocalEnv) : List Moment → Res (World γ × LocalEnv)
  | [] => .ok (w, e)
  | m :: ms => (e.update draw fresh files spice w m).bind fun r => LocalEnv.run draw fresh files spice r.1 r.2 ms

end S2E.InitLocal
