import Verif.Model.InitTime
import Verif.Model.Celestial
import Verif.Model.CelestialRotation
import Verif.Model.Hipparcos
import Verif.Model.InitThermal
/-!
# The global environment made from the base settings file

`InitCelestialInformation` (`src/environment/global/celestial_information.cpp:203-248`) with the constructor (23-71) and `UpdateAllObjectsInformation` (108-133),
`InitHipparcosCatalogue` (`hipparcos_catalogue.cpp:89-103`), `GlobalEnvironment::Initialize` and `Update` (`global_environment.cpp:21-40`).

SPICE is a family of functions that depends on the kernels that were furnished, in their order; a SPICE call that signals an error stops the program and is left out.
The GNSS satellites (`Model/InitGnss`) and the log are left out.
-/
namespace S2E.InitGlobal
open Log Ini InitOrbit Env Rotation

/-- What is asked of SPICE: `bodn2c_c`, `bodc2n_c`, `bodvcd_c` for `GM` and `RADII`, `spkezr_c` by frame, aberration correction, centre, body and time (km, km/s),
`sxform_c`, and `str2et_c` of a Julian date. -/
structure Spice where
  idOf : String → Option ℤ
  nameOf : ℤ → String
  gm : ℤ → ℝ
  radii : ℤ → Vec 3
  spk : String → String → String → String → ℝ → Vec 3 × Vec 3
  sxform : String → String → ℝ → Fin 6 → Fin 6 → ℝ
  et : ℝ → ℝ

/-- `CelestialInformation` with its rotation models, celestial_information.hpp:235-260. -/
structure Bodies where
  frame : String
  aberration : String
  modes : List Str
  cel : Celestial
  earth : Rotation.Earth
  moonMode : MoonMode
  moon : Mat 3 3
  logged : Bool

/-- `GetRotationMode`, celestial_information.hpp:272-276. -/
def rotationMode (sp : Spice) (c : Celestial) (modes : List Str) (name : String) : Res String :=
  (c.calcBodyIdFromName sp.idOf name).bind fun id =>
    if id ≥ c.ids.length then .ok "Idle" else (getAt modes id).bind fun m => .ok (String.ofList m)

/-- The constructor, celestial_information.cpp:23-71, with those of the rotation models (earth_rotation.cpp:21-25, moon_rotation.cpp:15-18). -/
noncomputable def newBodies (sp : Spice) (frame aberration center : String) (ids : List ℤ) (modes : List Str) (logged : Bool) : Res Bodies :=
  let c := Celestial.new ids center sp.gm sp.radii
  (rotationMode sp c modes "EARTH").bind fun e => (rotationMode sp c modes "MOON").bind fun m =>
    .ok ⟨frame, aberration, modes, c, Rotation.Earth.new (convertEarthMode e), convertMoonMode m, makeIdentityMatrix 3, logged⟩

/-- One turn of the loop over the selected bodies, celestial_information.cpp:225-237: the name is read into 30 characters without a terminator of their own, and
`bodn2c_c` reads beyond them when there is none; the `assert` stops the program when SPICE does not know the name. -/
def bodyId (rd : Reader) (sp : Spice) (ini : Str → Option Str) (i : ℕ) : Res ℤ :=
  let buffer := readChar rd.paths ini (indexedKey "selected_body_name".toList i) 30
  if Char.ofNat 0 ∉ buffer then .ub
  else
    match sp.idOf (String.ofList (buffer.takeWhile (· ≠ Char.ofNat 0))) with
    | none => .throws
    | some p => .ok p

/-- The kernels that are furnished, in their order, celestial_information.cpp:214-218. -/
def kernelsOf (rd : Reader) (ini : Str → Option Str) : List Str :=
  ["tls", "tpc1", "tpc2", "tpc3", "bsp"].map fun key => readString rd.paths ini key.toList

/-- `InitCelestialInformation`, celestial_information.cpp:203-248. A negative number of bodies makes `new int[]` throw. -/
noncomputable def initBodies (rd : Reader) (spice : List Str → Spice) (file : File) : Res Bodies :=
  let ini := file "CELESTIAL_INFORMATION".toList
  let s := fun (key : String) => String.ofList (readString rd.paths ini key.toList)
  let sp := spice (kernelsOf rd (file "CSPICE_KERNELS".toList))
  let n := rd.int ini "number_of_selected_body".toList
  if n < 0 then .throws
  else
    (InitThermal.makeAll (bodyId rd sp ini) (List.range n.toNat)).bind fun ids =>
      newBodies sp (s "inertial_frame") (s "aberration_correction") (s "center_object") ids
        (readVectorString rd.paths ini "rotation_mode".toList n.toNat) (readEnable rd.paths ini "logging".toList)

/-- `GetVelocityFromCenter_i_m_s(id)`, celestial_information.hpp:113-118. -/
def velocityAt (c : Celestial) (id : ℕ) : Res (Vec 3) := if id > c.ids.length then .ok fun _ => 0 else getAt c.velocity id

/-- `GetVelocityFromCenter_i_m_s(name)`, celestial_information.hpp:124-127. -/
def velocityFromCenter (sp : Spice) (c : Celestial) (name : String) : Res (Vec 3) := (c.calcBodyIdFromName sp.idOf name).bind (velocityAt c)

/-- `GetVelocityFromSelectedBody_i_m_s`, celestial_information.hpp:134-141. -/
def velocityFromBody (sp : Spice) (c : Celestial) (target reference : String) : Res (Vec 3) :=
  (velocityFromCenter sp c target).bind fun t => (velocityFromCenter sp c reference).bind fun r => .ok (vsub t r)

/-- `MoonRotation::Update`, moon_rotation.cpp:20-39; the bodies are only asked for in the simple mode. -/
noncomputable def updateMoon (sp : Spice) (b : Bodies) (et : ℝ) : Res (Mat 3 3) :=
  match b.moonMode with
  | .simple =>
    (b.cel.getPositionFromSelectedBody sp.idOf "MOON" "EARTH").bind fun r => (velocityFromBody sp b.cel "MOON" "EARTH").bind fun v =>
      .ok (moonUpdate .simple r v (sp.sxform "J2000" "IAU_MOON" et))
  | m => .ok (moonUpdate m 0 0 (sp.sxform "J2000" "IAU_MOON" et))

/-- `UpdateAllObjectsInformation`, celestial_information.cpp:108-133, at a Julian date and ephemeris time. -/
noncomputable def Bodies.update (sp : Spice) (b : Bodies) (jd et : ℝ) : Res Bodies :=
  let b1 := { b with cel := b.cel.update sp.nameOf (sp.spk b.frame b.aberration b.cel.center) et, earth := b.earth.update jd }
  (updateMoon sp b1 et).bind fun m => .ok { b1 with moon := m }

/-- What `HipparcosCatalogue` keeps: whether it is calculated and logged, and its stars. -/
structure Catalogue where
  calculated : Bool
  logged : Bool
  stars : List Hip.Star

/-- `InitHipparcosCatalogue`, hipparcos_catalogue.cpp:89-103; the return value of `ReadContents` is thrown away. `disk` gives the text of a file by its path. -/
noncomputable def initCatalogue (rd : Reader) (parse : Str → Option Hip.Star) (disk : Str → Option Str) (file : File) : Res Catalogue :=
  let ini := file "HIPPARCOS_CATALOGUE".toList
  let calculated := readEnable rd.paths ini "calculation".toList
  (Hip.readContents parse calculated (readDouble rd.getReal ini "max_magnitude".toList) (disk (readString rd.paths ini "catalogue_file_path".toList))).bind fun r =>
    .ok ⟨calculated, readEnable rd.paths ini "logging".toList, r.2⟩

/-- `GlobalEnvironment` without the GNSS satellites, global_environment.hpp. -/
structure Global where
  clock : InitTime.Clock
  time : TimeSt ℝ
  bodies : Bodies
  catalogue : Catalogue

/-- `Initialize`, global_environment.cpp:21-34; `clk` is what the system clock reads when the simulation clock is made. -/
noncomputable def initGlobal (rd : Reader) (spice : List Str → Spice) (parse : Str → Option Hip.Star) (disk : Str → Option Str) (clk : ℤ) (file : File) : Res Global :=
  let sp := spice (kernelsOf rd (file "CSPICE_KERNELS".toList))
  (initBodies rd spice file).bind fun b => (InitTime.initTime rd sp.et file).bind fun k => (initCatalogue rd parse disk file).bind fun c =>
    let t := TimeSt.init k.cfg clk
    (b.update sp t.jd (t.ephemeris k.cfg)).bind fun b => .ok ⟨k, t, b, c⟩

/-- `Update`, global_environment.cpp:36-40, with exact arithmetic in the clock. -/
noncomputable def Global.update (sp : Spice) (r : ClockReads) (g : Global) : Res Global :=
  (g.time.update Arith.exact g.clock.cfg r).bind fun t => (g.bodies.update sp t.jd (t.ephemeris g.clock.cfg)).bind fun b => .ok { g with time := t, bodies := b }

/-- `n` calls of `Update`, the `i`-th reading the system clock as `r i`. -/
noncomputable def Global.updates (sp : Spice) (r : ℕ → ClockReads) : ℕ → Global → Res Global
  | 0, g => .ok g
  | n + 1, g => (Global.updates sp r n g).bind (Global.update sp (r n))

end S2E.InitGlobal
