import Verif.Model.InitWheel
import Verif.Model.Disturbance
import Verif.Model.Geopotential
/-!
# The disturbances of a spacecraft made from settings files

The `Init` functions of `src/disturbances/` and `Disturbances::InitializeInstances`, with the classes that they make and `Disturbances::Update` for these classes.
`Surroundings` is what the getters of the environment, of dynamics and of the structure return in one call; the residual magnetic moment of
`CalcRMM` (`Model/Disturbance`) is one of its fields. The coefficient files are parameters by path, as in `Model/Geopotential`.
-/
namespace S2E.InitDisturbance
open Log Ini InitOrbit Dist GravityModel

/-- What the disturbances read in one update: positions of the centre body and of the Sun in the body frame, inertia, light pressure, the surfaces and the centre of
gravity at that time, velocity and position in the Earth-fixed frame and the matrix to it, attitude, air density, the magnetic moment and field, the inertial
position, the positions of the bodies from the spacecraft and their gravity constants (the getters called in the functions that `Obj.compute` cites). -/
structure Surroundings where
  center : Vec 3
  inertia : Mat 3 3
  sun : Vec 3
  pressure : ℝ
  surfaces : List Surface
  cog : Vec 3
  dcm : Mat 3 3
  velocityEcef : Vec 3
  quaternion : Quat
  density : ℝ
  moment : Vec 3
  field : Vec 3
  positionEcef : Vec 3
  position : Vec 3
  fromSc : String → Vec 3
  mu : String → ℝ

/-- One call of `Update`: the surroundings and whether orbit and attitude are propagated in this step, disturbances.cpp:39, 42. -/
structure Step where
  env : Surroundings
  orbit : Bool
  attitude : Bool

/-- The members of the derived classes. -/
inductive Obj where
  | gravityGradient (mu : ℝ)
  | solarRadiationPressure
  | thirdBodyGravity (bodies : List String)
  | lunarGravityField (g : Potential)
  | airDrag (a : AirDrag)
  | magnetic
  | geopotential (g : Potential)

/-- A disturbance: `is_calculation_enabled_`, `is_log_enabled_`, `is_attitude_dependent_`, derived class, vectors; disturbance.hpp:88-93. -/
structure Item where
  enabled : Bool
  logged : Bool
  dependent : Bool
  obj : Obj
  effect : Effect

/-- The two switches of every `Init` function: `INI_CALC_LABEL` and `INI_LOG_LABEL`, initialize_file_access.hpp:11-12; the constructors pass whether the disturbance
depends on the attitude (`Kind.attitudeDependent`, `Model/Disturbance`). -/
noncomputable def make (rd : Reader) (file : File) (sec : String) (dependent : Bool) (obj : Obj) : Item :=
  ⟨readEnable rd.paths (file sec.toList) "calculation".toList, readEnable rd.paths (file sec.toList) "logging".toList, dependent, obj, Effect.zero⟩

/-- `InitGravityGradient`, gravity_gradient.cpp:65-74. -/
noncomputable def initGravityGradient (rd : Reader) (file : File) (mu : ℝ) : Item := make rd file "GRAVITY_GRADIENT" true (.gravityGradient mu)

/-- `InitSolarRadiationPressureDisturbance`, solar_radiation_pressure_disturbance.cpp:57-70; the surfaces and the centre of gravity are references to the structure. -/
noncomputable def initSrp (rd : Reader) (file : File) : Item := make rd file "SOLAR_RADIATION_PRESSURE_DISTURBANCE" true .solarRadiationPressure

/-- Names in numbered entries, third_body_gravity.cpp:69-72, 83-85. -/
def readNames (rd : Reader) (ini : Str → Option Str) (key : String) (n : ℤ) : List String :=
  (List.range n.toNat).map fun i => String.ofList (readString rd.paths ini (indexedKey key.toList i))

/-- `InitThirdBodyGravity`, third_body_gravity.cpp:61-103. -/
noncomputable def initThirdBody (rd : Reader) (file base : File) : Res Item :=
  let celes := base "CELESTIAL_INFORMATION".toList
  let selected := readNames rd celes "selected_body_name" (rd.int celes "number_of_selected_body".toList)
  let center := String.ofList (readString rd.paths celes "center_object".toList)
  let ini := file "THIRD_BODY_GRAVITY".toList
  (thirdBodyList (readEnable rd.paths ini "calculation".toList) center selected
      (readNames rd ini "third_body_name" (rd.int ini "number_of_third_body".toList))).bind fun l =>
    .ok (make rd file "THIRD_BODY_GRAVITY" false (.thirdBodyGravity l))

/-- `InitLunarGravityField`, lunar_gravity_field.cpp:141-154. -/
noncomputable def initLunar (rd : Reader) (grgm : Str → Option (ℝ × ℝ × List Line)) (file : File) : Res Item :=
  let ini := file "LUNAR_GRAVITY_FIELD".toList
  (lunarNew (rd.int ini "degree".toList) (grgm (readString rd.paths ini "coefficients_file_path".toList))).bind fun g =>
    .ok (make rd file "LUNAR_GRAVITY_FIELD" false (.lunarGravityField g))

/-- `InitAirDrag`, air_drag.cpp:98-114. -/
noncomputable def initAirDrag (rd : Reader) (file : File) : Item :=
  let d := fun (key : String) => readDouble rd.getReal (file "AIR_DRAG".toList) key.toList
  make rd file "AIR_DRAG" true (.airDrag ⟨d "wall_temperature_degC" + 273, d "molecular_temperature_degC" + 273, d "molecular_weight_g_mol"⟩)

/-- `InitMagneticDisturbance`, magnetic_disturbance.cpp:67-76. -/
noncomputable def initMagnetic (rd : Reader) (file : File) : Item := make rd file "MAGNETIC_DISTURBANCE" true .magnetic

/-- `InitGeopotential`, geopotential.cpp:118-130. -/
noncomputable def initGeopotential (rd : Reader) (egm : Str → Option (List Line)) (file : File) : Res Item :=
  let ini := file "GEOPOTENTIAL".toList
  (geopotentialNew (rd.int ini "degree".toList) (egm (readString rd.paths ini "coefficients_file_path".toList))).bind fun g =>
    .ok (make rd file "GEOPOTENTIAL" false (.geopotential g))

/-- The lunar field only around the Moon, disturbances.cpp:78-81. -/
noncomputable def aroundMoon (rd : Reader) (grgm : Str → Option (ℝ × ℝ × List Line)) (file : File) (center : String) : Res (List Item) :=
  if center = "MOON" then (initLunar rd grgm file).bind fun l => .ok [l] else .ok []

/-- Air drag, magnetic torque and geopotential only around the Earth, disturbances.cpp:83-93. -/
noncomputable def aroundEarth (rd : Reader) (egm : Str → Option (List Line)) (file : File) (center : String) : Res (List Item) :=
  if center ≠ "EARTH" then .ok [] else (initGeopotential rd egm file).bind fun g => .ok [initAirDrag rd file, initMagnetic rd file, g]

/-- `Disturbances`, disturbances.hpp:76-81. -/
structure Items where
  list : List Item
  torque : Vec 3
  force : Vec 3
  acceleration : Vec 3

/-- The constructor, disturbances.cpp:20-25, with `InitializeInstances`, 61-94: `file` is the file of the entry `disturbance_file` of the spacecraft file, `base` the
base file; `center` and `mu` are name and gravity constant of the centre body of the global environment. -/
noncomputable def initDisturbances (rd : Reader) (egm : Str → Option (List Line)) (grgm : Str → Option (ℝ × ℝ × List Line)) (file base : File) (center : String)
    (mu : ℝ) : Res Items :=
  (initThirdBody rd file base).bind fun third => (aroundMoon rd grgm file center).bind fun moon => (aroundEarth rd egm file center).bind fun earth =>
    .ok ⟨[initGravityGradient rd file mu, initSrp rd file, third] ++ moon ++ earth, fun _ => 0, fun _ => 0, fun _ => 0⟩

/-- `Update` of the derived class: gravity_gradient.cpp:22-26, solar_radiation_pressure_disturbance.cpp:19-24, third_body_gravity.cpp:19-31,
lunar_gravity_field.cpp:91-114 (always undefined, see `lunarUpdate`), air_drag.cpp:28-37, magnetic_disturbance.cpp:29-33, geopotential.cpp:73-91. Each sets only its own
vectors. -/
noncomputable def Obj.compute (o : Obj) (e : Surroundings) (old : Effect) : Res Effect :=
  match o with
  | .gravityGradient mu => .ok { old with torque := Dist.gravityGradient mu e.center e.inertia }
  | .solarRadiationPressure => .ok { old with force := (srp e.surfaces e.cog e.sun e.pressure).1, torque := (srp e.surfaces e.cog e.sun e.pressure).2 }
  | .thirdBodyGravity bodies => .ok { old with accelerationI := thirdBodyUpdate bodies e.fromSc e.mu e.position }
  | .lunarGravityField g => (lunarUpdate g ⟨some e.dcm, some e.dcm⟩ e.position).bind fun r => .ok { old with accelerationI := r.2 }
  | .airDrag a =>
    let r := a.forceTorque e.surfaces e.cog (airVelocity e.dcm e.velocityEcef e.quaternion) e.density
    .ok { old with force := r.1, torque := r.2 }
  | .magnetic => .ok { old with torque := magneticTorque e.moment e.field }
  | .geopotential g => (geopotentialUpdate g e.dcm e.positionEcef).bind fun r => .ok { old with accelerationI := r.2 }

/-- `UpdateIfEnabled`, disturbance.hpp:44-53. -/
noncomputable def Item.updateIfEnabled (i : Item) (e : Surroundings) : Res Item :=
  if i.enabled then (i.obj.compute e i.effect).bind fun r => .ok { i with effect := r }
  else .ok { i with effect := ⟨scale 0 i.effect.force, scale 0 i.effect.torque, scale 0 i.effect.accelerationB, scale 0 i.effect.accelerationI⟩ }

/-- One pass of the loop, disturbances.cpp:39-47. -/
noncomputable def Item.visit (i : Item) (c : Step) : Res Item :=
  if c.orbit then i.updateIfEnabled c.env
  else if c.attitude then (if i.dependent = true then i.updateIfEnabled c.env else .ok i)
  else .ok i

/-- All passes, disturbances.cpp:38-51. -/
noncomputable def visitAll (c : Step) : List Item → Res (List Item)
  | [] => .ok []
  | i :: l => (i.visit c).bind fun i => (visitAll c l).bind fun l => .ok (i :: l)

/-- `Disturbances::Update`, disturbances.cpp:33-52. -/
noncomputable def Items.update (s : Items) (c : Step) : Res Items :=
  (visitAll c s.list).bind fun l => .ok
    { list := l
      torque := l.foldl (fun a i => vadd a i.effect.torque) (fun _ => 0)
      force := l.foldl (fun a i => vadd a i.effect.force) (fun _ => 0)
      acceleration := l.foldl (fun a i => vadd a i.effect.accelerationI) (fun _ => 0) }

/-- A history of updates. -/
noncomputable def Items.run (s : Items) : List Step → Res Items
  | [] => .ok s
  | c :: h => (s.update c).bind fun s => s.run h

end S2E.InitDisturbance
