import Verif.Model.LinAlg
import Verif.Model.Quaternion
import Verif.Model.OrbitProp
import Verif.Model.Random
import Mathlib.MeasureTheory.Integral.IntervalIntegral.Basic
import Mathlib.Analysis.SpecialFunctions.Exp
/-!
# `src/disturbances/` and `src/simulation/spacecraft/spacecraft.cpp`

Doubles are real numbers. The environment a disturbance reads is an arbitrary value of a type `E`; logging and reading of settings files
are left out except for the checks of `InitSurfaces`.
-/
namespace S2E.Dist

/-- The four vectors of `Disturbance`, disturbance.hpp:90-93. -/
@[ext] structure Effect where
  force : Vec 3
  torque : Vec 3
  accelerationB : Vec 3
  accelerationI : Vec 3

/-- The zero vectors of the constructor, disturbance.hpp:28-31. -/
def Effect.zero : Effect := ⟨fun _ => 0, fun _ => 0, fun _ => 0, fun _ => 0⟩

/-- `Disturbance`, disturbance.hpp:18-94. `inner` stands for the members of the derived class and `compute` for its `Update`, which reads
the environment and may change those members and any of the four vectors. -/
structure Disturbance (E S : Type) where
  enabled : Bool
  attitudeDependent : Bool
  compute : E → S → Effect → S × Effect
  inner : S
  effect : Effect

variable {E S : Type}

/-- The constructor, disturbance.hpp:26-32. -/
def Disturbance.new (enabled attitudeDependent : Bool) (compute : E → S → Effect → S × Effect) (inner : S) : Disturbance E S :=
  ⟨enabled, attitudeDependent, compute, inner, Effect.zero⟩

/-- `UpdateIfEnabled`, disturbance.hpp:44-53. -/
def Disturbance.updateIfEnabled (d : Disturbance E S) (e : E) : Disturbance E S :=
  if d.enabled then
    let r := d.compute e d.inner d.effect
    { d with inner := r.1, effect := r.2 }
  else
    { d with effect := ⟨scale 0 d.effect.force, scale 0 d.effect.torque, scale 0 d.effect.accelerationB, scale 0 d.effect.accelerationI⟩ }

/-- `Disturbances`, disturbances.hpp:76-81. -/
structure Disturbances (E S : Type) where
  list : List (Disturbance E S)
  torque : Vec 3
  force : Vec 3
  acceleration : Vec 3

/-- The constructor with the list built by `InitializeInstances`, disturbances.cpp:20-25. -/
def Disturbances.new (l : List (Disturbance E S)) : Disturbances E S := ⟨l, fun _ => 0, fun _ => 0, fun _ => 0⟩

/-- One element of the loop of `Disturbances::Update`, disturbances.cpp:39-47. -/
def Disturbance.visit (d : Disturbance E S) (e : E) (orbitFlag attitudeFlag : Bool) : Disturbance E S :=
  if orbitFlag then d.updateIfEnabled e
  else if attitudeFlag then (if d.attitudeDependent = true then d.updateIfEnabled e else d)
  else d

/-- `Disturbances::Update`, disturbances.cpp:33-52. -/
def Disturbances.update (s : Disturbances E S) (e : E) (orbitFlag attitudeFlag : Bool) : Disturbances E S :=
  let l := s.list.map fun d => d.visit e orbitFlag attitudeFlag
  { list := l
    torque := l.foldl (fun a d => vadd a d.effect.torque) (fun _ => 0)
    force := l.foldl (fun a d => vadd a d.effect.force) (fun _ => 0)
    acceleration := l.foldl (fun a d => vadd a d.effect.accelerationI) (fun _ => 0) }

/-- The classes `InitializeInstances` can instantiate. -/
inductive Kind where
  | gravityGradient | solarRadiationPressure | thirdBodyGravity | lunarGravityField | airDrag | magnetic | geopotential
  deriving DecidableEq, Repr

/-- The second argument each class passes to the constructor of `Disturbance`: gravity_gradient.cpp:20, surface_force.cpp:14 (solar radiation
pressure, air drag), third_body_gravity.cpp:13, lunar_gravity_field.cpp:23, magnetic_disturbance.cpp:19, geopotential.cpp:23. -/
def Kind.attitudeDependent : Kind → Bool
  | .gravityGradient => true
  | .solarRadiationPressure => true
  | .thirdBodyGravity => false
  | .lunarGravityField => false
  | .airDrag => true
  | .magnetic => true
  | .geopotential => false

/-- `InitializeInstances`, disturbances.cpp:61-94: the disturbances created for the name of the centre body, in order. -/
def initializeInstances (centerBodyName : String) : List Kind :=
  let l := [.gravityGradient, .solarRadiationPressure, .thirdBodyGravity]
  let l := if centerBodyName = "MOON" then l ++ [.lunarGravityField] else l
  if centerBodyName ≠ "EARTH" then l else l ++ [.airDrag, .magnetic, .geopotential]

/-! ## The loads of one spacecraft step -/

/-- What `Spacecraft::Update` hands to the propagation: `torque_b_Nm_` of the attitude and `spacecraft_acceleration_i_m_s2_` of the orbit. -/
structure Loads where
  torque : Vec 3
  acceleration : Vec 3

/-- `Dynamics::ClearForceTorque`, dynamics.cpp:59-63. -/
def Loads.clear (_l : Loads) : Loads := ⟨fun _ => 0, fun _ => 0⟩

/-- `Dynamics::AddTorque_b_Nm`, dynamics.hpp:74, attitude.hpp:87. -/
def Loads.addTorque (l : Loads) (t : Vec 3) : Loads := { l with torque := vadd l.torque t }

/-- `Dynamics::AddAcceleration_i_m_s2`, dynamics.hpp:88, orbit.hpp:159. -/
def Loads.addAcceleration (l : Loads) (a : Vec 3) : Loads := { l with acceleration := vadd l.acceleration a }

/-- `Dynamics::AddForce_b_N`, dynamics.hpp:80-82, orbit.hpp:167-170. -/
noncomputable def Loads.addForce (l : Loads) (f : Vec 3) (q : Quat) (mass : ℝ) : Loads :=
  { l with acceleration := OrbitProp.addForceB l.acceleration f q mass }

/-- State of a spacecraft for one step: attitude quaternion, attitude state `A`, orbit state `O`, disturbances. -/
structure Craft (E S A O : Type) where
  quaternion : A → Quat
  attitude : A
  orbit : O
  disturbances : Disturbances E S
  loads : Loads

/-- `Spacecraft::Update`, spacecraft.cpp:55-77, with `Dynamics::Update`, dynamics.cpp:41-57. `environment` is `LocalEnvironment::Update`;
`components` returns the torque and force of the components after their update (both may read attitude and orbit); the propagations of
attitude and orbit are arbitrary functions of their state and of the loads. Thermal propagation and the orbit's body frame velocity
(`UpdateByAttitude`) are left out. -/
noncomputable def Craft.update {A O : Type} (environment : A → O → E) (components : A → O → Vec 3 × Vec 3) (mass : ℝ)
    (propagateAttitude : A → Vec 3 → A) (propagateOrbit : O → Vec 3 → O) (orbitFlag attitudeFlag : Bool) (c : Craft E S A O) : Craft E S A O :=
  let loads := c.loads.clear
  let e := environment c.attitude c.orbit
  let d := c.disturbances.update e orbitFlag attitudeFlag
  let comp := components c.attitude c.orbit
  let q := c.quaternion c.attitude
  let loads := loads.addAcceleration d.acceleration
  let loads := loads.addTorque d.torque
  let loads := loads.addForce d.force q mass
  let loads := loads.addTorque comp.1
  let loads := loads.addForce comp.2 q mass
  { c with
    attitude := if attitudeFlag then propagateAttitude c.attitude loads.torque else c.attitude
    orbit := if orbitFlag then propagateOrbit c.orbit loads.acceleration else c.orbit
    disturbances := d
    loads := loads }

/-! ## Gravity gradient -/

/-- `GravityGradient::CalcTorque_b_Nm`, gravity_gradient.cpp:28-36. -/
noncomputable def gravityGradient (mu : ℝ) (earth : Vec 3) (inertia : Mat 3 3) : Vec 3 :=
  let r := calcNorm earth
  let u := vdiv earth r
  scale (3 * mu / r ^ 3) (outerProduct u (matVec inertia u))

/-! ## Third body gravity -/

/-- `ThirdBodyGravity::CalcAcceleration_i_m_s2`, third_body_gravity.cpp:33-45. -/
noncomputable def thirdBodyAcceleration (s sr : Vec 3) (mu : ℝ) : Vec 3 :=
  let sn := calcNorm s
  let sn3 := sn * sn * sn
  let srn := calcNorm sr
  let srn3 := srn * srn * srn
  scale mu (vsub (scale (1 / srn3) sr) (scale (1 / sn3) s))

/-- `std::set<std::string>::insert` as used by `InitThirdBodyGravity`, third_body_gravity.cpp:80-95: a name already present is not added. The
set iterates in sorted order; the order does not influence a sum, so insertion order is kept here. -/
def insertName (l : List String) (n : String) : List String := if n ∈ l then l else l ++ [n]

/-- The list of bodies, third_body_gravity.cpp:80-96, from the names in the file. The `assert`s of lines 89 and 93 (not the centre, and among
the selected bodies) abort the program when they fail: `throws`. -/
def thirdBodyList (enabled : Bool) (center : String) (selected : List String) : List String → Res (List String)
  | names => if enabled then names.foldlM (fun l n => if n = center ∨ n ∉ selected then .throws else .ok (insertName l n)) [] else .ok []

/-- `ThirdBodyGravity::Update`, third_body_gravity.cpp:19-31: `fromSc` is `GetPositionFromSpacecraft_i_m`. -/
noncomputable def thirdBodyUpdate (bodies : List String) (fromSc : String → Vec 3) (mu : String → ℝ) (sc : Vec 3) : Vec 3 :=
  bodies.foldl (fun acc b => vadd acc (thirdBodyAcceleration (vadd sc (fromSc b)) (fromSc b) (mu b))) (fun _ => 0)

/-! ## Surface forces -/

/-- `spacecraft::Surface`, surface.hpp. -/
structure Surface where
  position : Vec 3
  normal : Vec 3
  area : ℝ
  reflectivity : ℝ
  specularity : ℝ
  airSpecularity : ℝ

/-- `CalcTheta`, surface_force.cpp:50-57, cosine for one surface. -/
noncomputable def cosTheta (input : Vec 3) (s : Surface) : ℝ := innerProduct s.normal (calcNormalizedVector input)

/-- `CalcTheta`, surface_force.cpp:55, sine. (The square root of a negative number would be NaN; here 0.) -/
noncomputable def sinTheta (input : Vec 3) (s : Surface) : ℝ := Real.sqrt (1 - cosTheta input s * cosTheta input s)

/-- The force on one surface, surface_force.cpp:32-40: `cn`, `ct` are its entries in `normal_coefficients_` and `tangential_coefficients_`. -/
noncomputable def surfaceForce (input : Vec 3) (s : Surface) (cn ct : ℝ) : Vec 3 :=
  if cosTheta input s > 0 then
    let ncu := outerProduct (calcNormalizedVector input) s.normal
    let inPlane := outerProduct (calcNormalizedVector ncu) s.normal
    vadd (scale (-1 * cn) s.normal) (scale ct inPlane)
  else fun _ => 0

/-- `CalcTorqueForce`, surface_force.cpp:23-48: total force and torque. -/
noncomputable def calcTorqueForce (coefficients : Surface → ℝ × ℝ) (surfaces : List Surface) (cog input : Vec 3) : Vec 3 × Vec 3 :=
  surfaces.foldl (fun acc s =>
    let f := surfaceForce input s (coefficients s).1 (coefficients s).2
    (vadd acc.1 f, vadd acc.2 (if cosTheta input s > 0 then outerProduct (vsub s.position cog) f else fun _ => 0)))
    (fun _ => 0, fun _ => 0)

/-- `SolarRadiationPressureDisturbance::CalcCoefficients`, solar_radiation_pressure_disturbance.cpp:26-37. -/
noncomputable def srpCoefficients (input : Vec 3) (pressure : ℝ) (s : Surface) : ℝ × ℝ :=
  let c := cosTheta input s
  (s.area * pressure * ((1 + s.reflectivity * s.specularity) * c ^ 2 + 2 / 3 * s.reflectivity * (1 - s.specularity) * c),
   s.area * pressure * (1 - s.reflectivity * s.specularity) * c * sinTheta input s)

/-- `SolarRadiationPressureDisturbance::Update`, solar_radiation_pressure_disturbance.cpp:19-24: force and torque. -/
noncomputable def srp (surfaces : List Surface) (cog sun : Vec 3) (pressure : ℝ) : Vec 3 × Vec 3 :=
  calcTorqueForce (srpCoefficients sun pressure) surfaces cog sun

/-- The C library's `erf`. -/
noncomputable def erf (s : ℝ) : ℝ := 2 / Real.sqrt Real.pi * ∫ t in (0)..s, Real.exp (-(t ^ 2))

/-- `CalcFunctionPi`, air_drag.cpp:49-54. -/
noncomputable def functionPi (s : ℝ) : ℝ := s * Real.exp (-s * s) + Real.sqrt Real.pi * (s * s + 0.5) * (1 + erf s)

/-- `CalcFunctionChi`, air_drag.cpp:56-61. -/
noncomputable def functionChi (s : ℝ) : ℝ := Real.exp (-s * s) + Real.sqrt Real.pi * s * (1 + erf s)

/-- `boltzmann_constant_J_K`, physical_constants.hpp:23. -/
noncomputable def boltzmann : ℝ := 1.380649e-23

/-- `AirDrag`, air_drag.hpp: wall temperature, molecular temperature [K], molecular weight [g/mol]. -/
structure AirDrag where
  wallTemperature : ℝ
  molecularTemperature : ℝ
  molecularWeight : ℝ

/-- The speed ratio of `CalcCnCt`, air_drag.cpp:64-68. -/
noncomputable def AirDrag.speed (a : AirDrag) (velocity : Vec 3) : ℝ :=
  Real.sqrt (a.molecularWeight * calcNorm velocity * calcNorm velocity / (2 * boltzmann * a.wallTemperature))

/-- `CalcCnCt`, air_drag.cpp:63-78, for one surface. -/
noncomputable def AirDrag.cnct (a : AirDrag) (velocity : Vec 3) (s : Surface) : ℝ × ℝ :=
  let speed := a.speed velocity
  let sn := speed * cosTheta velocity s
  let st := speed * sinTheta velocity s
  let diffuse := 1 - s.airSpecularity
  ((2 - diffuse) / Real.sqrt Real.pi * functionPi sn / (speed * speed) +
     diffuse / 2 * functionChi sn / (speed * speed) * Real.sqrt (a.wallTemperature / a.molecularTemperature),
   diffuse * st * functionChi sn / (Real.sqrt Real.pi * speed * speed))

/-- `AirDrag::CalcCoefficients`, air_drag.cpp:39-47. -/
noncomputable def AirDrag.coefficients (a : AirDrag) (velocity : Vec 3) (density : ℝ) (s : Surface) : ℝ × ℝ :=
  let v := calcNorm velocity
  let k := 0.5 * density * v * v * s.area
  (k * (a.cnct velocity s).1, k * (a.cnct velocity s).2)

/-- `CalcTorqueForce` as called by `AirDrag::Update`, air_drag.cpp:36: force and torque for a velocity relative to the air (body frame). -/
noncomputable def AirDrag.forceTorque (a : AirDrag) (surfaces : List Surface) (cog velocity : Vec 3) (density : ℝ) : Vec 3 × Vec 3 :=
  calcTorqueForce (a.coefficients velocity density) surfaces cog velocity

/-- `AirDrag::Update`, air_drag.cpp:28-37: the velocity passed on. -/
def airVelocity (dcmEciToEcef : Mat 3 3) (velocityEcef : Vec 3) (q : Quat) : Vec 3 :=
  q.frameConversion (matVec (matTranspose dcmEciToEcef) velocityEcef)

/-- `MIN_VAL`, initialize_structure.cpp:13. -/
noncomputable def minVal : ℝ := 1e-6

open Classical in
/-- The loop of `InitSurfaces`, initialize_structure.cpp:43-107, over the surfaces described in the file. -/
noncomputable def initSurfaces : List Surface → List Surface
  | [] => []
  | s :: rest =>
    if s.area < -minVal then []
    else if s.reflectivity < -minVal then []
    else if s.reflectivity > 1 + minVal then []
    else if s.specularity < -minVal then []
    else if s.specularity > 1 + minVal then []
    else if s.airSpecularity < -minVal then []
    else if s.airSpecularity > 1 + minVal then []
    else { s with normal := if calcNorm s.normal > 1 + minVal then calcNormalizedVector s.normal else s.normal } :: initSurfaces rest

/-! ## Magnetic disturbance -/

/-- `ResidualMagneticMoment`, residual_magnetic_moment.hpp:68-71. -/
structure Rmm where
  constant : Vec 3
  walkStd : ℝ
  walkLimit : ℝ
  noiseStd : ℝ

/-- The function-local statics of `CalcRMM`, magnetic_disturbance.cpp:36-40: one set for the whole program. The noise sources are arbitrary
states `γ` with a drawing function `draw std`; `walk` and `time` are the state and independent variable of the random walk. -/
structure Statics (γ : Type) where
  walkStd : ℝ
  walkLimit : ℝ
  noiseStd : ℝ
  time : ℝ
  walk : Vec 3
  walkNoise : Fin 3 → γ
  noise : γ

/-- Initialisation of the statics by the first call, magnetic_disturbance.cpp:36-40: `seed` produces the noise sources in order. -/
def Statics.new {γ : Type} (p : Rmm) (walkNoise : Fin 3 → γ) (noise : γ) : Statics γ :=
  ⟨p.walkStd, p.walkLimit, p.noiseStd, 0, fun _ => 0, walkNoise, noise⟩

/-- `CalcRMM`, magnetic_disturbance.cpp:35-47: the moment and the new statics. `draw std g` is a draw of `NormalRand` with average 0 and
standard deviation `std`; the operators `+=`, `random_walk[i]` and `++random_walk` are as in the source, the step width is 0.1. -/
noncomputable def calcRmm {γ : Type} (draw : ℝ → γ → ℝ × γ) (fresh : (Fin 3 → γ) × γ) (p : Rmm) (st : Option (Statics γ)) : Vec 3 × Statics γ :=
  let s := st.getD (Statics.new p fresh.1 fresh.2)
  let d0 := draw s.noiseStd s.noise
  let d1 := draw s.noiseStd d0.2
  let d2 := draw s.noiseStd d1.2
  let rmm : Vec 3 := ![p.constant 0 + (s.walk 0 + d0.1), p.constant 1 + (s.walk 1 + d1.1), p.constant 2 + (s.walk 2 + d2.1)]
  let w := Random.rk4 0.1 (fun _ x g => Random.walkDerivative (draw s.walkStd) (fun _ => s.walkLimit) x g) s.time s.walk s.walkNoise
  (rmm, { s with time := w.1, walk := w.2.1, walkNoise := w.2.2, noise := d2.2 })

/-- `CalcTorque_b_Nm`, magnetic_disturbance.cpp:23-27, `kMagUnit_` = 1e-9 (magnetic_disturbance.hpp:53). -/
noncomputable def magneticTorque (rmm field : Vec 3) : Vec 3 := scale 1e-9 (outerProduct rmm field)

/-- `MagneticDisturbance::Update`, magnetic_disturbance.cpp:29-33: moment, torque and statics. -/
noncomputable def magneticUpdate {γ : Type} (draw : ℝ → γ → ℝ × γ) (fresh : (Fin 3 → γ) × γ) (p : Rmm) (st : Option (Statics γ)) (field : Vec 3) :
    Vec 3 × Vec 3 × Statics γ :=
  let r := calcRmm draw fresh p st
  (r.1, magneticTorque r.1 field, r.2)

end S2E.Dist
