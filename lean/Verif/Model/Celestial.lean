import Verif.Model.Basic
import Verif.Model.LinAlg
import Verif.Model.Quaternion
import Mathlib.Analysis.SpecialFunctions.Pow.Real
import Mathlib.Analysis.SpecialFunctions.Trigonometric.Inverse
/-!
# `src/environment/global/celestial_information`, `src/environment/local/local_celestial_information`,
`src/environment/local/solar_radiation_pressure_environment`

Doubles are real numbers. The arrays of `3 n` doubles indexed by `i * 3 + j` are lists of `n` vectors. The SPICE library is a parameter:
`spice` is `bodn2c_c` (name to identifier, `none` when the name is unknown), `bodyName` is `bodc2n_c` and `spk` is `spkezr_c` with the frame,
aberration correction and centre fixed.
-/
namespace S2E.Env

/-- `CelestialInformation`, celestial_information.hpp:235-247, without the rotation models. -/
structure Celestial where
  ids : List Int
  center : String
  position : List (Vec 3)
  velocity : List (Vec 3)
  gravity : List ℝ
  radii : List (Vec 3)
  meanRadius : List ℝ

/-- Reading entry `i` of an array; outside of it the behaviour is undefined. -/
def getAt {α : Type} (l : List α) (i : ℕ) : Res α :=
  match l[i]? with
  | some a => .ok a
  | none => .ub

/-- The mean radius computed by the constructor, celestial_information.cpp:61-65. -/
noncomputable def meanRadiusOf (r : Vec 3) : ℝ := (r 0 * r 1 * r 2) ^ (1 / 3 : ℝ)

/-- The constructor, celestial_information.cpp:23-71: `gm` and `radiiKm` are what `bodvcd_c` returns. The arrays of positions and velocities
are allocated without initialisation; here they are zero until the first update. The rotation models are left out. -/
noncomputable def Celestial.new (ids : List Int) (center : String) (gm : Int → ℝ) (radiiKm : Int → Vec 3) : Celestial where
  ids := ids
  center := center
  position := ids.map fun _ => fun _ => 0
  velocity := ids.map fun _ => fun _ => 0
  gravity := ids.map fun p => gm p * 1000000000
  radii := ids.map fun p => fun j => radiiKm p j * 1000
  meanRadius := ids.map fun p => meanRadiusOf fun j => radiiKm p j * 1000

/-- The name used for the ephemeris, celestial_information.cpp:189-193. -/
def ephemerisName (name : String) : String :=
  if name = "MARS" ∨ name = "JUPITER" ∨ name = "SATURN" ∨ name = "URANUS" ∨ name = "NEPTUNE" ∨ name = "PLUTO" then name ++ "_BARYCENTER" else name

/-- `UpdateAllObjectsInformation`, celestial_information.cpp:108-127, 187-201. The updates of the rotation models (129-132) are left out. -/
noncomputable def Celestial.update (bodyName : Int → String) (spk : String → ℝ → Vec 3 × Vec 3) (c : Celestial) (et : ℝ) : Celestial :=
  { c with
    position := c.ids.map fun p => fun j => (spk (ephemerisName (bodyName p)) et).1 j * 1000
    velocity := c.ids.map fun p => fun j => (spk (ephemerisName (bodyName p)) et).2 j * 1000 }

/-- `CalcBodyIdFromName`, celestial_information.cpp:135-149. When the name is unknown to SPICE `planet_id` is read without having been set. -/
def Celestial.calcBodyIdFromName (spice : String → Option Int) (c : Celestial) (name : String) : Res ℕ :=
  match spice name with
  | none => .ub
  | some p => .ok ((c.ids.findIdx? fun i => i = p).getD 0)

/-- `GetPositionFromCenter_i_m(id)`, celestial_information.hpp:78-83. -/
def Celestial.getPositionFromCenterAt (c : Celestial) (id : ℕ) : Res (Vec 3) :=
  if id > c.ids.length then .ok fun _ => 0 else getAt c.position id

/-- `GetPositionFromCenter_i_m(name)`, celestial_information.hpp:89-92. -/
def Celestial.getPositionFromCenter (spice : String → Option Int) (c : Celestial) (name : String) : Res (Vec 3) :=
  (c.calcBodyIdFromName spice name).bind c.getPositionFromCenterAt

/-- `GetPositionFromSelectedBody_i_m`, celestial_information.hpp:99-106. -/
def Celestial.getPositionFromSelectedBody (spice : String → Option Int) (c : Celestial) (target reference : String) : Res (Vec 3) :=
  (c.getPositionFromCenter spice target).bind fun t =>
    (c.getPositionFromCenter spice reference).bind fun r => .ok (vsub t r)

/-- `GetGravityConstant_m3_s2`, celestial_information.hpp:149-152. -/
def Celestial.getGravityConstant (spice : String → Option Int) (c : Celestial) (name : String) : Res ℝ :=
  (c.calcBodyIdFromName spice name).bind (getAt c.gravity)

/-- `GetMeanRadiusFromName_m`, celestial_information.hpp:185-188. -/
def Celestial.getMeanRadius (spice : String → Option Int) (c : Celestial) (name : String) : Res ℝ :=
  (c.calcBodyIdFromName spice name).bind (getAt c.meanRadius)

/-- `LocalCelestialInformation`: the four arrays its getters and its log read, local_celestial_information.cpp:22-27. -/
structure Local where
  positionI : List (Vec 3)
  velocityI : List (Vec 3)
  positionB : List (Vec 3)
  velocityB : List (Vec 3)

/-- `ConvertVelocityInertialToBody`, local_celestial_information.cpp:105-134. -/
def convertVelocity (r v : Vec 3) (q : Quat) (w : Vec 3) : Vec 3 := q.frameConversion (vsub v (outerProduct w r))

/-- `UpdateAllObjectsInformation` and `CalcAllPosVel_b`, local_celestial_information.cpp:48-92. -/
def Celestial.localUpdate (c : Celestial) (position velocity : Vec 3) (q : Quat) (w : Vec 3) : Local :=
  let rs := c.position.map fun r => vsub r position
  let vs := c.velocity.map fun v => vsub v velocity
  { positionI := rs
    velocityI := vs
    positionB := rs.map q.frameConversion
    velocityB := List.zipWith (fun r v => convertVelocity r v q w) rs vs }

/-- `GetPositionFromSpacecraft_i_m`, local_celestial_information.cpp:136-144. -/
def Celestial.getPositionFromSpacecraftI (spice : String → Option Int) (c : Celestial) (l : Local) (name : String) : Res (Vec 3) :=
  (c.calcBodyIdFromName spice name).bind (getAt l.positionI)

/-- `GetPositionFromSpacecraft_b_m`, local_celestial_information.cpp:152-160. -/
def Celestial.getPositionFromSpacecraftB (spice : String → Option Int) (c : Celestial) (l : Local) (name : String) : Res (Vec 3) :=
  (c.calcBodyIdFromName spice name).bind (getAt l.positionB)

/-- `environment::speed_of_light_m_s` and `astronomical_unit_m`, physical_constants.hpp:22, 31. -/
noncomputable def speedOfLight : ℝ := 299792458
noncomputable def astronomicalUnit : ℝ := 149597870700

/-- `a / b` of doubles where a zero divisor gives an infinity or a NaN, neither of which the functions applied to the result accept. -/
noncomputable def quot (a b : ℝ) : Option ℝ := if b = 0 then none else some (a / b)

/-- `asin` and `acos`: NaN (`none`) outside of [-1, 1]. -/
noncomputable def asinC (x : ℝ) : Option ℝ := if -1 ≤ x ∧ x ≤ 1 then some (Real.arcsin x) else none
noncomputable def acosC (x : ℝ) : Option ℝ := if -1 ≤ x ∧ x ≤ 1 then some (Real.arccos x) else none

/-- `SolarRadiationPressureEnvironment`, solar_radiation_pressure_environment.hpp:96-100. The coefficient is `none` when it is NaN. -/
structure Srp where
  enabled : Bool
  pressure : ℝ
  coefficient : Option ℝ
  sunRadius : ℝ
  sources : List String

/-- The constructor, solar_radiation_pressure_environment.cpp:18-23. -/
noncomputable def Srp.new (spice : String → Option Int) (c : Celestial) : Res Srp :=
  (c.getMeanRadius spice "SUN").bind fun r => .ok ⟨true, 1366 / speedOfLight, some 1, r, [c.center]⟩

/-- `InitSolarRadiationPressureEnvironment`, solar_radiation_pressure_environment.cpp:107-123: `third` is the list read from the settings file,
which has as many entries as `number_of_third_shadow_source`. -/
noncomputable def Srp.init (spice : String → Option Int) (c : Celestial) (enabled : Bool) (third : List String) : Res Srp :=
  (Srp.new spice c).bind fun s =>
    third.foldlM (fun s _ => (getAt third 0).bind fun n => .ok { s with sources := s.sources ++ [n] }) { s with enabled := enabled }

/-- The four cases of `CalcShadowCoefficient` once the two apparent radii `a`, `b` and the separation `c` are known,
solar_radiation_pressure_environment.cpp:79-104; `exit(1)` is `throws`. -/
noncomputable def shadowCases (prev : Option ℝ) (a b c : ℝ) : Res (Option ℝ) :=
  if c < |a - b| ∧ a ≤ b then .ok (prev.map fun p => p * 0)
  else if c < |a - b| ∧ a > b then .ok (some (1 - b * b / (a * a)))
  else if |a - b| ≤ c ∧ c ≤ a + b then
    .ok ((quot (c * c + a * a - b * b) (2 * c)).bind fun x =>
      let y := Real.sqrt (max (a * a - x * x) 0)
      ((quot x a).bind acosC).bind fun u =>
        ((quot (c - x) b).bind acosC).bind fun v =>
          let area := a * a * u + b * b * v - c * y
          prev.map fun p => p * (1 - area / (Real.pi * a * a)))
  else if c < a + b then .throws
  else .ok (prev.map fun p => p * 1)

/-- `CalcShadowCoefficient` with the looked-up positions and radii, solar_radiation_pressure_environment.cpp:69-105. A NaN among the two apparent
radii and the separation makes every comparison false, so that the coefficient is multiplied by one. -/
noncomputable def shadowStep (prev : Option ℝ) (sun source : Vec 3) (sunRadius radius : ℝ) : Res (Option ℝ) :=
  let a := (quot sunRadius (calcNorm sun)).bind asinC
  let b := (quot radius (calcNorm source)).bind asinC
  let s2s := vsub sun source
  let d := ((quot (innerProduct source (vsub sun source)) (calcNorm source)).bind fun t => quot t (calcNorm s2s)).bind acosC
  match a, b, d with
  | some a, some b, some d => shadowCases prev a b d
  | _, _, _ => .ok (prev.map fun p => p * 1)

/-- `CalcShadowCoefficient`, solar_radiation_pressure_environment.cpp:60-105. -/
noncomputable def Srp.calcShadow (spice : String → Option Int) (c : Celestial) (l : Local) (s : Srp) (name : String) : Res Srp :=
  if name = "SUN" then .ok { s with coefficient := s.coefficient.map fun p => p * 1 }
  else
    (c.getPositionFromSpacecraftI spice l "SUN").bind fun sun =>
      (c.getPositionFromSpacecraftI spice l name).bind fun source =>
        (c.getMeanRadius spice name).bind fun radius =>
          (shadowStep s.coefficient sun source s.sunRadius radius).bind fun k => .ok { s with coefficient := k }

/-- `UpdatePressure`, solar_radiation_pressure_environment.cpp:35-40. -/
noncomputable def Srp.updatePressure (spice : String → Option Int) (c : Celestial) (l : Local) (s : Srp) : Res Srp :=
  (c.getPositionFromSpacecraftI spice l "SUN").bind fun sun =>
    .ok { s with pressure := 1366 / speedOfLight / (calcNorm sun / astronomicalUnit) ^ 2 }

/-- `UpdateAllStates`, solar_radiation_pressure_environment.cpp:25-33. -/
noncomputable def Srp.update (spice : String → Option Int) (c : Celestial) (l : Local) (s : Srp) : Res Srp :=
  if s.enabled = false then .ok s
  else
    (s.updatePressure spice c l).bind fun s1 =>
      s1.sources.foldlM (fun s name => s.calcShadow spice c l name) { s1 with coefficient := some 1 }

/-- `GetPressure_N_m2`, `GetPowerDensity_W_m2`, `GetPressureWithoutEclipse_Nm2`, `GetIsEclipsed`,
solar_radiation_pressure_environment.hpp:56-66, 81. -/
noncomputable def Srp.getPressure (s : Srp) : Option ℝ := s.coefficient.map fun k => s.pressure * k
noncomputable def Srp.getPowerDensity (s : Srp) : Option ℝ := s.coefficient.map fun k => s.pressure * speedOfLight * k
noncomputable def Srp.getPressureWithoutEclipse (s : Srp) : ℝ := s.pressure
noncomputable def Srp.isEclipsed (s : Srp) : Prop := ¬ ∃ k, s.coefficient = some k ∧ k ≥ 1

end S2E.Env
