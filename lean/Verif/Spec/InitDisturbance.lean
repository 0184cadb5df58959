import Verif.Spec.InitWheel
import Verif.Model.InitDisturbance
/-!
# Specification: the disturbances of a spacecraft and how they are written in settings files
-/
namespace S2E.Settings
open Log InitOrbit Dist InitDisturbance

/-- The section of each disturbance. -/
def sectionOf : Kind → Str
  | .gravityGradient => "GRAVITY_GRADIENT".toList
  | .solarRadiationPressure => "SOLAR_RADIATION_PRESSURE_DISTURBANCE".toList
  | .thirdBodyGravity => "THIRD_BODY_GRAVITY".toList
  | .lunarGravityField => "LUNAR_GRAVITY_FIELD".toList
  | .airDrag => "AIR_DRAG".toList
  | .magnetic => "MAGNETIC_DISTURBANCE".toList
  | .geopotential => "GEOPOTENTIAL".toList

/-- Which disturbances are calculated and logged, the third bodies, the temperatures (°C) and the molecular weight (g/mol) of air drag, degree and coefficient
file of the two gravity fields. -/
structure DisturbanceSheet where
  on : Kind → Bool
  logged : Kind → Bool
  bodies : List String
  wall : ℝ
  molecular : ℝ
  weight : ℝ
  earthDegree : ℤ
  earthFile : Str
  moonDegree : ℤ
  moonFile : Str

def DisturbanceSheet.In (s : DisturbanceSheet) (rd : Reader) (file : File) : Prop :=
  (∀ k, Switch rd file (sectionOf k) "calculation".toList (s.on k) ∧ Switch rd file (sectionOf k) "logging".toList (s.logged k)) ∧
  Integer rd file "THIRD_BODY_GRAVITY".toList "number_of_third_body".toList s.bodies.length ∧
  (∀ i (hi : i < s.bodies.length), Text rd file "THIRD_BODY_GRAVITY".toList ("third_body_name(".toList ++ dec i ++ ")".toList) s.bodies[i].toList) ∧
  Number rd file "AIR_DRAG".toList "wall_temperature_degC".toList s.wall ∧ Number rd file "AIR_DRAG".toList "molecular_temperature_degC".toList s.molecular ∧
  Number rd file "AIR_DRAG".toList "molecular_weight_g_mol".toList s.weight ∧
  Integer rd file "GEOPOTENTIAL".toList "degree".toList s.earthDegree ∧ Text rd file "GEOPOTENTIAL".toList "coefficients_file_path".toList s.earthFile ∧
  Integer rd file "LUNAR_GRAVITY_FIELD".toList "degree".toList s.moonDegree ∧ Text rd file "LUNAR_GRAVITY_FIELD".toList "coefficients_file_path".toList s.moonFile

/-- The centre and the selected bodies in the base file. -/
def BodiesIn (center : String) (selected : List String) (rd : Reader) (base : File) : Prop :=
  Text rd base "CELESTIAL_INFORMATION".toList "center_object".toList center.toList ∧
  Integer rd base "CELESTIAL_INFORMATION".toList "number_of_selected_body".toList selected.length ∧
  ∀ i (hi : i < selected.length), Text rd base "CELESTIAL_INFORMATION".toList ("selected_body_name(".toList ++ dec i ++ ")".toList) selected[i].toList

/-- A disturbance is recalculated when the orbit is propagated; gravity gradient, light pressure, drag and the magnetic torque also when the attitude is. -/
def Recalculated (k : Kind) (c : Step) : Prop :=
  c.orbit = true ∨ c.attitude = true ∧ k ∈ [Kind.gravityGradient, .solarRadiationPressure, .airDrag, .magnetic]

instance (k : Kind) (c : Step) : Decidable (Recalculated k c) := by unfold Recalculated; infer_instance

/-- The surroundings of the last step in which the disturbance was recalculated. -/
def latest (k : Kind) (h : List Step) : Option Surroundings := ((h.filter fun c => Recalculated k c).getLast?).map Step.env

/-- What a disturbance shows: nothing if it is off or was never recalculated, otherwise what the formula gives in the latest surroundings. -/
def shown (on : Kind → Bool) (f : Kind → Surroundings → Vec 3) (h : List Step) (k : Kind) : Vec 3 :=
  if on k = true then (latest k h).elim 0 (f k) else 0

/-- The air drag of a sheet; the program takes 0 °C as 273 K. -/
noncomputable def DisturbanceSheet.drag (s : DisturbanceSheet) : AirDrag := ⟨s.wall + 273, s.molecular + 273, s.weight⟩

/-- The force of each disturbance. -/
noncomputable def DisturbanceSheet.force (s : DisturbanceSheet) : Kind → Surroundings → Vec 3
  | .solarRadiationPressure, e => (srp e.surfaces e.cog e.sun e.pressure).1
  | .airDrag, e => (s.drag.forceTorque e.surfaces e.cog (airVelocity e.dcm e.velocityEcef e.quaternion) e.density).1
  | _, _ => 0

/-- The torque of each disturbance; `mu` is the gravity constant of the centre body. -/
noncomputable def DisturbanceSheet.torque (s : DisturbanceSheet) (mu : ℝ) : Kind → Surroundings → Vec 3
  | .gravityGradient, e => gravityGradient mu e.center e.inertia
  | .solarRadiationPressure, e => (srp e.surfaces e.cog e.sun e.pressure).2
  | .airDrag, e => (s.drag.forceTorque e.surfaces e.cog (airVelocity e.dcm e.velocityEcef e.quaternion) e.density).2
  | .magnetic, e => magneticTorque e.moment e.field
  | _, _ => 0

end S2E.Settings
