import Verif.Model.Celestial
/-!
# `src/environment/local/{earth_albedo,earth_infrared}.cpp`

Doubles are real numbers. A NaN shadow coefficient makes the albedo NaN (`none`).
-/
namespace S2E.Env

/-- `stefan_boltzmann_constant_W_m2K4`, physical_constants.hpp:24. -/
noncomputable def stefanBoltzmann : ℝ := 5.670374419e-8

/-- `EarthAlbedo`, earth_albedo.hpp, and `EarthInfrared`, earth_infrared.hpp:70-76, with the radiation environment they read. -/
structure EarthRad where
  srp : Srp
  albedoOn : Bool
  factor : ℝ
  albedo : Option ℝ
  infraredOn : Bool
  hot : ℝ
  cold : ℝ
  infrared : ℝ

/-- `InitEarthAlbedo`, earth_albedo.cpp:52-63, `InitEarthInfrared`, earth_infrared.cpp:54-66: both values start at 0. -/
noncomputable def EarthRad.new (srp : Srp) (albedoOn : Bool) (factor : ℝ) (infraredOn : Bool) (hot cold : ℝ) : EarthRad :=
  ⟨srp, albedoOn, factor, some 0, infraredOn, hot, cold, 0⟩

/-- `EarthAlbedo::UpdateAllStates`, `CalcEarthAlbedo`, earth_albedo.cpp:22-25, 46-48. -/
noncomputable def EarthRad.updateAlbedo (e : EarthRad) : EarthRad :=
  if e.albedoOn = false then e else { e with albedo := e.srp.getPowerDensity.map fun p => p * e.factor }

open Classical in
/-- `EarthInfrared::UpdateAllStates`, `CalcEarthInfrared`, earth_infrared.cpp:22-25, 47-53. -/
noncomputable def EarthRad.updateInfrared (e : EarthRad) : EarthRad :=
  if e.infraredOn = false then e
  else if e.srp.isEclipsed then { e with infrared := stefanBoltzmann * e.cold ^ 4 } else { e with infrared := stefanBoltzmann * e.hot ^ 4 }

/-- The part of `LocalEnvironment::Update`, local_environment.cpp:69-72, for an orbit propagation flag and the bodies as the spacecraft sees them. -/
noncomputable def EarthRad.step (spice : String → Option Int) (e : EarthRad) (x : Bool × Celestial × Local) : Res EarthRad :=
  if x.1 then (e.srp.update spice x.2.1 x.2.2).bind fun srp => .ok ({ e with srp := srp } : EarthRad).updateAlbedo.updateInfrared else .ok e

/-- A history of updates. -/
noncomputable def EarthRad.run (spice : String → Option Int) (e : EarthRad) : List (Bool × Celestial × Local) → Res EarthRad
  | [] => .ok e
  | x :: xs => (e.step spice x).bind fun e => EarthRad.run spice e xs

end S2E.Env
