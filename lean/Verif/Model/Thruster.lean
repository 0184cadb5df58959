import Verif.Model.ReactionWheel
/-!
# `src/components/real/propulsion/simple_thruster.{cpp,hpp}`

Doubles are real numbers. The log strings and the reading of the settings file are left out. Noise sources are as in `Model/Magnetorquer.lean`: a
standard deviation and the state of a standard source `std : γ → ℝ × γ`. The angle made from `rand()` (simple_thruster.cpp:132-138), a number in
`[-π, π]`, is a parameter of the update, as is the centre of gravity. The buffer is as in `Model/ReactionWheel.lean`.
-/
namespace S2E.Thruster

/-- Members of `SimpleThruster`, simple_thruster.hpp:121-136. -/
structure Thruster (γ : Type) where
  position : Vec 3
  direction : Vec 3
  duty : ℝ
  maxThrust : ℝ
  sigmaDirection : ℝ
  sigmaMagnitude : ℝ
  noiseMagnitude : γ
  noiseDirection : γ
  buffer : List ℝ
  lag : Wheel.Lag
  thrust : Vec 3
  torque : Vec 3

/-- The parameters of the constructors. -/
structure Params where
  position : Vec 3
  direction : Vec 3
  maxThrust : ℝ
  sigmaMagnitude : ℝ
  sigmaDirection : ℝ
  deadTime : ℝ
  timeConstant : ℝ
  step : ℝ

/-- The constructors, `Initialize` and `InitializeDelay`, simple_thruster.cpp:13-66. `SetParameters` without a seed leaves both generators in the state
`g0` of the default constructor. -/
noncomputable def Thruster.new {γ : Type} (p : Params) (g0 : γ) : Res (Thruster γ) :=
  if p.step = 0 then .ub
  else if ⌊p.deadTime / p.step⌋ < 0 ∨ 2 ^ 64 ≤ ⌊p.deadTime / p.step⌋ then .ub
  else if 2 ^ 60 - 1 < ⌊p.deadTime / p.step⌋ + 1 then .throws
  else .ok {
    position := p.position, direction := calcNormalizedVector p.direction, duty := 0, maxThrust := p.maxThrust
    sigmaDirection := p.sigmaDirection, sigmaMagnitude := p.sigmaMagnitude, noiseMagnitude := g0, noiseDirection := g0
    buffer := List.replicate (⌊p.deadTime / p.step⌋.toNat + 1) 0
    lag := ⟨0, p.step, p.timeConstant, 1⟩
    thrust := fun _ => 0, torque := fun _ => 0 }

/-- `CalcThrustDirection`, simple_thruster.cpp:125-148: the direction and the new state of the generator. `turn` is `make_axis_rot_rad`, `eps` is
`DBL_EPSILON`. -/
noncomputable def Thruster.trueDirection {γ : Type} (std : γ → ℝ × γ) (eps : ℝ) (s : Thruster γ) (turn : ℝ) : Vec 3 × γ :=
  if s.sigmaDirection > 0 + eps then
    let axis := (Quat.ofAxisAngle s.direction turn).frameConversion ![1, 0, 0]
    let d := std s.noiseDirection
    ((Quat.ofAxisAngle axis (s.sigmaDirection * d.1)).frameConversion s.direction, d.2)
  else (s.direction, s.noiseDirection)

/-- `MainRoutine` with `CalcThrust`, `CalcTorque` and `CalcThrustMagnitude`, simple_thruster.cpp:68-73, 80-91, 113-123. -/
noncomputable def Thruster.main {γ : Type} (std : γ → ℝ × γ) (eps : ℝ) (s : Thruster γ) (turn : ℝ) (center : Vec 3) : Res (Thruster γ) :=
  match s.buffer with
  | [] => .ub
  | front :: rest =>
    let r := s.lag.update front
    let mag := r.1 * s.maxThrust
    let noise := std s.noiseMagnitude
    let mag' := if s.duty > 0 + eps then mag + s.sigmaMagnitude * noise.1 else mag
    let d := s.trueDirection std eps turn
    let thrust := scale mag' d.1
    .ok { s with
      buffer := rest ++ [s.duty], lag := r.2
      noiseMagnitude := if s.duty > 0 + eps then noise.2 else s.noiseMagnitude
      noiseDirection := d.2, thrust := thrust, torque := outerProduct (vsub s.position center) thrust }

/-- `PowerOffRoutine`, simple_thruster.cpp:75-78. -/
def Thruster.powerOff {γ : Type} (s : Thruster γ) : Thruster γ := { s with thrust := scale 0 s.thrust, torque := scale 0 s.torque }

/-- `SetDuty`, simple_thruster.hpp:117. -/
def Thruster.setDuty {γ : Type} (s : Thruster γ) (d : ℝ) : Thruster γ := { s with duty := d }

/-- The calls another component, the clock or the power port can make. -/
inductive Op where
  | duty (d : ℝ)
  | main (turn : ℝ) (center : Vec 3)
  | powerOff

/-- One call. -/
noncomputable def Thruster.apply {γ : Type} (std : γ → ℝ × γ) (eps : ℝ) (s : Thruster γ) : Op → Res (Thruster γ)
  | .duty d => .ok (s.setDuty d)
  | .main turn center => s.main std eps turn center
  | .powerOff => .ok s.powerOff

/-- A history of calls. -/
noncomputable def Thruster.run {γ : Type} (std : γ → ℝ × γ) (eps : ℝ) : List Op → Thruster γ → Res (Thruster γ)
  | [], s => .ok s
  | o :: rest, s => (s.apply std eps o).bind (Thruster.run std eps rest)

end S2E.Thruster
