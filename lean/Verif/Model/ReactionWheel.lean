import Verif.Model.Random
import Verif.Model.Quaternion
/-!
# `src/components/real/aocs/{reaction_wheel,reaction_wheel_ode}.{cpp,hpp}`, `src/math_physics/control_utilities/first_order_lag.hpp`

Doubles are real numbers; `abs` is the floating-point overload. The log strings and the reading of the settings file are left out. The jitter is in
`Model/WheelJitter.lean`. A conversion of a real number outside `[0, 2^64)` to `size_t` is undefined, as is one of an infinity or a NaN (step width
zero); a buffer longer than the largest vector of doubles is refused with an exception. Smaller allocations succeed.
-/
namespace S2E.Wheel

/-- Members of `FirstOrderLag`, first_order_lag.hpp:44-47. -/
structure Lag where
  output : ℝ
  step : ℝ
  constant : ℝ
  gain : ℝ

/-- `FirstOrderLag::Update`, first_order_lag.hpp:28-35. -/
noncomputable def Lag.update (l : Lag) (input : ℝ) : ℝ × Lag :=
  if l.step + l.constant ≤ 0 then (0, l)
  else
    let cOut := l.constant / (l.step + l.constant)
    let cIn := (l.gain * l.step) / (l.step + l.constant)
    let o := cOut * l.output + cIn * input
    (o, { l with output := o })

/-- The limiter in `ReactionWheelOde::DerivativeFunction`, reaction_wheel_ode.cpp:21-29: the new value of the member
`angular_acceleration_rad_s2_`. -/
noncomputable def limitAcceleration (limit omega a : ℝ) : ℝ :=
  if omega > limit then (if a > 0 then 0 else a)
  else if omega < -1 * limit then (if a < 0 then 0 else a)
  else a

/-- `ReactionWheelOde::DerivativeFunction`, reaction_wheel_ode.cpp:16-32. The hidden state is `angular_acceleration_rad_s2_`. -/
noncomputable def wheelDerivative (limit : ℝ) (x : Fin 1 → ℝ) (a : ℝ) : (Fin 1 → ℝ) × ℝ :=
  let a' := limitAcceleration limit (x 0) a
  (fun _ => a', a')

/-- Members of `ReactionWheelOde`, reaction_wheel_ode.hpp:60-61 and ordinary_differential_equation.hpp. -/
structure WheelOde where
  time : ℝ
  omega : ℝ
  step : ℝ
  limit : ℝ
  acceleration : ℝ

/-- `++ode_angular_velocity_`, ordinary_differential_equation_template_functions.hpp:21-45 with reaction_wheel_ode.cpp:16-32. -/
noncomputable def WheelOde.advance (o : WheelOde) : WheelOde :=
  let r := Random.rk4 o.step (fun _ x a => wheelDerivative o.limit x a) o.time (fun _ => o.omega) o.acceleration
  { o with time := r.1, omega := r.2.1 0, acceleration := r.2.2 }

/-- `math::rpm_to_rad_s`, constants.hpp:44. -/
noncomputable def rpmToRadS : ℝ := tau / 60

/-- `math::rad_s_to_rpm`, constants.hpp:45. -/
noncomputable def radSToRpm : ℝ := 60 / tau

/-- Members of `ReactionWheel`, reaction_wheel.hpp:175-214. -/
structure Wheel where
  inertia : ℝ
  maxTorque : ℝ
  maxRpm : ℝ
  position : Vec 3
  /-- `rotation_axis_b_` -/
  axis : Vec 3
  step : ℝ
  buffer : List ℝ
  lag : Lag
  friction : List ℝ
  stopLimit : ℝ
  drive : Bool
  /-- `target_acceleration_rad_s2_` -/
  target : ℝ
  /-- `generated_angular_acceleration_rad_s2_` -/
  generated : ℝ
  /-- `angular_velocity_rpm_` -/
  rpm : ℝ
  /-- `angular_velocity_rad_s_` -/
  omega : ℝ
  /-- `output_torque_b_Nm_` -/
  torque : Vec 3
  /-- `angular_momentum_b_Nms_` -/
  momentum : Vec 3
  limitRpm : ℝ
  ode : WheelOde

/-- The parameters of the constructor. -/
structure WheelParams where
  step : ℝ
  inertia : ℝ
  maxTorque : ℝ
  maxRpm : ℝ
  b2c : Quat
  position : Vec 3
  deadTime : ℝ
  timeConstant : ℝ
  friction : List ℝ
  stopLimit : ℝ
  drive : Bool
  initial : ℝ

/-- The constructors and `Initialize`, reaction_wheel.cpp:16-88. -/
noncomputable def Wheel.new (p : WheelParams) : Res Wheel :=
  if p.step = 0 then .ub
  else if ⌊p.deadTime / p.step⌋ < 0 ∨ 2 ^ 64 ≤ ⌊p.deadTime / p.step⌋ then .ub
  else if 2 ^ 60 - 1 < ⌊p.deadTime / p.step⌋ + 1 then .throws
  else .ok {
    inertia := p.inertia, maxTorque := p.maxTorque, maxRpm := p.maxRpm, position := p.position
    axis := p.b2c.inverseFrameConversion ![0, 0, 1]
    step := p.step
    buffer := List.replicate (⌊p.deadTime / p.step⌋.toNat + 1) 0
    lag := ⟨0, p.step, p.timeConstant, 1⟩
    friction := p.friction, stopLimit := p.stopLimit, drive := p.drive, target := 0, generated := 0
    rpm := p.initial * radSToRpm, omega := p.initial, torque := fun _ => 0, momentum := fun _ => 0, limitRpm := p.maxRpm
    ode := ⟨0, p.initial, p.step, p.maxRpm * rpmToRadS, 0⟩ }

/-- The loop of `CalcTorque`, reaction_wheel.cpp:112-115: the friction of coefficients `c_0, c_1, …` at speed `v` (first index `i`). -/
noncomputable def frictionLoop (v : ℝ) : ℕ → List ℝ → ℝ → ℝ
  | _, [], acc => acc
  | i, c :: cs, acc => frictionLoop v (i + 1) cs (acc + c * v ^ i)

/-- The end of `CalcTorque`, reaction_wheel.cpp:141-152. -/
noncomputable def Wheel.finish (w : Wheel) : Wheel :=
  let ode := w.ode.advance
  let generated := (ode.omega - w.omega) / w.step
  { w with
    ode := ode, omega := ode.omega, rpm := ode.omega * radSToRpm, generated := generated
    torque := scale (-1 * w.inertia * generated) w.axis
    momentum := scale (w.inertia * ode.omega) w.axis }

/-- `CalcTorque`, reaction_wheel.cpp:104-153, called by `MainRoutine` (90-93). -/
noncomputable def Wheel.main (w : Wheel) : Res Wheel :=
  if w.drive = false then
    let v := |w.omega|
    let a := frictionLoop v 0 w.friction 0
    let stopped := v < w.stopLimit
    let direction : ℝ := if stopped then 0 else if w.omega > 0 then -1 else 1
    let ode := if stopped then { w.ode with time := 0, omega := 0 } else w.ode
    .ok (Wheel.finish { w with buffer := w.buffer.map fun _ => 0, ode := { ode with acceleration := a * direction } })
  else
    match w.buffer with
    | [] => .ub
    | front :: rest =>
      let r := w.lag.update front
      .ok (Wheel.finish { w with lag := r.2, buffer := rest ++ [w.target], ode := { w.ode with acceleration := r.1 } })

/-- `PowerOffRoutine`, reaction_wheel.cpp:95. -/
def Wheel.powerOff (w : Wheel) : Wheel := { w with drive := false }

/-- `SetDriveFlag`, reaction_wheel.hpp:171. -/
def Wheel.setDrive (w : Wheel) (b : Bool) : Wheel := { w with drive := b }

/-- `SetTargetTorque_rw_Nm`, reaction_wheel.cpp:173-182. -/
noncomputable def Wheel.setTargetRw (w : Wheel) (t : ℝ) : Wheel :=
  let sign : ℝ := if t > 0 then 1 else -1
  if |t| < w.maxTorque then { w with target := t / w.inertia } else { w with target := sign * w.maxTorque / w.inertia }

/-- `SetTargetTorque_b_Nm`, reaction_wheel.cpp:183. -/
noncomputable def Wheel.setTargetB (w : Wheel) (t : ℝ) : Wheel := w.setTargetRw (-1 * t)

/-- `SetVelocityLimit_rpm`, reaction_wheel.cpp:185-195. -/
noncomputable def Wheel.setLimit (w : Wheel) (l : ℝ) : Wheel :=
  let l' := if l > w.maxRpm then w.maxRpm else if l < -1 * w.maxRpm then -1 * w.maxRpm else l
  { w with limitRpm := l', ode := { w.ode with limit := l' * rpmToRadS } }

/-- The calls another component, the clock or the power port can make. -/
inductive Op where
  | targetRw (t : ℝ)
  | targetB (t : ℝ)
  | limit (rpm : ℝ)
  | drive (b : Bool)
  | main
  | powerOff

/-- One call. -/
noncomputable def Wheel.apply (w : Wheel) : Op → Res Wheel
  | .targetRw t => .ok (w.setTargetRw t)
  | .targetB t => .ok (w.setTargetB t)
  | .limit l => .ok (w.setLimit l)
  | .drive b => .ok (w.setDrive b)
  | .main => w.main
  | .powerOff => .ok w.powerOff

/-- A history of calls. -/
noncomputable def Wheel.run : List Op → Wheel → Res Wheel
  | [], w => .ok w
  | o :: rest, w => (w.apply o).bind (Wheel.run rest)

/-- The direction mode `DIRECTION` of the settings file, reaction_wheel.cpp:284-289. -/
noncomputable def directionQuaternion (eps : ℝ) (direction : Vec 3) : Res Quat :=
  (Quat.ofTwoVectors eps direction ![0, 0, 1]).bind fun q => .ok q.conjugate

end S2E.Wheel
