import Verif.Model.Lu
import Verif.Model.LinAlg
import Verif.Model.Quaternion
import Verif.Model.Celestial
/-!
# `src/dynamics/attitude/{attitude,attitude_rk4}.cpp`

Doubles are real numbers. Monte-Carlo settings and logging are left out.
-/
namespace S2E.Att
open S2E.Lu

/-- Members of `Attitude` and `AttitudeRk4`, attitude.hpp:119-131, attitude_rk4.hpp. `inertia` is the tensor the reference
`inertia_tensor_kgm2_` points to. -/
structure Attitude where
  enabled : Bool
  step : ℝ
  omega : Vec 3
  quat : Quat
  torque : Vec 3
  inertia : Mat 3 3
  wheel : Vec 3
  totalMomentumI : Vec 3
  totalMomentum : ℝ
  kineticEnergy : ℝ
  time : ℝ
  prevInertia : Mat 3 3
  inverse : Mat 3 3
  torqueChange : Vec 3

/-- `CalcAngularVelocityMatrix`, attitude.cpp:62-83. -/
def angularVelocityMatrix (w : Vec 3) : Mat 4 4 :=
  Matrix.of ![![0, w 2, -w 1, w 0], ![-w 2, 0, w 0, w 1], ![w 1, -w 0, 0, w 2], ![-w 0, -w 1, -w 2, 0]]

/-- `CalcAngularMomentum`, attitude.cpp:52-60. -/
noncomputable def Attitude.calcAngularMomentum (s : Attitude) : Attitude :=
  let spacecraft := matVec s.inertia s.omega
  let totalB := vadd s.wheel spacecraft
  let totalI := s.quat.conjugate.frameConversion totalB
  { s with totalMomentumI := totalI, totalMomentum := calcNorm totalI, kineticEnergy := 0.5 * innerProduct spacecraft s.omega }

/-- The constructor, attitude_rk4.cpp:14-27, attitude.cpp:11-22. -/
noncomputable def Attitude.new (omega : Vec 3) (quat : Quat) (inertia : Mat 3 3) (torque : Vec 3) (step : ℝ) : Res Attitude :=
  (calcInverseMatrix inertia).bind fun inv =>
    .ok (Attitude.calcAngularMomentum
      { enabled := true, step := step, omega := omega, quat := quat, torque := torque, inertia := inertia, wheel := fun _ => 0,
        totalMomentumI := fun _ => 0, totalMomentum := 0, kineticEnergy := 0, time := 0, prevInertia := inertia, inverse := inv,
        torqueChange := fun _ => 0 })

/-- The vector of seven numbers: angular velocity, then quaternion, attitude_rk4.cpp:92-98. -/
def pack (w : Vec 3) (q : Quat) : Vec 7 := ![w 0, w 1, w 2, q.x, q.y, q.z, q.w]

/-- The first three and the last four numbers, attitude_rk4.cpp:65-68, 77-80, 116-121. -/
def unpackOmega (x : Vec 7) : Vec 3 := ![x 0, x 1, x 2]
def unpackQuat (x : Vec 7) : Quat := ⟨x 3, x 4, x 5, x 6⟩

/-- `AttitudeDynamicsAndKinematics`, attitude_rk4.cpp:60-89, as a function of the members it reads. -/
noncomputable def derivative (prevInertia inverse : Mat 3 3) (torque wheel torqueChange : Vec 3) (x : Vec 7) : Vec 7 :=
  let omega := unpackOmega x
  let momentum := vadd (matVec prevInertia omega) wheel
  let rhs := matVec inverse (vsub (vsub torque (outerProduct omega momentum)) torqueChange)
  let q := unpackQuat x
  let m := angularVelocityMatrix omega
  let d : Vec 4 := matVec (Matrix.of fun i j => 0.5 * m i j) ![q.x, q.y, q.z, q.w]
  ![rhs 0, rhs 1, rhs 2, d 0, d 1, d 2, d 3]

/-- The Runge-Kutta step of `RungeKuttaOneStep` before the normalisation, attitude_rk4.cpp:100-114. The derivative does not depend on time. -/
noncomputable def rungeKutta (f : Vec 7 → Vec 7) (dt : ℝ) (x : Vec 7) : Vec 7 :=
  let k1 := f x
  let xk2 := x + (dt / 2) • k1
  let k2 := f xk2
  let xk3 := x + (dt / 2) • k2
  let k3 := f xk3
  let xk4 := x + dt • k3
  let k4 := f xk4
  x + (dt / 6) • (k1 + (2 : ℝ) • k2 + (2 : ℝ) • k3 + k4)

/-- `RungeKuttaOneStep`, attitude_rk4.cpp:91-123: the new angular velocity and quaternion. -/
noncomputable def oneStep (f : Vec 7 → Vec 7) (dt : ℝ) (z : Vec 3 × Quat) : Vec 3 × Quat :=
  let next := rungeKutta f dt (pack z.1 z.2)
  (unpackOmega next, (unpackQuat next).normalize)

/-- The loop of `Propagate`, attitude_rk4.cpp:48-51. -/
noncomputable def loop (f : Vec 7 → Vec 7) (endTime step : ℝ) : ℕ → ℝ → Vec 3 × Quat → Res (ℝ × (Vec 3 × Quat))
  | 0, _, _ => .stuck
  | fuel + 1, p, z => if endTime - p - step > 1e-6 then loop f endTime step fuel (p + step) (oneStep f step z) else .ok (p, z)

/-- `Propagate`, attitude_rk4.cpp:41-58. `none` stands for a state in which angular velocity and quaternion are NaN: for `end_time_s` equal to
the current time the rate of change of the inertia tensor is `inf * 0`. -/
noncomputable def Attitude.propagate (s : Attitude) (fuel : ℕ) (endTime : ℝ) : Res (Option Attitude) :=
  if s.enabled = false then .ok (some s)
  else
    (calcInverseMatrix s.inertia).bind fun inv =>
      if endTime - s.time = 0 then .ok none
      else
        let dot : Mat 3 3 := Matrix.of fun i j => (1 / (endTime - s.time)) * (s.inertia i j - s.prevInertia i j)
        let change := matVec dot s.omega
        let f := derivative s.prevInertia inv s.torque s.wheel change
        (loop f endTime s.step fuel s.time (s.omega, s.quat)).bind fun r =>
          let z := oneStep f (endTime - r.1) r.2
          .ok (some (Attitude.calcAngularMomentum
            { s with omega := z.1, quat := z.2, torqueChange := change, inverse := inv, time := endTime, prevInertia := s.inertia }))

/-- `SetTorque_b_Nm`, `AddTorque_b_Nm`, `SetRwAngularMomentum_b_Nms`, attitude.hpp:82-94. -/
def Attitude.setTorque (s : Attitude) (t : Vec 3) : Attitude := { s with torque := t }
def Attitude.addTorque (s : Attitude) (t : Vec 3) : Attitude := { s with torque := vadd s.torque t }
def Attitude.setWheel (s : Attitude) (h : Vec 3) : Attitude := { s with wheel := h }

/-- A history of the caller: for every entry set the torque and the wheels' angular momentum, then call `Propagate` with the end time
(`Dynamics::Update`, dynamics.cpp:46-63, and the actuators). -/
noncomputable def runSpin (fuel : ℕ) : List (ℝ × Vec 3 × Vec 3) → Attitude → Res (Option Attitude)
  | [], s => .ok (some s)
  | (e, t, h) :: rest, s => (((s.setTorque t).setWheel h).propagate fuel e).bind fun r =>
      match r with
      | none => .ok none
      | some s' => runSpin fuel rest s'

end S2E.Att
