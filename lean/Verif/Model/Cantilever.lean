import Verif.Model.Attitude
import Verif.Model.Integrator
/-!
# `src/dynamics/attitude/{attitude_with_cantilever_vibration.cpp,ode_attitude_with_cantilever_vibration.hpp}`

Doubles are real numbers. Monte-Carlo settings and logging are left out.
-/
namespace S2E.Att
open S2E.Lu S2E.Integ

/-- Members of `AttitudeWithCantileverVibration` and of its `attitude_ode_`, attitude_with_cantilever_vibration.hpp:74-79 and
ode_attitude_with_cantilever_vibration.hpp:226-237. `base` holds the members of `Attitude`, `current_propagation_time_s_` and the members
`previous_inertia_tensor_kgm2_`, `inverse_inertia_tensor_`, `torque_inertia_tensor_b_Nm_` of the differential equation. The torque and the wheel
momentum which the differential equation stores are those of `base` whenever it is evaluated. -/
structure Cantilever where
  base : Attitude
  /-- `angular_velocity_cantilever_rad_s_` -/
  rate : Vec 3
  /-- `euler_angular_cantilever_rad_` -/
  angle : Vec 3
  /-- `inertia_tensor_cantilever_kgm2_` -/
  inertiaC : Mat 3 3
  /-- `inverse_equivalent_inertia_tensor_cantilever_` -/
  invEquivalent : Mat 3 3
  /-- `inverse_total_inertia_tensor_` -/
  invTotal : Mat 3 3
  /-- `attenuation_coefficient_` -/
  attenuation : ℝ
  /-- `spring_coefficient_` -/
  spring : ℝ
  /-- `numerical_integrator_` -/
  integrator : Integrator 13

/-- `SetStateFromPhysicalQuantities`, ode_attitude_with_cantilever_vibration.hpp:32-49. -/
def packC (w u : Vec 3) (q : Quat) (a : Vec 3) : Vec 13 := ![w 0, w 1, w 2, u 0, u 1, u 2, q.x, q.y, q.z, q.w, a 0, a 1, a 2]

/-- `SetPhysicalQuantitiesFromState`, ode_attitude_with_cantilever_vibration.hpp:56-71. -/
def omegaOf (x : Vec 13) : Vec 3 := ![x 0, x 1, x 2]
def rateOf (x : Vec 13) : Vec 3 := ![x 3, x 4, x 5]
def quatOf (x : Vec 13) : Quat := ⟨x 6, x 7, x 8, x 9⟩
def angleOf (x : Vec 13) : Vec 3 := ![x 10, x 11, x 12]

/-- The parameters the differential equation reads. -/
structure CantileverOde where
  prevInertia : Mat 3 3
  inverse : Mat 3 3
  inertiaC : Mat 3 3
  invEquivalent : Mat 3 3
  invTotal : Mat 3 3
  attenuation : ℝ
  spring : ℝ
  torque : Vec 3
  wheel : Vec 3
  torqueChange : Vec 3

/-- `DerivativeFunction`, ode_attitude_with_cantilever_vibration.hpp:73-118. -/
noncomputable def CantileverOde.derivative (o : CantileverOde) (x : Vec 13) : Vec 13 :=
  let omega := omegaOf x
  let rate := rateOf x
  let q := quatOf x
  let angle := angleOf x
  let momentum := vadd (matVec o.prevInertia omega) o.wheel
  let net := vsub (vsub o.torque (outerProduct omega momentum)) o.torqueChange
  let acc := vsub (vneg (matVec o.invEquivalent (vadd (scale o.attenuation rate) (scale o.spring angle)))) (matVec o.inverse net)
  let rhs := matVec o.invTotal (vsub net (matVec o.inertiaC acc))
  let m := angularVelocityMatrix omega
  let d : Vec 4 := matVec (Matrix.of fun i j => 0.5 * m i j) ![q.x, q.y, q.z, q.w]
  packC rhs acc ⟨d 0, d 1, d 2, d 3⟩ rate

/-- The constructor, attitude_with_cantilever_vibration.cpp:13-43. The integrator is constructed while the matrices of the differential
equation are still zero. -/
noncomputable def Cantilever.new (omega : Vec 3) (quat : Quat) (inertia inertiaC : Mat 3 3) (damping intrinsic : ℝ) (torque : Vec 3) (step : ℝ) :
    Res Cantilever :=
  let zero : CantileverOde := ⟨0, 0, 0, 0, 0, 0, 0, 0, 0, 0⟩
  (calcInverseMatrix inertia).bind fun inv =>
    (calcInverseMatrix (inertia + inertiaC)).bind fun invT =>
      .ok {
        base := Attitude.calcAngularMomentum
          { enabled := true, step := step, omega := omega, quat := quat, torque := torque, inertia := inertia, wheel := fun _ => 0,
            totalMomentumI := fun _ => 0, totalMomentum := 0, kineticEnergy := 0, time := 0, prevInertia := inertia, inverse := inv,
            torqueChange := fun _ => 0 }
        rate := fun _ => 0
        angle := fun _ => 0
        inertiaC := inertiaC
        invEquivalent := matMul inv (inertia + inertiaC)
        invTotal := invT
        attenuation := 2 * damping * intrinsic
        spring := intrinsic ^ (2 : ℝ)
        integrator := Integ.new rk4 (fun _ => zero.derivative) step }

/-- The loop of `Propagate`, attitude_with_cantilever_vibration.cpp:90-93. -/
noncomputable def cantileverLoop (f : ℝ → Vec 13 → Vec 13) (endTime step : ℝ) : ℕ → ℝ → Integrator 13 → Res (ℝ × Integrator 13)
  | 0, _, _ => .stuck
  | fuel + 1, p, z => if endTime - p - step > 1e-6 then cantileverLoop f endTime step fuel (p + step) (integrate rk4 f z) else .ok (p, z)

/-- `Propagate`, attitude_with_cantilever_vibration.cpp:75-104. The assertion (79) aborts the program: `throws`. The first argument of
`SetState` (89, 94) is the independent variable of the integrator, not its step width. -/
noncomputable def Cantilever.propagate (s : Cantilever) (fuel : ℕ) (endTime : ℝ) : Res Cantilever :=
  if s.base.enabled = false then .ok s
  else if ¬ (endTime - s.base.time > 1e-6) then .throws
  else
    let dot : Mat 3 3 := Matrix.of fun i j => (1 / (endTime - s.base.time)) * (s.base.inertia i j - s.base.prevInertia i j)
    let change := matVec dot s.base.omega
    (calcInverseMatrix s.base.inertia).bind fun inv =>
      let ode : CantileverOde := ⟨s.base.prevInertia, inv, s.inertiaC, s.invEquivalent, s.invTotal, s.attenuation, s.spring, s.base.torque, s.base.wheel, change⟩
      let f : ℝ → Vec 13 → Vec 13 := fun _ => ode.derivative
      let z0 := setState s.integrator s.base.step (packC s.base.omega s.rate s.base.quat s.angle)
      (cantileverLoop f endTime s.base.step fuel s.base.time z0).bind fun r =>
        let z := integrate rk4 f (setState r.2 (endTime - r.1) r.2.current)
        .ok { s with
          base := Attitude.calcAngularMomentum
            { s.base with omega := omegaOf z.current, quat := (quatOf z.current).normalize, torqueChange := change, inverse := inv, time := endTime,
                          prevInertia := s.base.inertia }
          rate := rateOf z.current
          angle := angleOf z.current
          integrator := z }

/-- `SetTorque_b_Nm`, `SetRwAngularMomentum_b_Nms`, attitude.hpp:82-94. -/
def Cantilever.load (s : Cantilever) (t h : Vec 3) : Cantilever := { s with base := (s.base.setTorque t).setWheel h }

/-- A history of the caller: for every entry set the torque and the wheels' angular momentum, then call `Propagate` with the end time
(`Dynamics::Update`, dynamics.cpp:46-63, and the actuators). -/
noncomputable def runCantilever (fuel : ℕ) : List (ℝ × Vec 3 × Vec 3) → Cantilever → Res Cantilever
  | [], s => .ok s
  | (e, t, h) :: rest, s => ((s.load t h).propagate fuel e).bind (runCantilever fuel rest)

end S2E.Att
