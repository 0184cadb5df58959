import Verif.Model.Integrator
import Verif.Model.Kepler
import Verif.Model.Quaternion
/-!
# `src/dynamics/orbit/{orbit,rk4_orbit_propagation,encke_orbit_propagation,relative_orbit}.cpp`, `src/math_physics/orbit/relative_orbit_models.cpp`

Doubles are real numbers (no rounding, infinities or NaN). The conversions to ECEF and geodetic coordinates which end every `Propagate`
(orbit.cpp:33-53) do not feed back into the propagation; `TransformEciToEcef` is modelled on its own, the process exit of
`TransformEcefToGeodetic` at a negative altitude is not part of the propagation models: they describe runs which do not end there.
A division by zero (position exactly at the centre) does not occur under the hypotheses of the theorems.
-/
namespace S2E.OrbitProp
open S2E.Integ S2E.Kepler

/-! ## The propagation loop shared by the three numerical propagators -/

/-- `while (end_time_s - propagation_time_s_ - propagation_step_s_ > 1.0e-6) { Update(); propagation_time_s_ += propagation_step_s_; }`,
rk4_orbit_propagation.cpp:72-76, encke_orbit_propagation.cpp:45-49, relative_orbit.cpp:125-129. `p` is `propagation_time_s_`, `z` the
independent variable and state of the `OrdinaryDifferentialEquation`. -/
noncomputable def odeLoop {n : ℕ} (f : ℝ → Vec n → Vec n) (endTime step : ℝ) : ℕ → ℝ → ℝ × Vec n → Res (ℝ × (ℝ × Vec n))
  | 0, _, _ => .stuck
  | fuel + 1, p, z =>
    if endTime - p - step > 1e-6 then odeLoop f endTime step fuel (p + step) (odeUpdate f step z.1 z.2) else .ok (p, z)

/-- The loop and the last, adjusted step, rk4_orbit_propagation.cpp:72-78, encke_orbit_propagation.cpp:45-51, relative_orbit.cpp:125-131. -/
noncomputable def odePropagate {n : ℕ} (f : ℝ → Vec n → Vec n) (endTime step : ℝ) (fuel : ℕ) (p : ℝ) (z : ℝ × Vec n) : Res (ℝ × Vec n) := do
  let r ← odeLoop f endTime step fuel p z
  .ok (odeUpdate f (endTime - r.1) r.2.1 r.2.2)

/-- `init_state` from position and velocity, rk4_orbit_propagation.cpp:45-51, relative_orbit.cpp:50-55. -/
def joinState (p v : Vec 3) : Vec 6 := ![p 0, p 1, p 2, v 0, v 1, v 2]

/-- `spacecraft_position_i_m_` from `GetState()`, rk4_orbit_propagation.cpp:81-83, encke_orbit_propagation.cpp:54-56, relative_orbit.cpp:134-136. -/
def statePosition (x : Vec 6) : Vec 3 := ![x 0, x 1, x 2]

/-- `spacecraft_velocity_i_m_s_` from `GetState()`, rk4_orbit_propagation.cpp:84-86, encke_orbit_propagation.cpp:57-59, relative_orbit.cpp:137-139. -/
def stateVelocity (x : Vec 6) : Vec 3 := ![x 3, x 4, x 5]

/-! ## Rk4OrbitPropagation -/

/-- `Rk4OrbitPropagation`, rk4_orbit_propagation.hpp:76-80, orbit.hpp:193-208. -/
structure Rk4Orbit where
  mu : ℝ
  /-- `propagation_step_s_` -/
  step : ℝ
  /-- `propagation_time_s_` -/
  time : ℝ
  /-- `independent_variable_` and `state_` -/
  ode : ℝ × Vec 6
  position : Vec 3
  velocity : Vec 3
  acceleration : Vec 3
  enabled : Bool

/-- `Rk4OrbitPropagation::DerivativeFunction`, rk4_orbit_propagation.cpp:27-41. -/
noncomputable def rk4Derivative (mu : ℝ) (acc : Vec 3) (_t : ℝ) (state : Vec 6) : Vec 6 :=
  let x := state 0
  let y := state 1
  let z := state 2
  let r3 := (x * x + y * y + z * z) ^ (1.5 : ℝ)
  ![state 3, state 4, state 5, acc 0 - mu / r3 * x, acc 1 - mu / r3 * y, acc 2 - mu / r3 * z]

/-- `Rk4OrbitPropagation::Initialize`, rk4_orbit_propagation.cpp:43-65. -/
def Rk4Orbit.init (s : Rk4Orbit) (p v : Vec 3) (initialTime : ℝ) : Rk4Orbit :=
  { s with ode := (initialTime, joinState p v), acceleration := 0, position := p, velocity := v }

/-- Constructor, rk4_orbit_propagation.cpp:13-23 (`is_calc_enabled_` is false until `SetIsCalcEnabled`). -/
def Rk4Orbit.new (mu step : ℝ) (p v : Vec 3) (initialTime : ℝ) : Rk4Orbit :=
  Rk4Orbit.init ⟨mu, step, 0, (0, 0), 0, 0, 0, false⟩ p v initialTime

/-- `Rk4OrbitPropagation::Propagate`, rk4_orbit_propagation.cpp:67-90. -/
noncomputable def Rk4Orbit.propagate (s : Rk4Orbit) (fuel : ℕ) (endTime : ℝ) : Res Rk4Orbit :=
  if s.enabled then do
    let z ← odePropagate (rk4Derivative s.mu s.acceleration) endTime s.step fuel s.time s.ode
    .ok { s with ode := z, time := endTime, position := statePosition z.2, velocity := stateVelocity z.2 }
  else .ok s

/-- `SetAcceleration_i_m_s2`, orbit.hpp:149. -/
def Rk4Orbit.setAcceleration (s : Rk4Orbit) (a : Vec 3) : Rk4Orbit := { s with acceleration := a }

/-- `AddForce_i_N` (orbit.hpp:156-160): the acceleration after adding a force. -/
noncomputable def addForceI (acceleration force : Vec 3) (mass : ℝ) : Vec 3 := vadd acceleration (vdiv force mass)

/-- `AddForce_b_N` (orbit.hpp:174-177): the acceleration after adding a force given in the body frame. -/
noncomputable def addForceB (acceleration force : Vec 3) (q : Quat) (mass : ℝ) : Vec 3 :=
  addForceI acceleration (q.inverseFrameConversion force) mass

/-! ## EnckeOrbitPropagation -/

/-- `EnckeOrbitPropagation`, encke_orbit_propagation.hpp, and the members of `Orbit` it uses. -/
structure Encke where
  mu : ℝ
  /-- `error_tolerance_` -/
  tolerance : ℝ
  /-- `propagation_step_s_` -/
  step : ℝ
  /-- `propagation_time_s_` -/
  time : ℝ
  /-- elements of `reference_kepler_orbit` -/
  oe : OrbitalElements
  refPosition : Vec 3
  refVelocity : Vec 3
  diffPosition : Vec 3
  diffVelocity : Vec 3
  /-- `independent_variable_` and `state_` -/
  ode : ℝ × Vec 6
  position : Vec 3
  velocity : Vec 3
  acceleration : Vec 3
  enabled : Bool

/-- `CalcQFunction`, encke_orbit_propagation.cpp:116-128, with `r` for `spacecraft_position_i_m_`. -/
noncomputable def calcQFunction (r diff : Vec 3) : ℝ :=
  let r2 := innerProduct r r
  let dr2r := vsub diff (scale 2 r)
  let q := innerProduct diff dr2r / r2
  q * (q * q + 3 * q + 3) / ((1 + q) ^ (1.5 : ℝ) + 1)

/-- `EnckeOrbitPropagation::DerivativeFunction`, encke_orbit_propagation.cpp:65-85; `ref` is `reference_position_i_m_`, `r` is
`spacecraft_position_i_m_` (both constant during a `Propagate`). -/
noncomputable def enckeDerivative (mu : ℝ) (ref r acc : Vec 3) (_t : ℝ) (state : Vec 6) : Vec 6 :=
  let diff : Vec 3 := statePosition state
  let qFunc := calcQFunction r diff
  let rm3 := calcNorm ref ^ 3
  let a := vadd (scale (-(mu / rm3)) (vadd (scale qFunc r) diff)) acc
  ![state 3, state 4, state 5, a 0, a 1, a 2]

/-- `UpdateSatOrbit`, encke_orbit_propagation.cpp:108-114. -/
def Encke.updateSatOrbit (s : Encke) : Encke :=
  { s with position := vadd s.refPosition s.diffPosition, velocity := vadd s.refVelocity s.diffVelocity }

/-- `EnckeOrbitPropagation::Initialize`, encke_orbit_propagation.cpp:88-106. -/
noncomputable def Encke.init (s : Encke) (jd : ℝ) (p v : Vec 3) : Encke :=
  Encke.updateSatOrbit
    { s with acceleration := 0, refPosition := p, refVelocity := v, oe := calcOeFromPosVel s.mu jd p v,
             diffPosition := 0, diffVelocity := 0, ode := (0, 0) }

/-- Constructor, encke_orbit_propagation.cpp:14-24. -/
noncomputable def Encke.new (mu step jd : ℝ) (p v : Vec 3) (tolerance : ℝ) : Encke :=
  Encke.init ⟨mu, tolerance, step, 0, ⟨0, 0, 0, 0, 0, 0⟩, 0, 0, 0, 0, (0, 0), 0, 0, 0, false⟩ jd p v

/-- The rectification test at the beginning of `Propagate`, encke_orbit_propagation.cpp:33-37. -/
noncomputable def Encke.rectify (s : Encke) (jd : ℝ) : Encke :=
  if calcNorm s.diffPosition / calcNorm s.position > s.tolerance then s.init jd s.position s.velocity else s

/-- `EnckeOrbitPropagation::Propagate`, encke_orbit_propagation.cpp:29-62. -/
noncomputable def Encke.propagate (s : Encke) (fuel : ℕ) (endTime jd : ℝ) : Res Encke :=
  if s.enabled then do
    let s1 := s.rectify jd
    let refP := Kepler.position s1.mu s1.oe jd
    let refV := Kepler.velocity s1.mu s1.oe jd
    let z ← odePropagate (enckeDerivative s1.mu refP s1.position s1.acceleration) endTime s1.step fuel s1.time s1.ode
    .ok (Encke.updateSatOrbit
      { s1 with refPosition := refP, refVelocity := refV, ode := z, time := endTime,
                diffPosition := statePosition z.2, diffVelocity := stateVelocity z.2 })
  else .ok s

/-! ## LVLH frame and ECEF -/

/-- `dcm_i2lvlh` of `CalcQuaternion_i2lvlh`, orbit.cpp:10-27. -/
noncomputable def dcmI2Lvlh (p v : Vec 3) : Mat 3 3 :=
  let ex := calcNormalizedVector p
  let lz := outerProduct p v
  let ez := calcNormalizedVector lz
  let ey := calcNormalizedVector (outerProduct lz p)
  !![ex 0, ex 1, ex 2; ey 0, ey 1, ey 2; ez 0, ez 1, ez 2]

/-- `Orbit::CalcQuaternion_i2lvlh`, orbit.cpp:9-31. -/
noncomputable def calcQuaternionI2Lvlh (p v : Vec 3) : Quat := (Quat.fromDcm (dcmI2Lvlh p v)).normalize

/-- `earth_mean_angular_velocity_rad_s`, physical_constants.hpp:36. -/
noncomputable def earthRate : ℝ := 7.292115e-5

/-- Position of `TransformEciToEcef`, orbit.cpp:34-35; `dcm` is `GetDcmJ2000ToEcef()`. -/
def ecefPosition (dcm : Mat 3 3) (p : Vec 3) : Vec 3 := matVec dcm p

/-- Velocity of `TransformEciToEcef`, orbit.cpp:38-42. -/
noncomputable def ecefVelocity (dcm : Mat 3 3) (p v : Vec 3) : Vec 3 :=
  matVec dcm (vsub v (outerProduct ![0, 0, earthRate] p))

/-! ## Relative orbit -/

/-- `n` of both functions, relative_orbit_models.cpp:12, 56. -/
noncomputable def hillRate (radius mu : ℝ) : ℝ := Real.sqrt (mu / radius ^ 3)

/-- `CalcHillSystemMatrix`, relative_orbit_models.cpp:9-51. -/
noncomputable def calcHillSystemMatrix (radius mu : ℝ) : Mat 6 6 :=
  let n := hillRate radius mu
  !![0, 0, 0, 1, 0, 0;
     0, 0, 0, 0, 1, 0;
     0, 0, 0, 0, 0, 1;
     3 * n * n, 0, 0, 0, 2 * n, 0;
     0, 0, 0, -2 * n, 0, 0;
     0, 0, -n * n, 0, 0, 0]

/-- `CalcHcwStm`, relative_orbit_models.cpp:53-95. -/
noncomputable def calcHcwStm (radius mu t : ℝ) : Mat 6 6 :=
  let n := hillRate radius mu
  !![4 - 3 * Real.cos (n * t), 0, 0, Real.sin (n * t) / n, 2 / n - 2 * Real.cos (n * t) / n, 0;
     -6 * n * t + 6 * Real.sin (n * t), 1, 0, -2 / n + 2 * Real.cos (n * t) / n, 4 * Real.sin (n * t) / n - 3 * t, 0;
     0, 0, Real.cos (n * t), 0, 0, Real.sin (n * t) / n;
     3 * n * Real.sin (n * t), 0, 0, Real.cos (n * t), 2 * Real.sin (n * t), 0;
     -6 * n + 6 * n * Real.cos (n * t), 0, 0, -2 * Real.sin (n * t), -3 + 4 * Real.cos (n * t), 0;
     0, 0, -n * Real.sin (n * t), 0, 0, Real.cos (n * t)]

/-- `RelativeOrbitUpdateMethod`, relative_orbit.hpp:28. -/
inductive UpdateMethod where
  | rk4
  | stm

/-- `RelativeOrbit`, relative_orbit.hpp:70-87. The two model enumerations have one member each (relative_orbit_models.hpp); any other
number read from the settings leaves the matrices as they are, which is not modelled. -/
structure Relative where
  mu : ℝ
  /-- `propagation_step_s_` -/
  step : ℝ
  /-- `propagation_time_s_` -/
  time : ℝ
  method : UpdateMethod
  systemMatrix : Mat 6 6
  /-- `independent_variable_` and `state_` -/
  ode : ℝ × Vec 6
  initialState : Vec 6
  relPosition : Vec 3
  relVelocity : Vec 3
  position : Vec 3
  velocity : Vec 3
  enabled : Bool

/-- `spacecraft_position_i_m_`, relative_orbit.cpp:43-47, 113-118: from the reference satellite's position and velocity. -/
noncomputable def inertialPosition (refP refV rel : Vec 3) : Vec 3 :=
  vadd (((calcQuaternionI2Lvlh refP refV).conjugate).frameConversion rel) refP

/-- `spacecraft_velocity_i_m_s_`, relative_orbit.cpp:48, 119. -/
noncomputable def inertialVelocity (refP refV relV : Vec 3) : Vec 3 :=
  vadd (((calcQuaternionI2Lvlh refP refV).conjugate).frameConversion relV) refV

/-- Constructor and `InitializeState`, relative_orbit.cpp:13-31, 35-69 (with the default initial time 0; the system matrix of the STM
method and the STM of the RK4 method are not used). `refP`, `refV`: the reference satellite at construction. -/
noncomputable def Relative.new (mu step : ℝ) (method : UpdateMethod) (relP relV refP refV : Vec 3) : Relative where
  mu := mu
  step := step
  time := 0
  method := method
  systemMatrix := calcHillSystemMatrix (calcNorm refP) mu
  ode := (0, joinState relP relV)
  initialState := joinState relP relV
  relPosition := relP
  relVelocity := relV
  position := inertialPosition refP refV relP
  velocity := inertialVelocity refP refV relV
  enabled := false

/-- `RelativeOrbit::DerivativeFunction`, relative_orbit.cpp:156-161. -/
def relativeDerivative (m : Mat 6 6) (_t : ℝ) (state : Vec 6) : Vec 6 := matVec m state

/-- `RelativeOrbit::Propagate`, relative_orbit.cpp:99-154; `refP`, `refV`: the reference satellite at the time of the call. -/
noncomputable def Relative.propagate (s : Relative) (fuel : ℕ) (endTime : ℝ) (refP refV : Vec 3) : Res Relative :=
  if s.enabled then
    match s.method with
    | .rk4 => do
      let z ← odePropagate (relativeDerivative s.systemMatrix) endTime s.step fuel s.time s.ode
      .ok { s with ode := z, time := endTime, relPosition := statePosition z.2, relVelocity := stateVelocity z.2,
                   position := inertialPosition refP refV (statePosition z.2), velocity := inertialVelocity refP refV (stateVelocity z.2) }
    | .stm =>
      let x := matVec (calcHcwStm (calcNorm refP) s.mu endTime) s.initialState
      .ok { s with relPosition := statePosition x, relVelocity := stateVelocity x,
                   position := inertialPosition refP refV (statePosition x), velocity := inertialVelocity refP refV (stateVelocity x) }
  else .ok s

end S2E.OrbitProp
