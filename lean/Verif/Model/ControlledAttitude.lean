import Verif.Model.Attitude
/-!
# `src/dynamics/attitude/controlled_attitude.cpp`

Doubles are real numbers. The surroundings (ephemeris, orbit, Earth rotation, geodetic target) are inputs of every call.
-/
namespace S2E.Att
open S2E.Lu

/-- `AttitudeControlMode`, controlled_attitude.hpp:22-31. -/
inductive Mode where
  | inertialStabilize | sunPointing | earthCenterPointing | velocityDirection | groundSpeedDirection | orbitNormal | earthSurface | noControl
  deriving DecidableEq, Repr

/-- `ConvertStringToCtrlMode`, controlled_attitude.cpp:147-165. -/
def Mode.ofString (s : String) : Mode :=
  if s = "INERTIAL_STABILIZE" then .inertialStabilize
  else if s = "SUN_POINTING" then .sunPointing
  else if s = "EARTH_CENTER_POINTING" then .earthCenterPointing
  else if s = "VELOCITY_DIRECTION_POINTING" then .velocityDirection
  else if s = "GROUND_SPEED_DIRECTION_POINTING" then .groundSpeedDirection
  else if s = "ORBIT_NORMAL_POINTING" then .orbitNormal
  else if s = "EARTH_SURFACE_POINTING" then .earthSurface
  else .noControl

/-- What the pointing modes read: the positions of Sun and Earth from the spacecraft (as last updated) and from the centre, position and
velocity of the orbit, its Earth-fixed velocity, the matrix from J2000 to the Earth-fixed frame and the Earth-fixed position of the target. -/
structure World where
  sunLocal : Vec 3
  sunCenter : Vec 3
  earthLocal : Vec 3
  earthCenter : Vec 3
  position : Vec 3
  velocity : Vec 3
  velocityEcef : Vec 3
  dcmJ2000ToEcef : Mat 3 3
  targetEcef : Vec 3

/-- Members of `ControlledAttitude`, controlled_attitude.hpp:107-116, attitude.hpp:119-124. The momentum and energy members of `Attitude` are
left out: this class never computes them. -/
structure Controlled where
  enabled : Bool
  main : Mode
  sub : Mode
  mainB : Vec 3
  subB : Vec 3
  omega : Vec 3
  quat : Quat
  torque : Vec 3
  inertia : Mat 3 3
  prevTime : ℝ
  prevQuat : Quat
  prevOmega : Vec 3

/-- `Initialize`, controlled_attitude.cpp:33-57. -/
noncomputable def Controlled.initializeModes (s : Controlled) : Controlled :=
  let s := if s.main = .noControl ∨ s.sub = .noControl then { s with enabled := false } else s
  if s.main = .inertialStabilize then s
  else if s.main = s.sub then { s with enabled := false }
  else
    let m := calcNormalizedVector s.mainB
    let u := calcNormalizedVector s.subB
    if |innerProduct m u| > Real.cos (30 * (Real.pi / 180)) then { s with enabled := false, mainB := m, subB := u }
    else { s with mainB := m, subB := u }

/-- The constructor, controlled_attitude.cpp:12-28, attitude.cpp:11-22 (angular velocity and torque start at zero). The previous quaternion and
angular velocity have no initial value; they are not read before they are set. -/
noncomputable def Controlled.new (main sub : Mode) (q : Quat) (mainB subB : Vec 3) (inertia : Mat 3 3) (q0 : Quat) (w0 : Vec 3) : Controlled :=
  Controlled.initializeModes
    { enabled := true, main := main, sub := sub, mainB := mainB, subB := subB, omega := fun _ => 0, quat := q, torque := fun _ => 0,
      inertia := inertia, prevTime := -1, prevQuat := q0, prevOmega := w0 }

/-- `CalcTargetDirection_i` before the normalisation, controlled_attitude.cpp:79-111. In the modes without a case the vector is never set. -/
noncomputable def targetVector (w : World) : Mode → Res (Vec 3)
  | .sunPointing => .ok (if calcNorm w.sunLocal = 0 then vsub w.sunCenter w.position else w.sunLocal)
  | .earthCenterPointing => .ok (if calcNorm w.earthLocal = 0 then vsub w.earthCenter w.position else w.earthLocal)
  | .velocityDirection => .ok w.velocity
  | .groundSpeedDirection => .ok (matVec (matTranspose w.dcmJ2000ToEcef) w.velocityEcef)
  | .orbitNormal => .ok (outerProduct w.position w.velocity)
  | .earthSurface => .ok (vsub (matVec (matTranspose w.dcmJ2000ToEcef) w.targetEcef) w.position)
  | .inertialStabilize => .ub
  | .noControl => .ub

/-- `CalcTargetDirection_i`, controlled_attitude.cpp:79-114. -/
noncomputable def targetDirection (w : World) (m : Mode) : Res (Vec 3) := (targetVector w m).bind fun d => .ok (calcNormalizedVector d)

/-- `CalcDcm`, controlled_attitude.cpp:127-145. -/
noncomputable def calcDcm (main sub : Vec 3) : Mat 3 3 :=
  let ex := main
  let ey := calcNormalizedVector (outerProduct (outerProduct ex sub) ex)
  let ez := calcNormalizedVector (outerProduct ex ey)
  Matrix.of fun i j => if j = 0 then ex i else if j = 1 then ey i else ez i

/-- `PointingControl`, controlled_attitude.cpp:116-125: the new quaternion. -/
noncomputable def pointing (mainB subB mainI subI : Vec 3) : Quat :=
  Quat.fromDcm (matMul (calcDcm mainB subB) (matTranspose (calcDcm mainI subI)))

/-- The angular velocity of `CalcAngularVelocity`, controlled_attitude.cpp:171-178. -/
noncomputable def differenceRate (prev q : Quat) (dt : ℝ) : Vec 3 :=
  let d := prev.conjugate.mul q
  ![2 / dt * d.x, 2 / dt * d.y, 2 / dt * d.z]

/-- `CalcAngularVelocity`, controlled_attitude.cpp:167-193. `none` stands for an angular velocity and torque that are not finite (two calls for
the same time). -/
noncomputable def Controlled.calcAngularVelocity (s : Controlled) (time : ℝ) : Res (Option Controlled) :=
  if s.prevTime > 0 then
    let dt := time - s.prevTime
    (calcInverseMatrix s.inertia).bind fun inv =>
      if dt = 0 then .ok none
      else
        let w := differenceRate s.prevQuat s.quat dt
        let acc : Vec 3 := fun i => (s.prevOmega i - w i) / dt
        .ok (some { s with omega := w, torque := vadd s.torque (matVec inv acc), prevTime := time, prevQuat := s.quat, prevOmega := w })
  else
    .ok (some { s with omega := fun _ => 0, torque := vadd s.torque (fun _ => 0), prevTime := time, prevQuat := s.quat, prevOmega := fun _ => 0 })

/-- `Propagate`, controlled_attitude.cpp:59-77. -/
noncomputable def Controlled.propagate (s : Controlled) (w : World) (time : ℝ) : Res (Option Controlled) :=
  if s.enabled = false then .ok (some s)
  else if s.main = .inertialStabilize then .ok (some s)
  else
    (targetDirection w s.main).bind fun m =>
      (targetDirection w s.sub).bind fun u =>
        Controlled.calcAngularVelocity { s with quat := pointing s.mainB s.subB m u } time

end S2E.Att
