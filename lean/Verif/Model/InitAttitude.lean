import Verif.Model.InitOrbit
import Verif.Model.ControlledAttitude
import Verif.Model.Cantilever
/-!
# Choice and construction of the attitude of a spacecraft

`src/dynamics/attitude/initialize_attitude.cpp`. The classes are those of `Model/Attitude`, `Model/Cantilever` and `Model/ControlledAttitude`. Settings are
read as in `Model/InitOrbit`; files are a function of their path. Monte-Carlo names and console output are left out.
-/
namespace S2E.InitAttitude
open Log Ini InitOrbit Att Geodetic

/-- The object behind the pointer `Attitude*`. A `ControlledAttitude` also keeps the geodetic position of its target (`target_earth_surface_position_`). -/
inductive AnyAttitude where
  | rk4 (a : Attitude)
  | cantilever (c : Cantilever)
  | controlled (c : Controlled) (target : GeodeticPosition)

/-- `GetQuaternion_i2b`, attitude.hpp:50. -/
noncomputable def AnyAttitude.quat : AnyAttitude → Quat
  | .rk4 a => a.quat
  | .cantilever c => c.base.quat
  | .controlled c _ => c.quat

/-- `GetAngularVelocity_b_rad_s`, attitude.hpp:45. -/
noncomputable def AnyAttitude.omega : AnyAttitude → Vec 3
  | .rk4 a => a.omega
  | .cantilever c => c.base.omega
  | .controlled c _ => c.omega

/-- `torque_b_Nm_`, attitude.hpp:123. -/
noncomputable def AnyAttitude.torque : AnyAttitude → Vec 3
  | .rk4 a => a.torque
  | .cantilever c => c.base.torque
  | .controlled c _ => c.torque

/-- `ReadQuaternion`, initialize_file_access.cpp:123-145. -/
noncomputable def readQuat (rd : Reader) (ini : Str → Option Str) (key : Str) : Quat :=
  let q := readQuaternion rd.getReal ini key
  ⟨q 0, q 1, q 2, q 3⟩

/-- The settings of the controlled attitude and the call of its constructor, initialize_attitude.cpp:26-48 and 83-103 (the same code twice): the quaternion
is read from the section `ATTITUDE`, everything else from `CONTROLLED_ATTITUDE`. `prev` are the uninitialised members. -/
noncomputable def readControlled (rd : Reader) (file : File) (inertia : Mat 3 3) (prev : Quat × Vec 3) : Controlled × GeodeticPosition :=
  let ini := file "CONTROLLED_ATTITUDE".toList
  let main := Mode.ofString (String.ofList (readString rd.paths ini "main_mode".toList))
  let sub := Mode.ofString (String.ofList (readString rd.paths ini "sub_mode".toList))
  let q := readQuat rd (file "ATTITUDE".toList) "initial_quaternion_i2b".toList
  let lat := readDouble rd.getReal ini "target_position_latitude_deg".toList
  let lon := readDouble rd.getReal ini "target_position_longitude_deg".toList
  let alt := readDouble rd.getReal ini "altitude_m".toList
  (Controlled.new main sub q (rd.vec3 ini "main_pointing_direction_b".toList) (rd.vec3 ini "sub_pointing_direction_b".toList) inertia prev.1 prev.2,
   GeodeticPosition.new (lat * (Real.pi / 180)) (lon * (Real.pi / 180)) alt)

/-- `ControlledAttitude::Propagate` with the target position computed when a mode needs it, controlled_attitude.cpp:59-77, 106-109. The member `targetEcef` of
the surroundings is not used. -/
noncomputable def propagateTo (s : Controlled) (target : GeodeticPosition) (w : Att.World) (time : ℝ) : Res (Option Controlled) :=
  if s.enabled = true ∧ s.main ≠ .inertialStabilize ∧ (s.main = .earthSurface ∨ s.sub = .earthSurface) then
    target.calcEcefPosition.bind fun p => s.propagate { w with targetEcef := p } time
  else s.propagate w time

/-- What is taken from the temporary object, initialize_attitude.cpp:50-52. -/
def takeState : Option Controlled → Res (Vec 3 × Quat × Vec 3)
  | some s => .ok (fun _ => 0, s.quat, fun _ => 0)
  | none => .ub

/-- The initial angular velocity, quaternion and torque, initialize_attitude.cpp:21-58. `Propagate` of the temporary object never leaves a state that is not
finite: its previous time is negative. -/
noncomputable def initialState (rd : Reader) (file : File) (w : Att.World) (step : ℝ) (inertia : Mat 3 3) (prev : Quat × Vec 3) :
    Res (Vec 3 × Quat × Vec 3) :=
  let ini := file "ATTITUDE".toList
  if readString rd.paths ini "initialize_mode".toList = "CONTROLLED".toList then
    let s := readControlled rd file inertia prev
    (propagateTo s.1 s.2 w step).bind takeState
  else
    .ok (rd.vec3 ini "initial_angular_velocity_b_rad_s".toList, readQuat rd ini "initial_quaternion_i2b".toList, rd.vec3 ini "initial_torque_b_Nm".toList)

/-- The parameters of the cantilever, initialize_attitude.cpp:63-76: nine numbers, row after row. -/
noncomputable def readInertia (rd : Reader) (ini : Str → Option Str) : Mat 3 3 :=
  Matrix.of fun i j => readDouble rd.getReal ini (indexedKey "inertia_tensor_cantilever_kgm2".toList (i.val * 3 + j.val))

/-- `InitAttitude`, initialize_attitude.cpp:11-112. -/
noncomputable def initAttitude (rd : Reader) (files : Str → File) (path : Str) (w : Att.World) (step : ℝ) (inertia : Mat 3 3) (prev : Quat × Vec 3) :
    Res AnyAttitude :=
  let file := files path
  let propagateMode := readString rd.paths (file "ATTITUDE".toList) "propagate_mode".toList
  (initialState rd file w step inertia prev).bind fun s =>
    if propagateMode = "RK4".toList then (Attitude.new s.1 s.2.1 inertia s.2.2 step).bind fun a => .ok (.rk4 a)
    else if propagateMode = "CANTILEVER_VIBRATION".toList then
      let ini := files (readString rd.paths (file "SETTING_FILES".toList) "structure_file".toList) "CANTILEVER_PARAMETERS".toList
      (Cantilever.new s.1 s.2.1 inertia (readInertia rd ini) (readDouble rd.getReal ini "damping_ratio_cantilever".toList)
        (readDouble rd.getReal ini "intrinsic_angular_velocity_cantilever_rad_s".toList) s.2.2 step).bind fun a => .ok (.cantilever a)
    else if propagateMode = "CONTROLLED".toList then
      let c := readControlled rd file inertia prev
      .ok (.controlled c.1 c.2)
    else (Attitude.new s.1 s.2.1 inertia s.2.2 step).bind fun a => .ok (.rk4 a)

end S2E.InitAttitude
