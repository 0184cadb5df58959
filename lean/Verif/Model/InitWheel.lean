import Verif.Model.InitOthers
import Verif.Model.WheelJitter
/-!
# Reaction wheels made from a settings file

`InitParams` and `InitReactionWheel`, `src/components/real/aocs/reaction_wheel.cpp:261-357`. The variables at namespace scope that `InitParams` assigns
(reaction_wheel.cpp:236-259) are all assigned on every call before they are read; the only one that lives on is `rw_jitter`, to which every wheel keeps a reference
(`Fleet`, `Model/WheelJitter`). Settings files and `Extra` are as in `Model/InitOthers`; the phases drawn by the constructor of the jitter are parameters.
-/
namespace S2E.InitWheel
open Log Ini InitOrbit InitAttitude InitAocs InitOthers Wheel

/-- What the base class keeps: prescaler, fast prescaler, whether fast updates are needed (reaction_wheel.cpp:85-87) and the power port; and whether the jitter is
logged. -/
structure Base where
  prescaler : ℕ
  fast : ℕ
  needsFast : Bool
  port : PowerPort ℝ
  logged : Bool

/-- The mounting, reaction_wheel.cpp:278-290. -/
noncomputable def readMounting (rd : Reader) (eps : ℝ) (ini : Str → Option Str) : Res Quat :=
  if readString rd.paths ini "direction_determination_mode".toList = "QUATERNION".toList then .ok (readQuat rd ini "quaternion_b2c".toList)
  else directionQuaternion eps (rd.vec3 ini "direction_b".toList)

/-- The friction coefficients, reaction_wheel.cpp:298-299: a negative order is a huge `size_t` and the loop runs out of memory. -/
noncomputable def readFriction (rd : Reader) (ini : Str → Option Str) : Res (List ℝ) :=
  if rd.int ini "friction_order".toList < 0 then .throws
  else .ok (readVectorDouble rd.getReal ini "friction_coefficients".toList (rd.int ini "friction_order".toList).toNat)

/-- A table of harmonics, reaction_wheel.cpp:316-324: `reserve` throws for a negative degree. -/
noncomputable def readHarmonics (rd : Reader) (ex : Extra) (ini : Str → Option Str) (key : String) : Res (List (List ℝ)) :=
  if rd.int ini "harmonics_degree".toList < 0 then .throws else ex.table (readString rd.paths ini key.toList)

/-- `fast_prescaler`, reaction_wheel.cpp:312-313. -/
def fastPrescaler (rd : Reader) (ini : Str → Option Str) : ℕ := if rd.int ini "fast_prescaler".toList ≤ 1 then 1 else (rd.int ini "fast_prescaler".toList).toNat

/-- The jitter, reaction_wheel.cpp:307-332. -/
noncomputable def readJitter (rd : Reader) (ex : Extra) (ini : Str → Option Str) (step : ℝ) (b2c : Quat) (forcePhase torquePhase : List ℝ) (uninitialised : Fin 6 → ℝ) :
    Res Jitter :=
  let d := fun (key : String) => readDouble rd.getReal ini key.toList
  (readHarmonics rd ex ini "radial_force_harmonics_coefficient_file").bind fun force =>
    (readHarmonics rd ex ini "radial_torque_harmonics_coefficient_file").bind fun torque =>
      .ok (Jitter.new force torque (fastPrescaler rd ini * step) b2c (d "structural_resonance_frequency_Hz") (d "damping_factor") (d "bandwidth")
        (readEnable rd.paths ini "considers_structural_resonance".toList) forcePhase torquePhase uninitialised)

/-- `InitReactionWheel`, reaction_wheel.cpp:336-344 and 346-357, with `InitParams` (261-333). -/
noncomputable def initWheel (rd : Reader) (ex : Extra) (eps : ℝ) (file : File) (id : ℤ) (step : ℝ) (forcePhase torquePhase : List ℝ) (uninitialised : Fin 6 → ℝ)
    (port : Option (PowerPort ℝ)) (fleet : Fleet) : Res (Fleet × Base) :=
  let ini := file ("REACTION_WHEEL_".toList ++ idStr id)
  let jit := file ("REACTION_WHEEL_JITTER_".toList ++ idStr id)
  let d := fun (key : String) => readDouble rd.getReal ini key.toList
  let enabled := readEnable rd.paths jit "jitter_calculation".toList
  (readMounting rd eps ini).bind fun b2c =>
    (readFriction rd ini).bind fun friction =>
      (readJitter rd ex jit step b2c forcePhase torquePhase uninitialised).bind fun j =>
        (fleet.init ⟨step * prescalerOf rd ini, d "moment_of_inertia_kgm2", d "max_output_torque_Nm", d "max_angular_velocity_rpm", b2c, rd.vec3 ini "position_b_m".toList,
          d "dead_time_s", d "time_constant_s", friction, d "stop_limit_angular_velocity_rad_s", readBoolean ex ini "initial_motor_drive_flag".toList,
          d "initial_angular_velocity_rad_s"⟩ j enabled).bind fun f =>
          .ok (f, ⟨prescalerOf rd ini, fastPrescaler rd jit, enabled, portOf rd file port, readEnable rd.paths jit "jitter_logging".toList⟩)

end S2E.InitWheel
