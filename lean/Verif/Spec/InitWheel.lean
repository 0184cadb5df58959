import Verif.Spec.InitOthers
/-!
# Specification: data sheet of a reaction wheel and of its jitter and how they are written in a settings file
-/
namespace S2E.Settings
open Log InitOrbit InitOthers

/-- The entry is there; the switch is on exactly if the word is `ENABLE` or `1`. -/
def Switch (rd : Reader) (file : File) (sec key : Str) (on : Bool) : Prop :=
  ∃ word, Text rd file sec key word ∧ (on = true ↔ word = "ENABLE".toList ∨ word = "1".toList)

/-- How a wheel is mounted: by the quaternion from the body frame to the wheel frame, or by the direction of its axis. -/
inductive Mounting where
  | byQuaternion (q : Quat)
  | byDirection (d : Vec 3)

/-- Any word other than `QUATERNION` announces a direction. -/
def Mounting.In (m : Mounting) (rd : Reader) (file : File) (sec : Str) : Prop :=
  match m with
  | .byQuaternion q => Text rd file sec "direction_determination_mode".toList "QUATERNION".toList ∧ Quaternion rd file sec "quaternion_b2c".toList q
  | .byDirection d => (∃ word, Text rd file sec "direction_determination_mode".toList word ∧ word ≠ "QUATERNION".toList) ∧ Triple rd file sec "direction_b".toList d

/-- Data sheet of a wheel: inertia in kg m², limits of torque (N m) and speed (rpm), mounting, dead time and time constant in seconds, friction polynomial, speed
below which friction stops it, whether the motor is on at the beginning and the initial speed. -/
structure WheelSheet where
  inertia : ℝ
  maxTorque : ℝ
  maxRpm : ℝ
  mounting : Mounting
  position : Vec 3
  deadTime : ℝ
  timeConstant : ℝ
  friction : List ℝ
  stopLimit : ℝ
  drive : Bool
  initial : ℝ

def WheelSheet.In (s : WheelSheet) (rd : Reader) (ex : Extra) (file : File) (sec : Str) : Prop :=
  Number rd file sec "moment_of_inertia_kgm2".toList s.inertia ∧ Number rd file sec "max_output_torque_Nm".toList s.maxTorque ∧
  Number rd file sec "max_angular_velocity_rpm".toList s.maxRpm ∧ s.mounting.In rd file sec ∧ Triple rd file sec "position_b_m".toList s.position ∧
  Number rd file sec "dead_time_s".toList s.deadTime ∧ Number rd file sec "time_constant_s".toList s.timeConstant ∧
  Integer rd file sec "friction_order".toList s.friction.length ∧
  (∀ k (hk : k < s.friction.length), Number rd file sec ("friction_coefficients(".toList ++ dec k ++ ")".toList) s.friction[k]) ∧
  Number rd file sec "stop_limit_angular_velocity_rad_s".toList s.stopLimit ∧ Flag ex file sec "initial_motor_drive_flag".toList s.drive ∧
  Number rd file sec "initial_angular_velocity_rad_s".toList s.initial

/-- Data sheet of the jitter: whether it is calculated and logged, updates per step of the components, the tables of harmonics of force and torque, the resonance. -/
structure JitterSheet where
  calculated : Bool
  logged : Bool
  fast : ℤ
  force : List (List ℝ)
  torque : List (List ℝ)
  degree : ℕ
  frequency : ℝ
  damping : ℝ
  bandwidth : ℝ
  resonance : Bool

def JitterSheet.In (s : JitterSheet) (rd : Reader) (ex : Extra) (file : File) (sec : Str) : Prop :=
  Switch rd file sec "jitter_calculation".toList s.calculated ∧ Switch rd file sec "jitter_logging".toList s.logged ∧
  Integer rd file sec "fast_prescaler".toList s.fast ∧ Integer rd file sec "harmonics_degree".toList s.degree ∧
  (∃ path, Text rd file sec "radial_force_harmonics_coefficient_file".toList path ∧ ex.table path = .ok s.force) ∧
  (∃ path, Text rd file sec "radial_torque_harmonics_coefficient_file".toList path ∧ ex.table path = .ok s.torque) ∧
  Number rd file sec "structural_resonance_frequency_Hz".toList s.frequency ∧ Number rd file sec "damping_factor".toList s.damping ∧
  Number rd file sec "bandwidth".toList s.bandwidth ∧ Switch rd file sec "considers_structural_resonance".toList s.resonance

end S2E.Settings
