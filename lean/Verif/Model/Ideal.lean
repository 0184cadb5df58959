import Verif.Model.OrbitProp
/-!
# `src/components/ideal/{force_generator,torque_generator,attitude_observer,orbit_observer}.cpp`

Doubles are real numbers; `DBL_EPSILON` is a parameter `eps`. The random values drawn, the attitude and the orbit at the time of a call are inputs. The angular velocity observer is the
sensor of `Model/Sensor.lean` applied to the angular velocity.
-/
namespace S2E.Ideal
open Quat

/-- The random values one update draws: three for the direction, one for the angle (standard normal), one for the magnitude. -/
structure Noise where
  direction : Vec 3
  angle : ℝ
  magnitude : ℝ

/-- `GenerateDirectionNoiseQuaternion`, force_generator.cpp:90-108, torque_generator.cpp:64-82. -/
noncomputable def noiseQuaternion (eps sd : ℝ) (trueDirection : Vec 3) (n : Noise) : Quat :=
  let random := calcNormalizedVector n.direction
  let axis := outerProduct trueDirection random
  let axis := if calcNorm axis < eps then trueDirection else axis
  ofAxisAngle axis (n.angle * sd)

/-- Adding the noise, force_generator.cpp:28-39, torque_generator.cpp:29-40. -/
noncomputable def withNoise (eps sd : ℝ) (ordered : Vec 3) (n : Noise) : Vec 3 :=
  if calcNorm ordered > eps then
    let d := calcNormalizedVector ordered
    scale (calcNorm ordered + n.magnitude) ((noiseQuaternion eps sd d n).frameConversion d)
  else ordered

/-- `ForceGenerator`, force_generator.hpp:101-104. -/
structure Force where
  ordered : Vec 3
  b : Vec 3
  i : Vec 3
  rtn : Vec 3

/-- Initial values, force_generator.hpp:101-104. -/
def Force.new : Force := ⟨fun _ => 0, fun _ => 0, fun _ => 0, fun _ => 0⟩

/-- What the dynamics give: the attitude, position and velocity. -/
structure Dyn where
  i2b : Quat
  position : Vec 3
  velocity : Vec 3

/-- `CalcQuaternion_i2lvlh` of the orbit. -/
noncomputable def Dyn.i2rtn (d : Dyn) : Quat := OrbitProp.calcQuaternionI2Lvlh d.position d.velocity

/-- What happens to a force generator: commands in the three frames, an update, an update without power. -/
inductive Event
  | setB (f : Vec 3)
  | setI (f : Vec 3) (d : Dyn)
  | setRtn (f : Vec 3) (d : Dyn)
  | main (n : Noise) (d : Dyn)
  | off

/-- `SetForce_b_N`, force_generator.hpp:85; `SetForce_i_N`, `SetForce_rtn_N`, `MainRoutine`, `PowerOffRoutine`, force_generator.cpp:25-65. -/
noncomputable def Force.step (eps sd : ℝ) (s : Force) : Event → Force
  | .setB f => { s with ordered := f }
  | .setI f d => { s with ordered := d.i2b.frameConversion f }
  | .setRtn f d => { s with ordered := d.i2b.frameConversion (d.i2rtn.inverseFrameConversion f) }
  | .main n d =>
    let b := withNoise eps sd s.ordered n
    let i := d.i2b.inverseFrameConversion b
    { s with b := b, i := i, rtn := d.i2rtn.frameConversion i }
  | .off => { s with b := scale 0 s.b, i := scale 0 s.i, rtn := scale 0 s.rtn }

/-- A history. -/
noncomputable def Force.run (eps sd : ℝ) (s : Force) (l : List Event) : Force := l.foldl (Force.step eps sd) s

/-- `TorqueGenerator`, torque_generator.hpp: ordered and generated torque. -/
structure Torque where
  ordered : Vec 3
  b : Vec 3

/-- What happens to a torque generator. -/
inductive TorqueEvent
  | setB (f : Vec 3)
  | main (n : Noise)
  | off

/-- `SetTorque_b_Nm`, `MainRoutine`, `PowerOffRoutine`, torque_generator.hpp:76, torque_generator.cpp:26-43. -/
noncomputable def Torque.step (eps sd : ℝ) (s : Torque) : TorqueEvent → Torque
  | .setB f => { s with ordered := f }
  | .main n => { s with b := withNoise eps sd s.ordered n }
  | .off => { s with b := scale 0 s.b }

/-- `AttitudeObserver::MainRoutine`, attitude_observer.cpp:19-33; `direction` are the three values drawn, `angle` the error angle. -/
noncomputable def observeAttitude (i2b : Quat) (direction : Vec 3) (angle : ℝ) : Quat := (ofAxisAngle (calcNormalizedVector direction) angle).mul i2b

/-- `SetNoiseFrame`, orbit_observer.cpp:76-86: `true` for the RTN frame. -/
def noiseFrame (name : String) : Bool := if name = "INERTIAL" then false else if name = "RTN" then true else false

/-- `OrbitObserver::MainRoutine`, orbit_observer.cpp:21-55, for the six values drawn. -/
noncomputable def observeOrbit (rtn : Bool) (d : Dyn) (p v : Vec 3) : Vec 3 × Vec 3 :=
  match rtn with
  | false => (vadd d.position p, vadd d.velocity v)
  | true => (vadd d.position (d.i2rtn.inverseFrameConversion p), vadd d.velocity (d.i2rtn.inverseFrameConversion v))

end S2E.Ideal
