import Verif.Model.Random
import Verif.Model.Quaternion
/-!
# `src/components/base/sensor.hpp`, `sensor_template_functions.hpp`, and the sensors that only add a frame conversion

The noise sources (`NormalRand`, modelled in `Model/Random.lean`) appear here as arbitrary generator states of type `γ` with a drawing
function; reading the configuration file is modelled only for the default of the scale factor matrix.
-/
namespace S2E.SensorBase
open S2E.Random

/-- `Sensor<N>`, sensor.hpp:21-66, with the fields of its `RandomWalk<N>` (random_walk.hpp:41-42, ordinary_differential_equation.hpp:108-111). -/
structure Sensor (n : Nat) (γ : Type) where
  bias : Vec n
  scale : Mat n n
  toConst : Vec n
  toZero : Vec n
  noise : Fin n → γ
  walkStep : ℝ
  walkLimit : Vec n
  walkT : ℝ
  walkX : Vec n
  walkG : Fin n → γ

/-- `RangeCheck` for one axis: the new `(range_to_const, range_to_zero)`, sensor_template_functions.hpp:64-77. -/
noncomputable def rangeCheck (c z : ℝ) : ℝ × ℝ :=
  let (c, z) := if c < 0 ∨ z < 0 then (|c|, |z|) else (c, z)
  if c > z then (c, 2 * c) else (c, z)

/-- `Clip` for one axis, sensor_template_functions.hpp:47-61. -/
noncomputable def clip (c z u : ℝ) : ℝ :=
  if u ≥ c ∧ u < z then c else if u ≤ -c ∧ u > -z then -c else if |u| ≥ z then 0 else u

/-- The constructor, sensor_template_functions.hpp:14-28. The walk starts at 0 (ordinary_differential_equation_template_functions.hpp:10-12).
The generators are those the constructor seeds. -/
noncomputable def Sensor.new {n : Nat} {γ : Type} (scale : Mat n n) (toConst toZero bias : Vec n) (walkStep : ℝ) (walkLimit : Vec n)
    (noise walkG : Fin n → γ) : Sensor n γ where
  bias := bias
  scale := scale
  toConst := fun i => (rangeCheck (toConst i) (toZero i)).1
  toZero := fun i => (rangeCheck (toConst i) (toZero i)).2
  noise := noise
  walkStep := walkStep
  walkLimit := walkLimit
  walkT := 0
  walkX := fun _ => 0
  walkG := walkG

/-- `Measure`, sensor_template_functions.hpp:33-44. -/
noncomputable def Sensor.measure {n : Nat} {γ : Type} (draw : γ → ℝ × γ) (s : Sensor n γ) (x : Vec n) : Vec n × Sensor n γ :=
  let sum := vadd (matVec s.scale x) s.bias
  let value : Vec n := fun i => sum i + s.walkX i + (draw (s.noise i)).1
  let w := rk4 s.walkStep (fun _ y g => walkDerivative draw s.walkLimit y g) s.walkT s.walkX s.walkG
  (fun i => clip (s.toConst i) (s.toZero i) (value i),
   { s with noise := fun i => (draw (s.noise i)).2, walkT := w.1, walkX := w.2.1, walkG := w.2.2 })

/-- The scale factor of `ReadSensorInformation`, sensor_template_functions.hpp:84-95: all zero (in particular absent) means identity. -/
noncomputable def readScaleFactor (n : Nat) (v : Vec (n * n)) : Mat n n :=
  if calcNorm v = 0 then makeIdentityMatrix n
  else Matrix.of fun i j => v ⟨i.val * n + j.val, by
    have hi := i.isLt; have hj := j.isLt
    calc i.val * n + j.val < i.val * n + n := by omega
      _ = (i.val + 1) * n := by rw [Nat.succ_mul]
      _ ≤ n * n := Nat.mul_le_mul_right n hi⟩

/-- `SetConstantBiasNoise_c_nT` / `AddConstantBiasNoise_c_nT`, magnetometer.hpp:87, 94. -/
def Sensor.setBias {n : Nat} {γ : Type} (s : Sensor n γ) (b : Vec n) : Sensor n γ := { s with bias := b }
@[inherit_doc Sensor.setBias] def Sensor.addBias {n : Nat} {γ : Type} (s : Sensor n γ) (b : Vec n) : Sensor n γ := { s with bias := vadd s.bias b }

/-- `GyroSensor::MainRoutine`, gyro_sensor.cpp:26-31, and `Magnetometer::MainRoutine`, magnetometer.cpp:29-34: the true value in the body
frame is converted to the component frame and measured. `AngularVelocityObserver` (angular_velocity_observer.cpp:16-19) does the same without
the conversion, i.e. with the unit quaternion `(0, 0, 0, 1)`. -/
noncomputable def frameSensor {γ : Type} (draw : γ → ℝ × γ) (q : Quat) (s : Sensor 3 γ) (trueBody : Vec 3) : Vec 3 × Sensor 3 γ :=
  s.measure draw (q.frameConversion trueBody)

end S2E.SensorBase
