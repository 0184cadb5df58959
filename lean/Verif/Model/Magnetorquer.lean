import Verif.Model.Random
import Verif.Model.Quaternion
/-!
# `src/components/real/aocs/{magnetorquer,mtq_magnetometer_interference}.{cpp,hpp}`

Doubles are real numbers. The log strings and the reading of the settings files are left out, except that the number of coefficient matrices of the
interference is the configured degree. A source of white noise with average zero and standard deviation `σ` is a pair of `σ` and the state `g : γ` of a
standard source `std : γ → ℝ × γ` (value for `σ = 1`, next state); theorem `C123_normal_scaled` shows that `NormalRand` is of this form. The random
walk has its own sources `δ`, as in `Model/Sensor.lean`.
-/
namespace S2E.Mtq
open S2E.Random

/-- Members of `Magnetorquer`, magnetorquer.hpp:126-141, with the fields of its `RandomWalk<3>`. -/
structure Mtq (γ δ : Type) where
  c2b : Quat
  scaleFactor : Mat 3 3
  max : Vec 3
  min : Vec 3
  bias : Vec 3
  walkStep : ℝ
  walkLimit : Vec 3
  walkT : ℝ
  walkX : Vec 3
  walkG : Fin 3 → δ
  sigma : Vec 3
  noise : Fin 3 → γ
  /-- `output_magnetic_moment_c_Am2_` -/
  momentC : Vec 3
  /-- `output_magnetic_moment_b_Am2_` -/
  momentB : Vec 3
  torque : Vec 3

/-- The constructors, magnetorquer.cpp:16-60. `SetParameters` without a seed (35, 58) leaves the generators in the state `g0` that the default
constructor of `NormalRand` gives all of them; the sources `walkG` of the random walk are seeded by its constructor. -/
def Mtq.new {γ δ : Type} (b2c : Quat) (scaleFactor : Mat 3 3) (max min bias : Vec 3) (walkStep : ℝ) (walkLimit : Vec 3) (walkG : Fin 3 → δ)
    (sigma : Vec 3) (g0 : γ) : Mtq γ δ where
  c2b := b2c.conjugate
  scaleFactor := scaleFactor
  max := max
  min := min
  bias := bias
  walkStep := walkStep
  walkLimit := walkLimit
  walkT := 0
  walkX := fun _ => 0
  walkG := walkG
  sigma := sigma
  noise := fun _ => g0
  momentC := fun _ => 0
  momentB := fun _ => 0
  torque := fun _ => 0

/-- The limits in `CalcOutputTorque` for one axis, magnetorquer.cpp:77-81. -/
noncomputable def limited (max min m : ℝ) : ℝ := if m > max then max else if m < min then min else m

/-- `CalcOutputTorque`, magnetorquer.cpp:74-97, called by `MainRoutine` (62-66), in the field `B` (`GetGeomagneticField_b_nT`). -/
noncomputable def Mtq.main {γ δ : Type} (std : γ → ℝ × γ) (draw : δ → ℝ × δ) (s : Mtq γ δ) (B : Vec 3) : Mtq γ δ :=
  let m : Vec 3 := fun i => limited (s.max i) (s.min i) (s.momentC i) + s.bias i + s.walkX i + s.sigma i * (std (s.noise i)).1
  let c := matVec s.scaleFactor m
  let b := s.c2b.frameConversion c
  let w := rk4 s.walkStep (fun _ y g => walkDerivative draw s.walkLimit y g) s.walkT s.walkX s.walkG
  { s with
    momentC := c, momentB := b, torque := outerProduct b (scale 1e-9 B), noise := fun i => (std (s.noise i)).2
    walkT := w.1, walkX := w.2.1, walkG := w.2.2 }

/-- `PowerOffRoutine`, magnetorquer.cpp:68-72. -/
def Mtq.powerOff {γ δ : Type} (s : Mtq γ δ) : Mtq γ δ :=
  { s with torque := scale 0 s.torque, momentC := scale 0 s.momentC, momentB := scale 0 s.momentB }

/-- `SetOutputMagneticMoment_c_Am2`, magnetorquer.hpp:111. -/
def Mtq.command {γ δ : Type} (s : Mtq γ δ) (m : Vec 3) : Mtq γ δ := { s with momentC := m }

/-- The calls another component, the clock or the power port can make. -/
inductive Op where
  | command (m : Vec 3)
  | main (B : Vec 3)
  | powerOff

/-- A history of calls. -/
noncomputable def Mtq.run {γ δ : Type} (std : γ → ℝ × γ) (draw : δ → ℝ × δ) : List Op → Mtq γ δ → Mtq γ δ
  | [], s => s
  | .command m :: rest, s => Mtq.run std draw rest (s.command m)
  | .main B :: rest, s => Mtq.run std draw rest (s.main std draw B)
  | .powerOff :: rest, s => Mtq.run std draw rest s.powerOff

/-! ## `MtqMagnetometerInterference` -/

/-- Members of `MtqMagnetometerInterference`, mtq_magnetometer_interference.hpp:35-41: the coefficient matrices (one per degree, from 1) and
`previous_added_bias_c_nT_`. -/
structure Interference where
  coefficients : List (Mat 3 3)
  previous : Vec 3

/-- The loop of `UpdateInterference`, mtq_magnetometer_interference.cpp:42-48, from the given degree on. -/
noncomputable def interferenceLoop (m : Vec 3) : ℕ → List (Mat 3 3) → Vec 3 → Vec 3
  | _, [], acc => acc
  | d, a :: rest, acc => interferenceLoop m (d + 1) rest (vadd acc (matVec a (fun i => m i ^ d)))

/-- `UpdateInterference`, mtq_magnetometer_interference.cpp:35-53: the new bias of the magnetometer and the new state. `m` is the output moment of the
magnetorquer in its component frame. -/
noncomputable def Interference.update (s : Interference) (m bias : Vec 3) : Vec 3 × Interference :=
  let bias := vadd bias (scale (-1) s.previous)
  let added := interferenceLoop m 1 s.coefficients (fun _ => 0)
  (vadd bias added, { s with previous := added })

/-- What can happen to the bias of a magnetometer with several interferences: `AddConstantBiasNoise_c_nT`, `SetConstantBiasNoise_c_nT`
(magnetometer.hpp:87, 94), and `UpdateInterference` of number `k` with the moment `m`. -/
inductive BiasOp where
  | add (b : Vec 3)
  | set (b : Vec 3)
  | update (k : ℕ) (m : Vec 3)

/-- The bias and the interferences after a history. A number that does not exist does nothing. -/
noncomputable def biasRun : List BiasOp → Vec 3 × List Interference → Vec 3 × List Interference
  | [], s => s
  | .add b :: rest, s => biasRun rest (vadd s.1 b, s.2)
  | .set b :: rest, s => biasRun rest (b, s.2)
  | .update k m :: rest, s =>
    match s.2[k]? with
    | none => biasRun rest s
    | some i => biasRun rest ((i.update m s.1).1, s.2.set k (i.update m s.1).2)

end S2E.Mtq
