import Verif.Model.Basic
import Mathlib.Analysis.SpecialFunctions.Trigonometric.Basic
import Mathlib.Analysis.SpecialFunctions.Trigonometric.Inverse
import Mathlib.Analysis.SpecialFunctions.Complex.Arg
import Mathlib.LinearAlgebra.Matrix.Notation
import Mathlib.LinearAlgebra.Matrix.Determinant.Basic
/-!
# `src/math_physics/math/vector*.hpp`, `vector.cpp`, `matrix_template_functions.hpp`, `matrix_vector_template_functions.hpp` (products)

`Vector<N, double>` is a function `Fin N → ℝ` and `Matrix<R, C>` is Mathlib's `Matrix (Fin R) (Fin C) ℝ`, i.e. also a function of two
indices. Element-by-element loops become pointwise definitions; accumulation loops become finite sums (the order of accumulation does
not matter in exact arithmetic). Doubles are modelled by real numbers, so rounding, infinities and NaN are not modelled; `sqrt`, `sin`,
`cos`, `acos`, `atan2` are the real functions.
-/
namespace S2E

/-- `Vector<N, double>`, vector.hpp:21-160. -/
abbrev Vec (n : Nat) := Fin n → ℝ

/-- `InnerProduct`, vector_template_functions.hpp:98-105. -/
def innerProduct {n : Nat} (l r : Vec n) : ℝ := ∑ i, l i * r i

/-- `OuterProduct`, vector_template_functions.hpp:107-114. -/
def outerProduct (l r : Vec 3) : Vec 3 :=
  ![l 1 * r 2 - l 2 * r 1, l 2 * r 0 - l 0 * r 2, l 0 * r 1 - l 1 * r 0]

/-- `CalcNorm`, vector_template_functions.hpp:116-123. -/
noncomputable def calcNorm {n : Nat} (v : Vec n) : ℝ := Real.sqrt (∑ i, v i ^ 2)

/-- `operator*(scalar, vector)`, vector_template_functions.hpp:89-96; also `operator*=`, 36-42. -/
def scale {n : Nat} (a : ℝ) (v : Vec n) : Vec n := fun i => a * v i

/-- `operator+`, vector_template_functions.hpp:71-78; also `operator+=`, 20-26. -/
def vadd {n : Nat} (l r : Vec n) : Vec n := fun i => l i + r i

/-- `operator-`, vector_template_functions.hpp:80-87; also `operator-=`, 28-34. -/
def vsub {n : Nat} (l r : Vec n) : Vec n := fun i => l i - r i

/-- unary `operator-`, vector_template_functions.hpp:49-54. -/
def vneg {n : Nat} (v : Vec n) : Vec n := scale (-1) v

/-- `operator/=`, vector_template_functions.hpp:44-47. -/
noncomputable def vdiv {n : Nat} (v : Vec n) (a : ℝ) : Vec n := scale (1 / a) v

/-- `CalcNormalizedVector`, vector_template_functions.hpp:125-141. -/
noncomputable def calcNormalizedVector {n : Nat} (v : Vec n) : Vec n :=
  if calcNorm v = 0 then v else vdiv v (calcNorm v)

/-- `CalcAngleTwoVectors_rad`, vector_template_functions.hpp:143-147. (For a zero vector the C++ result is NaN; here `acos 0`.) -/
noncomputable def calcAngleTwoVectors {n : Nat} (a b : Vec n) : ℝ :=
  Real.arccos (innerProduct a b / (calcNorm a * calcNorm b))

/-- The C library's `atan2(y, x)`. Mathlib's `Complex.arg` of `x + i y` has the same range `(-π, π]` and the same value, including
`atan2(0, 0) = 0`; signed zeros are not modelled. -/
noncomputable def atan2 (y x : ℝ) : ℝ := Complex.arg ⟨x, y⟩

/-- `numbers::tau`, constants.hpp. -/
noncomputable def tau : ℝ := 2 * Real.pi

/-- `ConvertFrameOrthogonal2Polar`, vector.cpp:11-30. -/
noncomputable def convertFrameOrthogonal2Polar (v : Vec 3) : Vec 3 :=
  let r := calcNorm v
  if r = 0 then ![r, 0, 0]
  else
    let theta := Real.arccos (v 2 / r)
    if v 0 = 0 ∧ v 1 = 0 then ![r, theta, 0]
    else
      let phi := atan2 (v 1) (v 0)
      ![r, theta, if phi < 0 then phi + tau else phi]

/-- `GenerateOrthogonalUnitVector`, vector.cpp:32-53. The first test repeats the comparison with `v[1]` (line 34), as the source does. -/
noncomputable def generateOrthogonalUnitVector (v : Vec 3) : Vec 3 :=
  if v 0 * v 0 ≤ v 1 * v 1 ∧ v 0 * v 0 ≤ v 1 * v 1 then calcNormalizedVector ![0, v 2, -v 1]
  else if v 1 * v 1 ≤ v 0 * v 0 ∧ v 1 * v 1 ≤ v 2 * v 2 then calcNormalizedVector ![-v 2, 0, v 0]
  else calcNormalizedVector ![v 1, -v 0, 0]

/-- `Matrix<R, C>`, matrix.hpp. -/
abbrev Mat (r c : Nat) := Matrix (Fin r) (Fin c) ℝ

/-- `operator*(Matrix, Vector)`, matrix_vector_template_functions.hpp:13-22. -/
def matVec {r c : Nat} (m : Mat r c) (v : Vec c) : Vec r := fun i => ∑ j, m i j * v j

/-- `operator*(Matrix, Matrix)`, matrix_template_functions.hpp:123-134. -/
def matMul {r c1 c2 : Nat} (l : Mat r c1) (m : Mat c1 c2) : Mat r c2 := fun i j => ∑ k, l i k * m k j

/-- `Transpose`, matrix_template_functions.hpp:136-145. -/
def matTranspose {r c : Nat} (m : Mat r c) : Mat c r := fun j i => m i j

/-- `MakeIdentityMatrix`, matrix_template_functions.hpp:147-154. -/
def makeIdentityMatrix (n : Nat) : Mat n n := fun i j => if i = j then 1 else 0

/-- `MakeRotationMatrixX`, matrix_template_functions.hpp:156-165, for `R = 3`. -/
noncomputable def makeRotationMatrixX (t : ℝ) : Mat 3 3 :=
  !![1, 0, 0; 0, Real.cos t, Real.sin t; 0, -Real.sin t, Real.cos t]

/-- `MakeRotationMatrixY`, matrix_template_functions.hpp:167-176, for `R = 3`. -/
noncomputable def makeRotationMatrixY (t : ℝ) : Mat 3 3 :=
  !![Real.cos t, 0, -Real.sin t; 0, 1, 0; Real.sin t, 0, Real.cos t]

/-- `MakeRotationMatrixZ`, matrix_template_functions.hpp:178-187, for `R = 3`. -/
noncomputable def makeRotationMatrixZ (t : ℝ) : Mat 3 3 :=
  !![Real.cos t, Real.sin t, 0; -Real.sin t, Real.cos t, 0; 0, 0, 1]

end S2E
