import Verif.Model.Basic
import Mathlib.Algebra.Order.Floor.Ring
/-!
# `src/utilities/quantization.cpp`
-/
namespace S2E

variable {K : Type} [Field K] [LinearOrder K] [IsStrictOrderedRing K] [FloorRing K]

/-- Conversion of a floating-point value to an integer: truncation toward zero. -/
def truncZ (x : K) : ℤ := if 0 ≤ x then ⌊x⌋ else ⌈x⌉

/-- `(int)x`: truncation; undefined if the truncated value is not an `int`. -/
def toInt32 (x : K) : Res ℤ :=
  if -2 ^ 31 ≤ truncZ x ∧ truncZ x ≤ 2 ^ 31 - 1 then .ok (truncZ x) else .ub

/-- `quantization(continuous_number, resolution)`, quantization.cpp:10-13. Division by a zero resolution gives an infinity or NaN,
whose conversion to `int` is undefined. Rounding of the quotient and of the product is not modelled. -/
def quantization (x resolution : K) : Res K :=
  if resolution = 0 then .ub
  else do
    let binNum ← toInt32 (x / resolution)
    .ok ((binNum : K) * resolution)

end S2E
