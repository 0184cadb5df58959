import Mathlib.Data.Real.Basic
import Mathlib.LinearAlgebra.Matrix.Notation
/-!
# Limits and polynomial interference, independently of the model
-/
namespace S2E.MtqSpec

/-- The value in `[lo, hi]` nearest to `x`. -/
noncomputable def nearest (lo hi x : ℝ) : ℝ := max lo (min hi x)

/-- The vector polynomial `A₁ m + A₂ m² + A₃ m³ + …`, powers taken component by component. -/
noncomputable def polynomial (a : List (Matrix (Fin 3) (Fin 3) ℝ)) (m : Fin 3 → ℝ) (i : Fin 3) : ℝ :=
  ∑ d ∈ Finset.range a.length, ∑ j, (a.getD d 0) i j * m j ^ (d + 1)

end S2E.MtqSpec
