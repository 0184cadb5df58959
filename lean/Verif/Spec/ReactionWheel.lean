import Mathlib.Data.Real.Basic
import Mathlib.Algebra.BigOperators.Group.Finset.Basic
/-!
# Commands, delays and friction of a wheel, independently of the model
-/
namespace S2E.WheelSpec

/-- `t` limited to `[-m, m]`. -/
noncomputable def clamp (m t : ℝ) : ℝ := max (-m) (min m t)

/-- The sequence `v`, `n` places later, preceded by zeros. -/
noncomputable def delayed (n : ℕ) (v : ℕ → ℝ) (k : ℕ) : ℝ := if k < n then 0 else v (k - n)

/-- The response of a first-order lag of time constant `τ`, discretised by the implicit Euler rule with step `h`, to the input `v`. -/
noncomputable def lagged (h τ : ℝ) (v : ℕ → ℝ) : ℕ → ℝ
  | 0 => h / (h + τ) * v 0
  | k + 1 => (τ * lagged h τ v k + h * v (k + 1)) / (h + τ)

/-- The friction polynomial `c_0 + c_1 v + c_2 v² + …`. -/
noncomputable def poly : List ℝ → ℝ → ℝ
  | [], _ => 0
  | c :: cs, v => c + v * poly cs v

end S2E.WheelSpec
