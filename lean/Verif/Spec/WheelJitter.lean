import Mathlib.Analysis.SpecialFunctions.Trigonometric.Basic
/-!
# The resonance of a wheel's structure, independently of the model
-/
namespace S2E.WheelSpec

/-- The transfer function `(s² + 2 ζ ω s + ω²) / (s² + 2 b ζ ω s + ω²)`. -/
noncomputable def transfer (ω ζ b : ℝ) (s : ℂ) : ℂ := (s ^ 2 + 2 * ζ * ω * s + ω ^ 2) / (s ^ 2 + 2 * b * ζ * ω * s + ω ^ 2)

/-- The sum of the harmonics at speed `ω` with phases `phase`: harmonic `(h, c)` is a vector of length `c ω²` in the plane, turning with the
phase, each multiplied by the complex gain `g` of its row. -/
noncomputable def harmonicSum (g : List ℝ → ℂ) (ω : ℝ) : List (List ℝ) → List ℝ → ℂ
  | row :: rows, phase :: phases => (row.getD 1 0 * ω ^ 2 : ℝ) * g row * Complex.exp (phase * Complex.I) + harmonicSum g ω rows phases
  | _, _ => 0

end S2E.WheelSpec
