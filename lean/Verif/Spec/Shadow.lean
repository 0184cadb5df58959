import Mathlib.MeasureTheory.Measure.Lebesgue.Basic
import Mathlib.MeasureTheory.Measure.Lebesgue.VolumeOfBalls
import Verif.Spec.TwoBody
/-!
# Eclipses, independently of the model

The Sun and a body that hides it are seen as two flat discs in the plane of the sky.
-/
namespace S2E.Shadow

open MeasureTheory

/-- The disc of radius `r` whose centre is `c` away from the origin along the first axis. -/
def disc (c r : ℝ) : Set (ℝ × ℝ) := {p | (p.1 - c) ^ 2 + p.2 ^ 2 < r ^ 2}

/-- The part of a disc of radius `a` that is not covered by a disc of radius `b` whose centre is `c` away, as a fraction of its area. -/
noncomputable def litFraction (a b c : ℝ) : ℝ := (volume (disc 0 a \ disc c b)).toReal / (volume (disc 0 a)).toReal

/-- The angle between two directions. -/
noncomputable def angle (u v : Fin 3 → ℝ) : ℝ := Real.arccos (TwoBody.dot u v / (TwoBody.len u * TwoBody.len v))

/-- The apparent radius of a ball of radius `r` whose centre is at `d`. -/
noncomputable def apparent (r : ℝ) (d : Fin 3 → ℝ) : ℝ := Real.arcsin (r / TwoBody.len d)

end S2E.Shadow
