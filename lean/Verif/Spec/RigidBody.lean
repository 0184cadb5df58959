import Verif.Spec.TwoBody
import Mathlib.Analysis.Calculus.Deriv.Mul
import Mathlib.Analysis.Calculus.Deriv.Pi
import Mathlib.LinearAlgebra.Matrix.Defs
import Mathlib.Data.Matrix.Mul
/-!
# Rotation of a rigid body, independently of the model

Vectors and matrices are functions on `Fin`; the attitude is a quaternion `![x, y, z, w]` (scalar last) from the inertial to the body frame.
-/
namespace S2E.Rigid

open TwoBody

/-- The matrix that turns inertial components into body components. -/
def attitude (q : Fin 4 → ℝ) : Matrix (Fin 3) (Fin 3) ℝ :=
  Matrix.of ![![q 3 ^ 2 + q 0 ^ 2 - q 1 ^ 2 - q 2 ^ 2, 2 * (q 0 * q 1 + q 3 * q 2), 2 * (q 0 * q 2 - q 3 * q 1)],
    ![2 * (q 0 * q 1 - q 3 * q 2), q 3 ^ 2 - q 0 ^ 2 + q 1 ^ 2 - q 2 ^ 2, 2 * (q 1 * q 2 + q 3 * q 0)],
    ![2 * (q 0 * q 2 + q 3 * q 1), 2 * (q 1 * q 2 - q 3 * q 0), q 3 ^ 2 - q 0 ^ 2 - q 1 ^ 2 + q 2 ^ 2]]

/-- Half the product of the quaternion with the angular velocity (in the body frame). -/
noncomputable def rate (w : Fin 3 → ℝ) (q : Fin 4 → ℝ) : Fin 4 → ℝ :=
  ![(q 3 * w 0 + q 1 * w 2 - q 2 * w 1) / 2, (q 3 * w 1 + q 2 * w 0 - q 0 * w 2) / 2, (q 3 * w 2 + q 0 * w 1 - q 1 * w 0) / 2,
    -(q 0 * w 0 + q 1 * w 1 + q 2 * w 2) / 2]

/-- Between the times `lo` and `hi`, a body with inertia tensor `I` and wheels of angular momentum `h` (constant in the body frame) turns with
angular velocity `w` and attitude `q` under the torque `τ` (constant in the body frame): `q' = q w / 2` and Euler's equation
`I w' = τ - w × (I w + h)`. -/
structure SpinOn (I : Matrix (Fin 3) (Fin 3) ℝ) (τ h : Fin 3 → ℝ) (lo hi : ℝ) (w : ℝ → Fin 3 → ℝ) (q : ℝ → Fin 4 → ℝ) : Prop where
  unit : ∀ t, lo < t → t < hi → q t 0 ^ 2 + q t 1 ^ 2 + q t 2 ^ 2 + q t 3 ^ 2 = 1
  kinematics : ∀ t, lo < t → t < hi → HasDerivAt q (rate (w t) (q t)) t
  dynamics : ∀ t, lo < t → t < hi → ∃ a, HasDerivAt w a t ∧ I.mulVec a = τ - cross (w t) (I.mulVec (w t) + h)

/-- A rotation through a schedule of arcs `(end time, torque, wheel momentum)`. The last arguments are final time, angular velocity and attitude. -/
inductive Spin (I : Matrix (Fin 3) (Fin 3) ℝ) :
    ℝ → (Fin 3 → ℝ) → (Fin 4 → ℝ) → List (ℝ × (Fin 3 → ℝ) × (Fin 3 → ℝ)) → ℝ → (Fin 3 → ℝ) → (Fin 4 → ℝ) → Prop
  | done (t : ℝ) (w : Fin 3 → ℝ) (q : Fin 4 → ℝ) : Spin I t w q [] t w q
  | arc {t e lo hi t' : ℝ} {τ h : Fin 3 → ℝ} {w : ℝ → Fin 3 → ℝ} {q : ℝ → Fin 4 → ℝ} {rest : List (ℝ × (Fin 3 → ℝ) × (Fin 3 → ℝ))}
      {w' : Fin 3 → ℝ} {q' : Fin 4 → ℝ} :
      t < e → lo < t → e < hi → SpinOn I τ h lo hi w q → Spin I e (w e) (q e) rest t' w' q' →
      Spin I t (w t) (q t) ((e, τ, h) :: rest) t' w' q'

end S2E.Rigid
