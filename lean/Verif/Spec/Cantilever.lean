import Verif.Spec.RigidBody
/-!
# A rigid body with an attached flexible beam, independently of the model

The beam is a second rigid body of inertia tensor `J`, hinged to the main body of inertia tensor `I` by a spring and a damper. `φ` is its
(small) rotation relative to the main body, `u` the rate of `φ`.
-/
namespace S2E.Rigid

open TwoBody

/-- Between the times `lo` and `hi` the main body turns with angular velocity `w` and attitude `q`, the beam moves with angle `φ` and rate `u`:

* `φ'' + c φ' + k φ = -w'`: the beam is a damped oscillator in the turning frame,
* `(I + J) w' + J φ'' = τ - w × (I w + h)`: the balance of torques for the whole, in which the gyroscopic torque of the beam is neglected. -/
structure FlexOn (I J : Matrix (Fin 3) (Fin 3) ℝ) (c k : ℝ) (τ h : Fin 3 → ℝ) (lo hi : ℝ) (w u : ℝ → Fin 3 → ℝ) (q : ℝ → Fin 4 → ℝ)
    (φ : ℝ → Fin 3 → ℝ) : Prop where
  unit : ∀ t, lo < t → t < hi → q t 0 ^ 2 + q t 1 ^ 2 + q t 2 ^ 2 + q t 3 ^ 2 = 1
  kinematics : ∀ t, lo < t → t < hi → HasDerivAt q (rate (w t) (q t)) t
  hinge : ∀ t, lo < t → t < hi → HasDerivAt φ (u t) t
  dynamics : ∀ t, lo < t → t < hi → ∃ a b, HasDerivAt w a t ∧ HasDerivAt u b t ∧
    b + c • u t + k • φ t = -a ∧ (I + J).mulVec a + J.mulVec b = τ - cross (w t) (I.mulVec (w t) + h)

/-- A motion through a schedule of arcs `(end time, torque, wheel momentum)`. The last arguments are final time, angular velocity, rate of the
beam, attitude and angle of the beam. -/
inductive Flex (I J : Matrix (Fin 3) (Fin 3) ℝ) (c k : ℝ) :
    ℝ → (Fin 3 → ℝ) → (Fin 3 → ℝ) → (Fin 4 → ℝ) → (Fin 3 → ℝ) → List (ℝ × (Fin 3 → ℝ) × (Fin 3 → ℝ)) →
    ℝ → (Fin 3 → ℝ) → (Fin 3 → ℝ) → (Fin 4 → ℝ) → (Fin 3 → ℝ) → Prop
  | done (t : ℝ) (w u : Fin 3 → ℝ) (q : Fin 4 → ℝ) (φ : Fin 3 → ℝ) : Flex I J c k t w u q φ [] t w u q φ
  | arc {t e lo hi t' : ℝ} {τ h : Fin 3 → ℝ} {w u : ℝ → Fin 3 → ℝ} {q : ℝ → Fin 4 → ℝ} {φ : ℝ → Fin 3 → ℝ}
      {rest : List (ℝ × (Fin 3 → ℝ) × (Fin 3 → ℝ))} {w' u' : Fin 3 → ℝ} {q' : Fin 4 → ℝ} {φ' : Fin 3 → ℝ} :
      t < e → lo < t → e < hi → FlexOn I J c k τ h lo hi w u q φ → Flex I J c k e (w e) (u e) (q e) (φ e) rest t' w' u' q' φ' →
      Flex I J c k t (w t) (u t) (q t) (φ t) ((e, τ, h) :: rest) t' w' u' q' φ'

/-- Every arc of a schedule that starts at `t` lasts a positive whole number of times `step`. -/
def WholeSteps (step : ℝ) : ℝ → List (ℝ × (Fin 3 → ℝ) × (Fin 3 → ℝ)) → Prop
  | _, [] => True
  | t, (e, _, _) :: rest => (∃ n : ℕ, 1 ≤ n ∧ e = t + n * step) ∧ WholeSteps step e rest

end S2E.Rigid
