import Mathlib.Algebra.Polynomial.Derivative
import Mathlib.Analysis.SpecialFunctions.Complex.Arg
import Verif.Spec.TwoBody
/-!
# The gravity field of a body, independently of the model

The potential outside a body as a sum of spherical harmonics, with the usual definitions: Legendre polynomials by Rodrigues' formula, associated
functions by differentiating them, and the normalisation geodesists use for published coefficients (the mean square of each harmonic over the sphere is 1).
-/
namespace S2E.Gravity
open Polynomial TwoBody

/-- The Legendre polynomial of degree `n`, `1 / (2^n n!) · dⁿ/duⁿ (u² - 1)ⁿ`. -/
noncomputable def legendre (n : ℕ) : ℝ[X] := C (1 / (2 ^ n * (n.factorial : ℝ))) * derivative^[n] ((X ^ 2 - 1) ^ n)

/-- The associated Legendre function of degree `n` and order `m`, `(1 - u²)^(m/2) dᵐ/duᵐ Pₙ(u)` (no sign `(-1)^m`). -/
noncomputable def associated (n m : ℕ) (u : ℝ) : ℝ := Real.sqrt (1 - u ^ 2) ^ m * (derivative^[m] (legendre n)).eval u

/-- The factor of full normalisation. -/
noncomputable def normalisation (n m : ℕ) : ℝ :=
  Real.sqrt ((if m = 0 then 1 else 2) * (2 * n + 1) * ((n - m).factorial : ℝ) / ((n + m).factorial : ℝ))

/-- Longitude of a point. -/
noncomputable def longitude (p : Fin 3 → ℝ) : ℝ := Complex.arg (⟨p 0, p 1⟩ : ℂ)

/-- The potential (positive, force = gradient) of the harmonics up to degree `N`, for the gravity constant `mu`, the reference radius `R` and normalised
coefficients `c`, `s`. -/
noncomputable def potential (mu R : ℝ) (N : ℕ) (c s : ℕ → ℕ → ℝ) (p : Fin 3 → ℝ) : ℝ :=
  mu / len p * ∑ n ∈ Finset.range (N + 1), ∑ m ∈ Finset.range (n + 1),
    (R / len p) ^ n * (normalisation n m * associated n m (p 2 / len p)) *
      (c n m * Real.cos (m * longitude p) + s n m * Real.sin (m * longitude p))

/-- `g` is the gradient of `f` at `p`: the derivative of `f` in direction `v` is `g 0 v 0 + g 1 v 1 + g 2 v 2`. -/
def IsGradient (f : (Fin 3 → ℝ) → ℝ) (p g : Fin 3 → ℝ) : Prop :=
  HasFDerivAt f (∑ i, g i • (ContinuousLinearMap.proj i : (Fin 3 → ℝ) →L[ℝ] ℝ)) p

end S2E.Gravity
