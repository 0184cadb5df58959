import Verif.Spec.TwoBody
import Mathlib.Analysis.SpecialFunctions.Trigonometric.Deriv
/-!
# Relative motion about a circular orbit, independently of the model
-/
namespace S2E.TwoBody

/-- `x` (relative position in the frame radial / along-track / cross-track) and `u` (its rate of change in that frame) obey Hill's equations
with mean motion `n`. -/
structure HillMotion (n : ℝ) (x u : ℝ → Fin 3 → ℝ) : Prop where
  vel : ∀ t, HasDerivAt x (u t) t
  acc : ∀ t, HasDerivAt u ![3 * n ^ 2 * x t 0 + 2 * n * u t 1, -2 * n * u t 0, -n ^ 2 * x t 2] t

/-- Position on the circular orbit of radius `ρ` in the xy plane with angular rate `n`. -/
noncomputable def circlePos (ρ n t : ℝ) : Fin 3 → ℝ := ![ρ * Real.cos (n * t), ρ * Real.sin (n * t), 0]

/-- Velocity on that orbit. -/
noncomputable def circleVel (ρ n t : ℝ) : Fin 3 → ℝ := ![-(ρ * n * Real.sin (n * t)), ρ * n * Real.cos (n * t), 0]

/-- Components of an inertial vector along the radial, along-track and cross-track direction of that orbit. -/
noncomputable def inOrbitFrame (n t : ℝ) (a : Fin 3 → ℝ) : Fin 3 → ℝ :=
  ![Real.cos (n * t) * a 0 + Real.sin (n * t) * a 1, -(Real.sin (n * t) * a 0) + Real.cos (n * t) * a 1, a 2]

/-- Rate of change, in the turning frame, of the components of `a` when `a` changes with rate `b`. -/
noncomputable def rateInOrbitFrame (n t : ℝ) (a b : Fin 3 → ℝ) : Fin 3 → ℝ :=
  inOrbitFrame n t b - n • ![-(inOrbitFrame n t a 1), inOrbitFrame n t a 0, 0]

/-- The circle is a two-body motion. -/
theorem circle_motion {mu ρ n : ℝ} (hρ : 0 < ρ) (hn : n ^ 2 * ρ ^ 3 = mu) : Motion mu (circlePos ρ n) (circleVel ρ n) := by
  have hlen : ∀ t, len (circlePos ρ n t) = ρ := by
    intro t
    rw [len, Real.sqrt_eq_iff_mul_self_eq (by positivity) hρ.le]
    simp [circlePos]
    linear_combination (ρ ^ 2) * Real.sin_sq_add_cos_sq (n * t)
  have hlin : ∀ t : ℝ, HasDerivAt (fun t => n * t) n t := fun t => by simpa using (hasDerivAt_id t).const_mul n
  refine ⟨fun t h0 => ?_, fun t => ?_, fun t => ?_⟩
  · have := hlen t
    rw [h0] at this
    simp [len] at this
    exact hρ.ne this
  · rw [hasDerivAt_pi]
    intro i
    fin_cases i
    · exact ((hlin t).cos.const_mul ρ).congr_deriv (by simp [circleVel]; ring)
    · exact ((hlin t).sin.const_mul ρ).congr_deriv (by simp [circleVel]; ring)
    · exact hasDerivAt_const t 0
  · rw [hasDerivAt_pi, hlen, ← hn]
    intro i
    fin_cases i
    · exact ((hlin t).sin.const_mul (ρ * n)).neg.congr_deriv (by simp [circlePos]; field_simp)
    · exact ((hlin t).cos.const_mul (ρ * n)).congr_deriv (by simp [circlePos]; field_simp)
    · exact (hasDerivAt_const t (0 : ℝ)).congr_deriv (by simp [circlePos])

/-- Components in the turning frame change with `rateInOrbitFrame`. -/
theorem inOrbitFrame_deriv {a b : ℝ → Fin 3 → ℝ} {n t : ℝ} (h : HasDerivAt a (b t) t) :
    HasDerivAt (fun t => inOrbitFrame n t (a t)) (rateInOrbitFrame n t (a t) (b t)) t := by
  have hlin : HasDerivAt (fun t => n * t) n t := by simpa using (hasDerivAt_id t).const_mul n
  have hs := hlin.sin
  have hc := hlin.cos
  have h1 := hasDerivAt_pi.mp h
  rw [hasDerivAt_pi]
  intro i
  fin_cases i
  · exact ((hc.mul (h1 0)).add (hs.mul (h1 1))).congr_deriv (by simp [rateInOrbitFrame, inOrbitFrame]; ring)
  · exact (((hs.mul (h1 0)).neg).add (hc.mul (h1 1))).congr_deriv (by simp [rateInOrbitFrame, inOrbitFrame]; ring)
  · exact (h1 2).congr_deriv (by simp [rateInOrbitFrame, inOrbitFrame])

/-- The equations of motion in the turning frame about the circular orbit, on pairs (relative position, relative velocity). -/
noncomputable def relField (mu n ρ : ℝ) (z : (Fin 3 → ℝ) × (Fin 3 → ℝ)) : (Fin 3 → ℝ) × (Fin 3 → ℝ) :=
  (z.2, ![n ^ 2 * (ρ + z.1 0) + 2 * n * z.2 1, n ^ 2 * z.1 1 - 2 * n * z.2 0, 0] -
    (mu / len (![ρ, 0, 0] + z.1) ^ 3) • (![ρ, 0, 0] + z.1))

/-- Every two-body motion, seen in the turning frame relative to the circular orbit, obeys these equations. -/
theorem relative_motion {mu ρ n : ℝ} (hρ : 0 < ρ) (hn : n ^ 2 * ρ ^ 3 = mu) {R V : ℝ → Fin 3 → ℝ} (hM : Motion mu R V) (t : ℝ) :
    HasDerivAt (fun t => (inOrbitFrame n t (R t - circlePos ρ n t), rateInOrbitFrame n t (R t - circlePos ρ n t) (V t - circleVel ρ n t)))
      (relField mu n ρ (inOrbitFrame n t (R t - circlePos ρ n t), rateInOrbitFrame n t (R t - circlePos ρ n t) (V t - circleVel ρ n t))) t := by
  have hc := circle_motion hρ hn
  have hd : ∀ t, HasDerivAt (fun t => R t - circlePos ρ n t) (V t - circleVel ρ n t) t := fun t => (hM.vel t).sub (hc.vel t)
  have h1 := inOrbitFrame_deriv (n := n) (hd t) (b := fun t => V t - circleVel ρ n t)
  have hdd := (hM.acc t).sub (hc.acc t)
  have h2 := inOrbitFrame_deriv (n := n) (b := fun t => (-(mu / len (R t) ^ 3) • R t) - (-(mu / len (circlePos ρ n t) ^ 3) • circlePos ρ n t)) hdd
  refine h1.prodMk ?_
  have hlen : len (![ρ, 0, 0] + inOrbitFrame n t (R t - circlePos ρ n t)) = len (R t) := by
    rw [len, len]
    congr 1
    simp [inOrbitFrame, circlePos]
    have := Real.sin_sq_add_cos_sq (n * t)
    generalize Real.sin (n * t) = s at *
    generalize Real.cos (n * t) = c at *
    grind
  have hlenc : len (circlePos ρ n t) = ρ := by
    rw [len, Real.sqrt_eq_iff_mul_self_eq (by positivity) hρ.le]
    simp [circlePos]
    linear_combination (ρ ^ 2) * Real.sin_sq_add_cos_sq (n * t)
  have hx : ∀ i, HasDerivAt (fun t => inOrbitFrame n t (R t - circlePos ρ n t) i) (rateInOrbitFrame n t (R t - circlePos ρ n t) (V t - circleVel ρ n t) i) t :=
    hasDerivAt_pi.mp h1
  have hu := hasDerivAt_pi.mp h2
  have hq : mu / ρ ^ 3 = n ^ 2 := by rw [← hn]; field_simp
  rw [hasDerivAt_pi]
  simp only [relField, hlen]
  simp only [hlenc, hq] at hu
  generalize mu / len (R t) ^ 3 = κ at *
  have hsc := Real.sin_sq_add_cos_sq (n * t)
  intro i
  fin_cases i
  · exact ((hu 0).sub ((hx 1).neg.const_mul n)).congr_deriv (by
      simp [rateInOrbitFrame, inOrbitFrame, circlePos, circleVel]
      generalize Real.sin (n * t) = s at *
      generalize Real.cos (n * t) = c at *
      clear * - hsc
      grind)
  · exact ((hu 1).sub ((hx 0).const_mul n)).congr_deriv (by
      simp [rateInOrbitFrame, inOrbitFrame, circlePos, circleVel]
      generalize Real.sin (n * t) = s at *
      generalize Real.cos (n * t) = c at *
      clear * - hsc
      grind)
  · exact ((hu 2).sub (hasDerivAt_const t (n * 0))).congr_deriv (by
      simp [rateInOrbitFrame, inOrbitFrame, circlePos, circleVel])

end S2E.TwoBody
