import Verif.Model.LinAlg
import Mathlib.Algebra.Order.Floor.Semiring
import Mathlib.Algebra.Order.Archimedean.Real.Basic
/-!
# `src/math_physics/math/s2e_math.cpp`, `src/math_physics/orbit/orbital_elements.cpp`, `src/math_physics/orbit/kepler_orbit.cpp`

Doubles are real numbers (no rounding, infinities or NaN). Divisions by zero and square roots of negative numbers do not occur under the
hypotheses of the theorems (semi-major axis and gravity constant positive, eccentricity in `[0, 1)`), except where a theorem says so.
`SolveKeplerFirstOrder` (kepler_orbit.cpp:70-85) is private and never called; it is not modelled.
-/
namespace S2E.Kepler

theorem tau_pos : 0 < tau := by unfold tau; positivity

/-- `while (angle_out < 0.0) angle_out += tau`, s2e_math.cpp:14-16. The recursion terminates for real numbers; a double of magnitude
above `2^53` would not change and the C++ loop would not end. -/
noncomputable def wrapUp (x : ℝ) : ℝ := if x < 0 then wrapUp (x + tau) else x
termination_by ⌈-x / tau⌉₊
decreasing_by
  rename_i h
  have h1 : 0 < -x / tau := div_pos (by linarith) tau_pos
  have h2 : -(x + tau) / tau = -x / tau - 1 := by field_simp [tau_pos.ne']; ring
  rw [h2]
  have h3 := Nat.ceil_lt_add_one h1.le
  rcases le_or_gt (-x / tau - 1) 0 with h4 | h4
  · rw [Nat.ceil_eq_zero.mpr h4]; exact Nat.ceil_pos.mpr h1
  · have h5 := Nat.le_ceil (-x / tau)
    have : -x / tau - 1 ≤ ((⌈-x / tau⌉₊ - 1 : ℕ) : ℝ) := by
      rw [Nat.cast_sub (Nat.ceil_pos.mpr h1)]; push_cast; linarith
    have := Nat.ceil_le.mpr this
    have := Nat.ceil_pos.mpr h1
    omega

/-- `while (angle_out > tau) angle_out -= tau`, s2e_math.cpp:18-20. -/
noncomputable def wrapDown (x : ℝ) : ℝ := if x > tau then wrapDown (x - tau) else x
termination_by ⌈x / tau⌉₊
decreasing_by
  rename_i h
  have h1 : 1 < x / tau := by rw [lt_div_iff₀ tau_pos]; linarith
  have h2 : (x - tau) / tau = x / tau - 1 := by field_simp [tau_pos.ne']
  rw [h2]
  have h0 : 0 < x / tau := by linarith
  have h5 := Nat.le_ceil (x / tau)
  have : x / tau - 1 ≤ ((⌈x / tau⌉₊ - 1 : ℕ) : ℝ) := by
    rw [Nat.cast_sub (Nat.ceil_pos.mpr h0)]; push_cast; linarith
  have := Nat.ceil_le.mpr this
  have := Nat.ceil_pos.mpr h0
  omega

/-- `WrapTo2Pi`, s2e_math.cpp:11-25. -/
noncomputable def wrapTo2Pi (x : ℝ) : ℝ := if x < 0 then wrapUp x else if x > tau then wrapDown x else x

/-- `OrbitalElements`, orbital_elements.hpp:88-97. -/
structure OrbitalElements where
  semiMajorAxis : ℝ
  eccentricity : ℝ
  inclination : ℝ
  raan : ℝ
  argPerigee : ℝ
  epochJday : ℝ

/-- The loop of `SolveKeplerNewtonMethod`, kepler_orbit.cpp:92-99: `u_rad`, `u_prev_rad`, remaining iterations. -/
noncomputable def newtonLoop (e m limit : ℝ) : ℕ → ℝ → ℝ → ℝ
  | 0, u, _ => u
  | k + 1, u, p =>
    let u' := u - (p - e * Real.sin p - m) / (1 - e * Real.cos p)
    if |u' - p| < limit then u' else newtonLoop e m limit k u' u'

/-- `SolveKeplerNewtonMethod`, kepler_orbit.cpp:87-101: `u_prev_rad` starts at the mean anomaly, `u_rad` at 0. -/
noncomputable def solveKeplerNewtonMethod (e m limit : ℝ) (iterations : ℕ) : ℝ := newtonLoop e m limit iterations 0 m

/-- `mean_motion_rad_s_` of `CalcConstKeplerMotion`, kepler_orbit.cpp:23-24. -/
noncomputable def meanMotion (mu : ℝ) (oe : OrbitalElements) : ℝ := Real.sqrt (mu / oe.semiMajorAxis ^ 3)

/-- `dcm_inplane_to_i_` of `CalcConstKeplerMotion`, kepler_orbit.cpp:27-31. -/
noncomputable def dcmInplaneToI (oe : OrbitalElements) : Mat 3 3 :=
  let dcmArgPerigee := makeRotationMatrixZ (-1 * oe.argPerigee)
  let dcmInclination := makeRotationMatrixX (-1 * oe.inclination)
  let dcmRaan := makeRotationMatrixZ (-1 * oe.raan)
  let dcmIncArg := matMul dcmInclination dcmArgPerigee
  matMul dcmRaan dcmIncArg

/-- `pos_inplane_m`, kepler_orbit.cpp:50-58. -/
noncomputable def posInplane (a e u : ℝ) : Vec 3 := ![a * (Real.cos u - e), a * Real.sqrt (1 - e * e) * Real.sin u, 0]

/-- `vel_inplane_m_s`, kepler_orbit.cpp:60-63. -/
noncomputable def velInplane (a e n u : ℝ) : Vec 3 :=
  ![-1 * a * n * Real.sin u / (1 - e * Real.cos u), n * (a * Real.sqrt (1 - e * e)) * Real.cos u / (1 - e * Real.cos u), 0]

/-- The eccentric anomaly used by `CalcOrbit`, kepler_orbit.cpp:39-47. -/
noncomputable def eccentricAnomaly (mu : ℝ) (oe : OrbitalElements) (timeJday : ℝ) : ℝ :=
  let dt := (timeJday - oe.epochJday) * (24 * 60 * 60)
  let l := wrapTo2Pi (meanMotion mu oe * dt)
  wrapTo2Pi (solveKeplerNewtonMethod oe.eccentricity l (1 / 100000) 10)

/-- `GetPosition_i_m` after `CalcOrbit(time_jday)`, kepler_orbit.cpp:34-68. -/
noncomputable def position (mu : ℝ) (oe : OrbitalElements) (timeJday : ℝ) : Vec 3 :=
  matVec (dcmInplaneToI oe) (posInplane oe.semiMajorAxis oe.eccentricity (eccentricAnomaly mu oe timeJday))

/-- `GetVelocity_i_m_s` after `CalcOrbit(time_jday)`, kepler_orbit.cpp:34-68. -/
noncomputable def velocity (mu : ℝ) (oe : OrbitalElements) (timeJday : ℝ) : Vec 3 :=
  matVec (dcmInplaneToI oe)
    (velInplane oe.semiMajorAxis oe.eccentricity (meanMotion mu oe) (eccentricAnomaly mu oe timeJday))

/-- The right ascension of `CalcOeFromPosVel`, orbital_elements.cpp:52-58 (`DBL_EPSILON` is `2^-52`). -/
noncomputable def raanOf (h : Vec 3) : ℝ :=
  if Real.sqrt (h 0 * h 0 + h 1 * h 1) < 0 + 1 / 2 ^ 52 then 0 else Real.arcsin (h 0 / Real.sqrt (h 0 * h 0 + h 1 * h 1))

/-- `CalcOeFromPosVel`, orbital_elements.cpp:35-89. -/
noncomputable def calcOeFromPosVel (mu timeJday : ℝ) (p v : Vec 3) : OrbitalElements :=
  let r := calcNorm p
  let v2 := innerProduct v v
  let h := outerProduct p v
  let hNorm := calcNorm h
  let a := mu / (2 * mu / r - v2)
  let i := Real.arccos (calcNormalizedVector h 2)
  let raan := raanOf h
  let xp := p 0 * Real.cos raan + p 1 * Real.sin raan
  let tmp := -p 0 * Real.sin raan + p 1 * Real.cos raan
  let yp := tmp * Real.cos i + p 2 * Real.sin i
  let dxp := v 0 * Real.cos raan + v 1 * Real.sin raan
  let dtmp := -v 0 * Real.sin raan + v 1 * Real.cos raan
  let dyp := dtmp * Real.cos i + v 2 * Real.sin i
  let t1 := (hNorm / mu) * dyp - xp / r
  let t2 := -(hNorm / mu) * dxp - yp / r
  let e := Real.sqrt (t1 * t1 + t2 * t2)
  let argPerigee := atan2 t2 t1
  let phi := atan2 yp xp
  let f := wrapTo2Pi (phi - argPerigee)
  let u := wrapTo2Pi (atan2 (r * Real.sin f / Real.sqrt (1 - e * e)) (r * Real.cos f + a * e))
  let n := Real.sqrt (mu / a ^ 3)
  let dt := (u - e * Real.sin u) / n
  ⟨a, e, i, raan, argPerigee, timeJday - dt / (24 * 60 * 60)⟩

end S2E.Kepler
