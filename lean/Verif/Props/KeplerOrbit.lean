import Verif.Props.KeplerSolver
import Verif.Spec.TwoBody
import Mathlib.Tactic.LinearCombination
/-!
# Keplerian orbit (C91)
-/
namespace S2E.Kepler
open S2E.TwoBody

/-! ## Directions given by the orbital elements -/

/-- Direction of the perigee for inclination `i`, right ascension of the ascending node `O`, argument of perigee `w`. -/
noncomputable def perigeeDir (oe : OrbitalElements) : Fin 3 → ℝ :=
  let i := oe.inclination
  let O := oe.raan
  let w := oe.argPerigee
  ![Real.cos O * Real.cos w - Real.sin O * Real.sin w * Real.cos i, Real.sin O * Real.cos w + Real.cos O * Real.sin w * Real.cos i,
    Real.sin w * Real.sin i]

/-- Direction of the velocity at perigee. -/
noncomputable def alongDir (oe : OrbitalElements) : Fin 3 → ℝ :=
  let i := oe.inclination
  let O := oe.raan
  let w := oe.argPerigee
  ![-(Real.cos O * Real.sin w) - Real.sin O * Real.cos w * Real.cos i, -(Real.sin O * Real.sin w) + Real.cos O * Real.cos w * Real.cos i,
    Real.cos w * Real.sin i]

/-- Direction of the angular momentum. -/
noncomputable def normalDir (oe : OrbitalElements) : Fin 3 → ℝ :=
  ![Real.sin oe.inclination * Real.sin oe.raan, -(Real.sin oe.inclination * Real.cos oe.raan), Real.cos oe.inclination]

theorem dirs (oe : OrbitalElements) :
    dot (perigeeDir oe) (perigeeDir oe) = 1 ∧ dot (alongDir oe) (alongDir oe) = 1 ∧ dot (perigeeDir oe) (alongDir oe) = 0 ∧
      cross (perigeeDir oe) (alongDir oe) = normalDir oe ∧ cross (alongDir oe) (normalDir oe) = perigeeDir oe ∧
      cross (normalDir oe) (perigeeDir oe) = alongDir oe := by
  have h1 := Real.sin_sq_add_cos_sq oe.inclination
  have h2 := Real.sin_sq_add_cos_sq oe.raan
  have h3 := Real.sin_sq_add_cos_sq oe.argPerigee
  unfold perigeeDir alongDir normalDir dot cross
  simp only
  generalize Real.sin oe.inclination = si at *
  generalize Real.cos oe.inclination = ci at *
  generalize Real.sin oe.raan = sO at *
  generalize Real.cos oe.raan = cO at *
  generalize Real.sin oe.argPerigee = sw at *
  generalize Real.cos oe.argPerigee = cw at *
  simp only [Matrix.cons_val_zero, Matrix.cons_val_one, Matrix.cons_val]
  refine ⟨?_, ?_, ?_, ?_, ?_, ?_⟩
  · grind
  · grind
  · grind
  · funext k; fin_cases k <;> simp <;> grind
  · funext k; fin_cases k <;> simp <;> grind
  · funext k; fin_cases k <;> simp <;> grind

/-- Multiplying an in-plane vector by the direction cosine matrix. -/
theorem matVec_inplane (oe : OrbitalElements) (x y : ℝ) :
    matVec (dcmInplaneToI oe) ![x, y, 0] = x • perigeeDir oe + y • alongDir oe := by
  funext k
  simp only [matVec, dcmInplaneToI, matMul, makeRotationMatrixX, makeRotationMatrixZ, perigeeDir, alongDir, Fin.sum_univ_three, neg_mul, one_mul,
    Real.cos_neg, Real.sin_neg, Matrix.of_apply, Matrix.cons_val', Matrix.cons_val_zero, Matrix.cons_val_one, Matrix.cons_val, Pi.add_apply, Pi.smul_apply, smul_eq_mul]
  fin_cases k <;> simp <;> ring

theorem len_inplane (oe : OrbitalElements) (x y : ℝ) : len (x • perigeeDir oe + y • alongDir oe) = Real.sqrt (x ^ 2 + y ^ 2) := by
  obtain ⟨h1, h2, h3, -⟩ := dirs oe
  unfold len
  congr 1
  unfold dot at h1 h2 h3
  simp only [Pi.add_apply, Pi.smul_apply, smul_eq_mul]
  generalize perigeeDir oe = p at *
  generalize alongDir oe = q at *
  linear_combination x ^ 2 * h1 + y ^ 2 * h2 + 2 * x * y * h3

theorem dot_inplane (oe : OrbitalElements) (x y x' y' : ℝ) :
    dot (x • perigeeDir oe + y • alongDir oe) (x' • perigeeDir oe + y' • alongDir oe) = x * x' + y * y' := by
  obtain ⟨h1, h2, h3, -⟩ := dirs oe
  unfold dot at *
  simp only [Pi.add_apply, Pi.smul_apply, smul_eq_mul]
  generalize perigeeDir oe = p at *
  generalize alongDir oe = q at *
  linear_combination x * x' * h1 + y * y' * h2 + (x * y' + y * x') * h3

theorem cross_inplane (oe : OrbitalElements) (x y x' y' : ℝ) :
    cross (x • perigeeDir oe + y • alongDir oe) (x' • perigeeDir oe + y' • alongDir oe) = (x * y' - y * x') • normalDir oe := by
  obtain ⟨-, -, -, h, -⟩ := dirs oe
  rw [← h]
  unfold cross
  funext k
  fin_cases k <;> simp <;> ring

theorem cross_normal (oe : OrbitalElements) (x y c : ℝ) :
    cross (x • perigeeDir oe + y • alongDir oe) (c • normalDir oe) = (c * y) • perigeeDir oe + (-(c * x)) • alongDir oe := by
  obtain ⟨-, -, -, -, h1, h2⟩ := dirs oe
  have e1 : cross (x • perigeeDir oe + y • alongDir oe) (c • normalDir oe) =
      (c * y) • cross (alongDir oe) (normalDir oe) + (-(c * x)) • cross (normalDir oe) (perigeeDir oe) := by
    unfold cross
    funext k
    fin_cases k <;> simp <;> ring
  rw [e1, h1, h2]

/-! ## Shape of the orbit -/

/-- Elements of an elliptic orbit. -/
structure Elliptic (mu : ℝ) (oe : OrbitalElements) : Prop where
  mu : 0 < mu
  a : 0 < oe.semiMajorAxis
  e0 : 0 ≤ oe.eccentricity
  e1 : oe.eccentricity < 1

/-- The point of the orbit with eccentric anomaly `u`. -/
noncomputable def pointAt (oe : OrbitalElements) (u : ℝ) : Fin 3 → ℝ :=
  (oe.semiMajorAxis * (Real.cos u - oe.eccentricity)) • perigeeDir oe +
    (oe.semiMajorAxis * Real.sqrt (1 - oe.eccentricity * oe.eccentricity) * Real.sin u) • alongDir oe

/-- The velocity at the point with eccentric anomaly `u`. -/
noncomputable def velocityAt (mu : ℝ) (oe : OrbitalElements) (u : ℝ) : Fin 3 → ℝ :=
  (-1 * oe.semiMajorAxis * meanMotion mu oe * Real.sin u / (1 - oe.eccentricity * Real.cos u)) • perigeeDir oe +
    (meanMotion mu oe * (oe.semiMajorAxis * Real.sqrt (1 - oe.eccentricity * oe.eccentricity)) * Real.cos u /
      (1 - oe.eccentricity * Real.cos u)) • alongDir oe

theorem position_eq (mu : ℝ) (oe : OrbitalElements) (t : ℝ) : position mu oe t = pointAt oe (eccentricAnomaly mu oe t) := by
  rw [position, posInplane, matVec_inplane, pointAt]

theorem velocity_eq (mu : ℝ) (oe : OrbitalElements) (t : ℝ) : velocity mu oe t = velocityAt mu oe (eccentricAnomaly mu oe t) := by
  rw [velocity, velInplane, matVec_inplane, velocityAt]

theorem meanMotion_sq {mu : ℝ} {oe : OrbitalElements} (h : Elliptic mu oe) :
    0 < meanMotion mu oe ∧ meanMotion mu oe ^ 2 * oe.semiMajorAxis ^ 3 = mu := by
  have h3 := pow_pos h.a 3
  have h4 := div_pos h.mu h3
  refine ⟨Real.sqrt_pos.mpr h4, ?_⟩
  rw [meanMotion, Real.sq_sqrt h4.le]
  exact div_mul_cancel₀ _ h3.ne'

theorem sqrt_e {mu : ℝ} {oe : OrbitalElements} (h : Elliptic mu oe) :
    0 < Real.sqrt (1 - oe.eccentricity * oe.eccentricity) ∧
      Real.sqrt (1 - oe.eccentricity * oe.eccentricity) ^ 2 = 1 - oe.eccentricity * oe.eccentricity := by
  have h1 : 0 < 1 - oe.eccentricity * oe.eccentricity := by nlinarith [h.e0, h.e1]
  exact ⟨Real.sqrt_pos.mpr h1, Real.sq_sqrt h1.le⟩

theorem den_pos {mu : ℝ} {oe : OrbitalElements} (h : Elliptic mu oe) (u : ℝ) :
    1 - oe.eccentricity ≤ 1 - oe.eccentricity * Real.cos u ∧ 0 < 1 - oe.eccentricity * Real.cos u ∧
      1 - oe.eccentricity * Real.cos u ≤ 1 + oe.eccentricity := by
  have h1 := Real.cos_le_one u
  have h2 := Real.neg_one_le_cos u
  have h3 := h.e0
  have h4 := h.e1
  refine ⟨by nlinarith, by nlinarith, by nlinarith⟩

theorem len_pointAt {mu : ℝ} {oe : OrbitalElements} (h : Elliptic mu oe) (u : ℝ) :
    len (pointAt oe u) = oe.semiMajorAxis * (1 - oe.eccentricity * Real.cos u) := by
  rw [pointAt, len_inplane]
  have hs := (sqrt_e h).2
  have ht := Real.sin_sq_add_cos_sq u
  rw [← Real.sqrt_sq (mul_pos h.a (den_pos h u).2.1).le]
  congr 1
  generalize Real.sqrt (1 - oe.eccentricity * oe.eccentricity) = b at *
  generalize oe.semiMajorAxis = a at *
  generalize oe.eccentricity = e at *
  generalize Real.sin u = s at *
  generalize Real.cos u = c at *
  linear_combination a ^ 2 * s ^ 2 * hs + a ^ 2 * (1 - e ^ 2) * ht

theorem dot_velocityAt {mu : ℝ} {oe : OrbitalElements} (h : Elliptic mu oe) (u : ℝ) :
    dot (velocityAt mu oe u) (velocityAt mu oe u) = mu * (2 / len (pointAt oe u) - 1 / oe.semiMajorAxis) := by
  rw [velocityAt, dot_inplane, len_pointAt h]
  have hs := (sqrt_e h).2
  have ht := Real.sin_sq_add_cos_sq u
  have hn := (meanMotion_sq h).2
  have hd := (den_pos h u).2.1
  have ha := h.a
  generalize Real.sqrt (1 - oe.eccentricity * oe.eccentricity) = b at *
  generalize oe.semiMajorAxis = a at *
  generalize oe.eccentricity = e at *
  generalize meanMotion mu oe = n at *
  generalize Real.sin u = s at *
  generalize Real.cos u = c at *
  rw [← hn]
  have hd' := hd.ne'
  have ha' := ha.ne'
  field_simp
  linear_combination n ^ 2 * (c ^ 2 * hs + ht)

/-- **The orbit is the ellipse of the elements at all times, whatever the accuracy of the solver.** Distance between perigee and apogee,
energy (vis-viva), angular momentum and the eccentricity vector are those of the elements. -/
theorem C91_shape (mu : ℝ) (oe : OrbitalElements) (h : Elliptic mu oe) (t : ℝ) :
    (oe.semiMajorAxis * (1 - oe.eccentricity) ≤ len (position mu oe t) ∧
      len (position mu oe t) ≤ oe.semiMajorAxis * (1 + oe.eccentricity)) ∧
    dot (velocity mu oe t) (velocity mu oe t) / 2 - mu / len (position mu oe t) = -mu / (2 * oe.semiMajorAxis) ∧
    cross (position mu oe t) (velocity mu oe t) =
      Real.sqrt (mu * oe.semiMajorAxis * (1 - oe.eccentricity ^ 2)) • normalDir oe ∧
    (1 / mu) • cross (velocity mu oe t) (cross (position mu oe t) (velocity mu oe t)) - (1 / len (position mu oe t)) • position mu oe t =
      oe.eccentricity • perigeeDir oe := by
  rw [position_eq, velocity_eq]
  generalize eccentricAnomaly mu oe t = u
  obtain ⟨hd1, hd, hd2⟩ := den_pos h u
  have hl := len_pointAt h u
  have ha := h.a
  have hn := meanMotion_sq h
  have hs := sqrt_e h
  have ht := Real.sin_sq_add_cos_sq u
  have hcross : cross (pointAt oe u) (velocityAt mu oe u) =
      (meanMotion mu oe * oe.semiMajorAxis ^ 2 * Real.sqrt (1 - oe.eccentricity * oe.eccentricity)) • normalDir oe := by
    rw [pointAt, velocityAt, cross_inplane]
    congr 1
    generalize Real.sqrt (1 - oe.eccentricity * oe.eccentricity) = b at *
    generalize oe.semiMajorAxis = a at *
    generalize oe.eccentricity = e at *
    generalize meanMotion mu oe = n at *
    generalize Real.sin u = s at *
    generalize Real.cos u = c at *
    have hd' := hd.ne'
    obtain ⟨d, hdd⟩ : ∃ d, d = 1 - e * c := ⟨_, rfl⟩
    rw [← hdd] at hd' ⊢
    field_simp
    linear_combination n * b * ht - n * b * hdd
  refine ⟨⟨?_, ?_⟩, ?_, ?_, ?_⟩
  · rw [hl]; exact mul_le_mul_of_nonneg_left hd1 ha.le
  · rw [hl]; exact mul_le_mul_of_nonneg_left hd2 ha.le
  · rw [dot_velocityAt h]
    have : len (pointAt oe u) ≠ 0 := by rw [hl]; exact (mul_pos ha hd).ne'
    field_simp
    ring
  · rw [hcross]
    congr 1
    have h0 : 0 ≤ meanMotion mu oe * oe.semiMajorAxis ^ 2 * Real.sqrt (1 - oe.eccentricity * oe.eccentricity) := by
      have := hn.1; have := hs.1; positivity
    rw [← Real.sqrt_sq h0]
    congr 1
    linear_combination meanMotion mu oe ^ 2 * oe.semiMajorAxis ^ 4 * hs.2 + oe.semiMajorAxis * (1 - oe.eccentricity ^ 2) * hn.2
  · rw [hcross, velocityAt, cross_normal, hl, pointAt]
    have hmu := h.mu.ne'
    funext k
    simp only [Pi.sub_apply, Pi.smul_apply, Pi.add_apply, smul_eq_mul]
    generalize perigeeDir oe k = p
    generalize alongDir oe k = q
    generalize Real.sqrt (1 - oe.eccentricity * oe.eccentricity) = b at *
    generalize oe.semiMajorAxis = a at *
    generalize oe.eccentricity = e at *
    obtain ⟨hn1, hn2⟩ := hn
    obtain ⟨hs1, hs2⟩ := hs
    generalize meanMotion mu oe = n at *
    generalize Real.sin u = s at *
    generalize Real.cos u = c at *
    have hd' := hd.ne'
    have ha' := ha.ne'
    rw [← hn2]
    have hn' := hn1.ne'
    obtain ⟨d, hdd⟩ : ∃ d, d = 1 - e * c := ⟨_, rfl⟩
    rw [← hdd] at hd' ⊢
    clear * - hs2 hd' ha' hn' hdd ht
    field_simp
    linear_combination c * p * hs2 - p * e * hdd

/-! ## Motion along the orbit -/

/-- The exact eccentric anomaly at mean anomaly `m`. -/
noncomputable def exactE (e m : ℝ) : ℝ := if h : 0 ≤ e ∧ e < 1 then (C90_kepler_unique e m h.1 h.2).choose else 0

theorem exactE_spec {e : ℝ} (h0 : 0 ≤ e) (h1 : e < 1) (m : ℝ) : exactE e m - e * Real.sin (exactE e m) = m := by
  rw [exactE, dif_pos ⟨h0, h1⟩]
  exact (C90_kepler_unique e m h0 h1).choose_spec.1.1

theorem exactE_unique {e : ℝ} (h0 : 0 ≤ e) (h1 : e < 1) (m E : ℝ) (h : E - e * Real.sin E = m) : E = exactE e m := by
  rw [exactE, dif_pos ⟨h0, h1⟩]
  exact (C90_kepler_unique e m h0 h1).choose_spec.2 E h

theorem exactE_add_turns {e : ℝ} (h0 : 0 ≤ e) (h1 : e < 1) (m : ℝ) (k : ℤ) : exactE e (m + k * (2 * Real.pi)) = exactE e m + k * (2 * Real.pi) := by
  symm
  apply exactE_unique h0 h1
  rw [Real.sin_add_int_mul_two_pi]
  have := exactE_spec h0 h1 m
  linarith

theorem exactE_hasDerivAt {e : ℝ} (h0 : 0 ≤ e) (h1 : e < 1) (m : ℝ) :
    HasDerivAt (exactE e) (1 - e * Real.cos (exactE e m))⁻¹ m := by
  have hcont : ContinuousAt (exactE e) m := by
    rw [Metric.continuousAt_iff]
    intro ε hε
    refine ⟨(1 - e) * ε, mul_pos (by linarith) hε, fun {x} hx => ?_⟩
    rw [Real.dist_eq] at hx ⊢
    have := kappa_expand h0 (exactE e x) (exactE e m)
    rw [exactE_spec h0 h1, exactE_spec h0 h1] at this
    exact lt_of_mul_lt_mul_left (lt_of_le_of_lt this hx) (by linarith)
  have hf : HasDerivAt (fun E => E - e * Real.sin E) (1 - e * Real.cos (exactE e m)) (exactE e m) := by
    have := (hasDerivAt_id (exactE e m)).sub ((Real.hasDerivAt_sin (exactE e m)).const_mul e)
    exact this
  exact hf.of_local_left_inverse hcont (by nlinarith [Real.cos_le_one (exactE e m), Real.neg_one_le_cos (exactE e m)])
    (Filter.Eventually.of_forall fun y => exactE_spec h0 h1 y)

/-- The motion along the orbit of the elements, time in seconds from the epoch. -/
noncomputable def exactR (mu : ℝ) (oe : OrbitalElements) (t : ℝ) : Fin 3 → ℝ := pointAt oe (exactE oe.eccentricity (meanMotion mu oe * t))

noncomputable def exactV (mu : ℝ) (oe : OrbitalElements) (t : ℝ) : Fin 3 → ℝ := velocityAt mu oe (exactE oe.eccentricity (meanMotion mu oe * t))

theorem exact_motion {mu : ℝ} {oe : OrbitalElements} (h : Elliptic mu oe) : Motion mu (exactR mu oe) (exactV mu oe) := by
  have hE : ∀ t, HasDerivAt (fun t => exactE oe.eccentricity (meanMotion mu oe * t))
      ((1 - oe.eccentricity * Real.cos (exactE oe.eccentricity (meanMotion mu oe * t)))⁻¹ * meanMotion mu oe) t := by
    intro t
    have h1 := exactE_hasDerivAt h.e0 h.e1 (meanMotion mu oe * t)
    have h2 : HasDerivAt (fun t => meanMotion mu oe * t) (meanMotion mu oe) t := by
      simpa using (hasDerivAt_id t).const_mul (meanMotion mu oe)
    exact h1.comp t h2
  refine ⟨fun t h0 => ?_, fun t => ?_, fun t => ?_⟩
  · have h1 := len_pointAt h (exactE oe.eccentricity (meanMotion mu oe * t))
    have h2 : pointAt oe (exactE oe.eccentricity (meanMotion mu oe * t)) = 0 := h0
    rw [h2] at h1
    have h3 := mul_pos h.a (den_pos h (exactE oe.eccentricity (meanMotion mu oe * t))).2.1
    have : len (0 : Fin 3 → ℝ) = 0 := by simp [len]
    linarith
  · have hx := ((hE t).cos.sub_const oe.eccentricity).const_mul oe.semiMajorAxis
    have hy := (hE t).sin.const_mul (oe.semiMajorAxis * Real.sqrt (1 - oe.eccentricity * oe.eccentricity))
    have := (hx.smul_const (perigeeDir oe)).add (hy.smul_const (alongDir oe))
    refine this.congr_deriv ?_
    rw [exactV, velocityAt]
    congr 2
    · rw [div_eq_mul_inv]; ring
    · rw [div_eq_mul_inv]; ring
  · have hd := (den_pos h (exactE oe.eccentricity (meanMotion mu oe * t))).2.1
    have hden := ((hE t).cos.const_mul oe.eccentricity).const_sub 1
    have hx := ((hE t).sin.const_mul (-1 * oe.semiMajorAxis * meanMotion mu oe)).div hden hd.ne'
    have hy := ((hE t).cos.const_mul (meanMotion mu oe * (oe.semiMajorAxis * Real.sqrt (1 - oe.eccentricity * oe.eccentricity)))).div hden hd.ne'
    have := (hx.smul_const (perigeeDir oe)).add (hy.smul_const (alongDir oe))
    refine this.congr_deriv ?_
    have hl := len_pointAt h (exactE oe.eccentricity (meanMotion mu oe * t))
    rw [exactR, hl, pointAt, smul_add, smul_smul, smul_smul]
    have hn := (meanMotion_sq h).2
    have ht := Real.sin_sq_add_cos_sq (exactE oe.eccentricity (meanMotion mu oe * t))
    have ha := h.a.ne'
    generalize exactE oe.eccentricity (meanMotion mu oe * t) = u at *
    generalize Real.sqrt (1 - oe.eccentricity * oe.eccentricity) = b at *
    generalize oe.semiMajorAxis = a at *
    generalize oe.eccentricity = e at *
    generalize meanMotion mu oe = n at *
    generalize Real.sin u = s at *
    generalize Real.cos u = c at *
    have hd' := hd.ne'
    clear * - hn ht ha hd'
    rw [← hn]
    obtain ⟨d, hdd⟩ : ∃ d, d = 1 - e * c := ⟨_, rfl⟩
    rw [← hdd] at hd' ⊢
    congr 2
    · field_simp
      linear_combination n ^ 2 * e * ht - n ^ 2 * c * hdd
    · field_simp
      linear_combination -(n ^ 2 * b * s) * hdd

/-- Position and velocity at perigee, the state the elements describe at the epoch. -/
structure StartsAtPerigee (mu : ℝ) (oe : OrbitalElements) (R V : ℝ → Fin 3 → ℝ) : Prop where
  pos : R 0 = (oe.semiMajorAxis * (1 - oe.eccentricity)) • perigeeDir oe
  vel : V 0 = Real.sqrt (mu / oe.semiMajorAxis * ((1 + oe.eccentricity) / (1 - oe.eccentricity))) • alongDir oe

theorem exact_starts {mu : ℝ} {oe : OrbitalElements} (h : Elliptic mu oe) : StartsAtPerigee mu oe (exactR mu oe) (exactV mu oe) := by
  have h0 : exactE oe.eccentricity (meanMotion mu oe * 0) = 0 := (exactE_unique h.e0 h.e1 _ 0 (by simp)).symm
  have hn := meanMotion_sq h
  have hs := sqrt_e h
  have ha := h.a
  have he : 0 < 1 - oe.eccentricity := by linarith [h.e1]
  constructor
  · rw [exactR, h0, pointAt]; simp
  · rw [exactV, h0, velocityAt]
    simp only [Real.sin_zero, Real.cos_zero, mul_zero, zero_div, zero_smul, zero_add, mul_one]
    congr 1
    have hpos : 0 ≤ meanMotion mu oe * (oe.semiMajorAxis * Real.sqrt (1 - oe.eccentricity * oe.eccentricity)) / (1 - oe.eccentricity) := by
      have := hn.1; have := hs.1; positivity
    rw [← Real.sqrt_sq hpos]
    congr 1
    have ha' := ha.ne'
    have he' := he.ne'
    have hs2 := hs.2
    have hn2 := hn.2
    generalize Real.sqrt (1 - oe.eccentricity * oe.eccentricity) = b at *
    generalize meanMotion mu oe = n at *
    rw [← hn2]
    field_simp
    linear_combination n ^ 2 * hs2

/-- The two-body motion through the perigee state of the elements exists, is unique and is periodic with period `2π √(a³/mu)`. -/
theorem C91_motion (mu : ℝ) (oe : OrbitalElements) (h : Elliptic mu oe) :
    ∃ R V, Motion mu R V ∧ StartsAtPerigee mu oe R V ∧
      (∀ R' V', Motion mu R' V' → StartsAtPerigee mu oe R' V' → R' = R ∧ V' = V) ∧
      ∀ t, R (t + 2 * Real.pi * Real.sqrt (oe.semiMajorAxis ^ 3 / mu)) = R t := by
  refine ⟨exactR mu oe, exactV mu oe, exact_motion h, exact_starts h, fun R' V' h1 h2 => ?_, fun t => ?_⟩
  · have h3 := exact_starts h
    exact h1.unique (exact_motion h) 0 (h2.pos.trans h3.pos.symm) (h2.vel.trans h3.vel.symm)
  · have hn : meanMotion mu oe * Real.sqrt (oe.semiMajorAxis ^ 3 / mu) = 1 := by
      have h3 := pow_pos h.a 3
      rw [meanMotion, ← Real.sqrt_mul (div_pos h.mu h3).le, div_mul_div_cancel₀ h3.ne', div_self h.mu.ne', Real.sqrt_one]
    have : meanMotion mu oe * (t + 2 * Real.pi * Real.sqrt (oe.semiMajorAxis ^ 3 / mu)) = meanMotion mu oe * t + ((1 : ℤ) : ℝ) * (2 * Real.pi) := by
      push_cast
      linear_combination 2 * Real.pi * hn
    rw [exactR, this, exactE_add_turns h.e0 h.e1, exactR, pointAt, pointAt, Real.cos_add_int_mul_two_pi, Real.sin_add_int_mul_two_pi]

/-- Seconds from the epoch. -/
noncomputable def secondsSinceEpoch (oe : OrbitalElements) (jday : ℝ) : ℝ := (jday - oe.epochJday) * 86400

theorem chord (u v : ℝ) : (Real.cos u - Real.cos v) ^ 2 + (Real.sin u - Real.sin v) ^ 2 ≤ (u - v) ^ 2 := by
  have h1 := Real.one_sub_sq_div_two_le_cos (x := u - v)
  rw [Real.cos_sub] at h1
  have h2 := Real.sin_sq_add_cos_sq u
  have h3 := Real.sin_sq_add_cos_sq v
  nlinarith

theorem len_pointAt_sub {mu : ℝ} {oe : OrbitalElements} (h : Elliptic mu oe) (u v : ℝ) :
    len (pointAt oe u - pointAt oe v) ≤ oe.semiMajorAxis * |u - v| := by
  have hsub : pointAt oe u - pointAt oe v = (oe.semiMajorAxis * (Real.cos u - Real.cos v)) • perigeeDir oe +
      (oe.semiMajorAxis * Real.sqrt (1 - oe.eccentricity * oe.eccentricity) * (Real.sin u - Real.sin v)) • alongDir oe := by
    unfold pointAt
    funext k
    simp only [Pi.sub_apply, Pi.smul_apply, Pi.add_apply, smul_eq_mul]
    ring
  rw [hsub, len_inplane]
  apply Real.sqrt_le_iff.mpr
  have ha := h.a
  refine ⟨by positivity, ?_⟩
  rw [mul_pow, mul_pow, mul_pow, mul_pow, (sqrt_e h).2, sq_abs]
  have h1 := chord u v
  have h2 : 0 ≤ oe.eccentricity * oe.eccentricity := mul_self_nonneg _
  have h3 := sq_nonneg (Real.sin u - Real.sin v)
  have h4 := sq_pos_of_pos ha
  nlinarith [mul_nonneg (mul_nonneg h4.le h2) h3]

theorem len_velocityAt_sub {mu : ℝ} {oe : OrbitalElements} (h : Elliptic mu oe) (hq : oe.eccentricity ≤ 1 / 4) (u v : ℝ) :
    len (velocityAt mu oe u - velocityAt mu oe v) ≤ 3 * (meanMotion mu oe * oe.semiMajorAxis) * |u - v| := by
  have hdu := den_pos h u
  have hdv := den_pos h v
  have hs := sqrt_e h
  have hn := (meanMotion_sq h).1
  have ha := h.a
  have he0 := h.e0
  have hsub : velocityAt mu oe u - velocityAt mu oe v =
      (-(meanMotion mu oe * oe.semiMajorAxis) * (((Real.sin u - Real.sin v) - oe.eccentricity * Real.sin (u - v)) /
        ((1 - oe.eccentricity * Real.cos u) * (1 - oe.eccentricity * Real.cos v)))) • perigeeDir oe +
      (meanMotion mu oe * oe.semiMajorAxis * (Real.sqrt (1 - oe.eccentricity * oe.eccentricity) * (Real.cos u - Real.cos v) /
        ((1 - oe.eccentricity * Real.cos u) * (1 - oe.eccentricity * Real.cos v)))) • alongDir oe := by
    unfold velocityAt
    rw [Real.sin_sub]
    have h1 := hdu.2.1.ne'
    have h2 := hdv.2.1.ne'
    funext k
    simp only [Pi.sub_apply, Pi.smul_apply, Pi.add_apply, smul_eq_mul]
    field_simp
    ring
  rw [hsub, len_inplane]
  have hD : 9 / 16 ≤ (1 - oe.eccentricity * Real.cos u) * (1 - oe.eccentricity * Real.cos v) := by
    nlinarith [hdu.1, hdv.1]
  generalize (1 - oe.eccentricity * Real.cos u) * (1 - oe.eccentricity * Real.cos v) = D at *
  have hDpos : 0 < D := by linarith
  have hA : |((Real.sin u - Real.sin v) - oe.eccentricity * Real.sin (u - v)) / D| ≤ 20 / 9 * |u - v| := by
    rw [abs_div, abs_of_pos hDpos, div_le_iff₀ hDpos]
    have h1 := abs_sin_sub_le u v
    have h2 := Real.abs_sin_le_abs (x := u - v)
    have h3 := abs_sub (Real.sin u - Real.sin v) (oe.eccentricity * Real.sin (u - v))
    rw [abs_mul, abs_of_nonneg he0] at h3
    have h4 := abs_nonneg (Real.sin (u - v))
    have h5 := abs_nonneg (u - v)
    nlinarith
  have hB : |Real.sqrt (1 - oe.eccentricity * oe.eccentricity) * (Real.cos u - Real.cos v) / D| ≤ 16 / 9 * |u - v| := by
    rw [abs_div, abs_of_pos hDpos, div_le_iff₀ hDpos, abs_mul, abs_of_pos hs.1]
    have h1 := abs_cos_sub_le u v
    have h2 : Real.sqrt (1 - oe.eccentricity * oe.eccentricity) ≤ 1 := by
      rw [Real.sqrt_le_one]; nlinarith
    have h4 := abs_nonneg (Real.cos u - Real.cos v)
    have h5 := abs_nonneg (u - v)
    nlinarith [hs.1]
  generalize ((Real.sin u - Real.sin v) - oe.eccentricity * Real.sin (u - v)) / D = A at *
  generalize Real.sqrt (1 - oe.eccentricity * oe.eccentricity) * (Real.cos u - Real.cos v) / D = B at *
  apply Real.sqrt_le_iff.mpr
  have h5 := abs_nonneg (u - v)
  refine ⟨by positivity, ?_⟩
  generalize |u - v| = d at *
  have hA2 : A ^ 2 ≤ (20 / 9 * d) ^ 2 := by rw [← sq_abs A]; exact pow_le_pow_left₀ (abs_nonneg _) hA 2
  have hB2 : B ^ 2 ≤ (16 / 9 * d) ^ 2 := by rw [← sq_abs B]; exact pow_le_pow_left₀ (abs_nonneg _) hB 2
  have h6 : 0 ≤ (meanMotion mu oe * oe.semiMajorAxis) ^ 2 := sq_nonneg _
  have h7 : A ^ 2 + B ^ 2 ≤ 9 * d ^ 2 := by nlinarith [sq_nonneg d]
  nlinarith [mul_le_mul_of_nonneg_left h7 h6]

theorem anomaly_close {mu : ℝ} {oe : OrbitalElements} (h : Elliptic mu oe) (hq : oe.eccentricity ≤ 1 / 4) (t : ℝ) :
    ∃ u, |u - exactE oe.eccentricity (meanMotion mu oe * secondsSinceEpoch oe t)| ≤ 2 / 100000 ∧
      pointAt oe u = position mu oe t ∧ velocityAt mu oe u = velocity mu oe t := by
  set m := meanMotion mu oe * secondsSinceEpoch oe t with hm
  obtain ⟨w0, w1, ⟨k, hk⟩, -⟩ := C90_wrap m
  have hE := exactE_spec h.e0 h.e1 (wrapTo2Pi m)
  have hsol := (C90_solver oe.eccentricity (wrapTo2Pi m) _ h.e0 hq w0 w1 hE).1
  rw [hk, exactE_add_turns h.e0 h.e1, ← hk] at hsol
  have heq : eccentricAnomaly mu oe t = wrapTo2Pi (solveKeplerNewtonMethod oe.eccentricity (wrapTo2Pi m) (1 / 100000) 10) := by
    rw [eccentricAnomaly, hm, secondsSinceEpoch]
    norm_num
  refine ⟨solveKeplerNewtonMethod oe.eccentricity (wrapTo2Pi m) (1 / 100000) 10 - k * (2 * Real.pi), ?_, ?_, ?_⟩
  · calc _ = |solveKeplerNewtonMethod oe.eccentricity (wrapTo2Pi m) (1 / 100000) 10 - (exactE oe.eccentricity m + k * (2 * Real.pi))| := by
          congr 1; ring
      _ ≤ _ := hsol
  · rw [position_eq, heq]
    simp only [pointAt, cos_wrap, sin_wrap, Real.cos_sub_int_mul_two_pi, Real.sin_sub_int_mul_two_pi]
  · rw [velocity_eq, heq]
    simp only [velocityAt, cos_wrap, sin_wrap, Real.cos_sub_int_mul_two_pi, Real.sin_sub_int_mul_two_pi]

/-- **For eccentricities up to 1/4 `CalcOrbit` follows the two-body motion through the perigee state at the epoch**: at every time, before
or after the epoch and after any number of revolutions, position and velocity are within 2e-5 semi-major axes and 6e-5 mean orbital
velocities of that motion. -/
theorem C91_follows (mu : ℝ) (oe : OrbitalElements) (h : Elliptic mu oe) (hq : oe.eccentricity ≤ 1 / 4) (R V : ℝ → Fin 3 → ℝ)
    (hM : Motion mu R V) (hS : StartsAtPerigee mu oe R V) (t : ℝ) :
    len (position mu oe t - R (secondsSinceEpoch oe t)) ≤ 2 / 100000 * oe.semiMajorAxis ∧
      len (velocity mu oe t - V (secondsSinceEpoch oe t)) ≤ 6 / 100000 * Real.sqrt (mu / oe.semiMajorAxis) := by
  have h3 := exact_starts h
  obtain ⟨rfl, rfl⟩ := hM.unique (exact_motion h) 0 (hS.pos.trans h3.pos.symm) (hS.vel.trans h3.vel.symm)
  obtain ⟨u, hu, hp, hv⟩ := anomaly_close h hq t
  rw [← hp, ← hv, exactR, exactV]
  have ha := h.a
  have hn := meanMotion_sq h
  constructor
  · refine (len_pointAt_sub h _ _).trans ?_
    nlinarith
  · refine (len_velocityAt_sub h hq _ _).trans ?_
    have : meanMotion mu oe * oe.semiMajorAxis = Real.sqrt (mu / oe.semiMajorAxis) := by
      rw [← Real.sqrt_sq (mul_pos hn.1 ha).le]
      congr 1
      rw [eq_div_iff ha.ne']
      linear_combination hn.2
    rw [this]
    have := Real.sqrt_nonneg (mu / oe.semiMajorAxis)
    nlinarith

/-- With eccentricity 1/2 the position is off by more than a two-hundredth of the semi-major axis 0.01 rad of mean anomaly after
perigee. -/
theorem C91_follows_fails (mu : ℝ) (oe : OrbitalElements) (h : Elliptic mu oe) (hq : oe.eccentricity = 1 / 2) (R V : ℝ → Fin 3 → ℝ)
    (hM : Motion mu R V) (hS : StartsAtPerigee mu oe R V) :
    ∃ t, len (position mu oe t - R (secondsSinceEpoch oe t)) > oe.semiMajorAxis / 200 := by
  have h3 := exact_starts h
  obtain ⟨rfl, rfl⟩ := hM.unique (exact_motion h) 0 (hS.pos.trans h3.pos.symm) (hS.vel.trans h3.vel.symm)
  have hn := meanMotion_sq h
  have ha := h.a
  refine ⟨oe.epochJday + 1 / 100 / meanMotion mu oe / 86400, ?_⟩
  set t := oe.epochJday + 1 / 100 / meanMotion mu oe / 86400 with htdef
  have hm : meanMotion mu oe * secondsSinceEpoch oe t = 1 / 100 := by
    rw [secondsSinceEpoch, htdef]
    have := hn.1.ne'
    field_simp
    ring
  have hwrap : wrapTo2Pi (1 / 100) = 1 / 100 := (C90_wrap _).2.2.2 (by norm_num) (by linarith [Real.pi_gt_three])
  have heq : eccentricAnomaly mu oe t = wrapTo2Pi (solveKeplerNewtonMethod (1 / 2) (1 / 100) (1 / 100000) 10) := by
    have h1 : (t - oe.epochJday) * (24 * 60 * 60) = secondsSinceEpoch oe t := by rw [secondsSinceEpoch]; norm_num
    rw [eccentricAnomaly, h1, hm, hq, hwrap]
  have hE := exactE_spec h.e0 h.e1 (1 / 100)
  rw [hq] at hE
  obtain ⟨f1, f2, f3⟩ := C90_solver_fails (1 / 100) _ (by norm_num) le_rfl hE 9
  rw [position_eq, exactR, hm, heq, hq]
  have hEle : exactE (1 / 2) (1 / 100) ≤ 1 := by
    have := Real.sin_le_one (exactE (1 / 2) (1 / 100))
    linarith
  simp only [pointAt, cos_wrap, sin_wrap]
  generalize solveKeplerNewtonMethod (1 / 2) (1 / 100) (1 / 100000) (9 + 1) = u at *
  generalize hEdef : exactE (1 / 2) (1 / 100) = E at *
  have hu := abs_le.mp f1
  have hsinu : Real.sin u ≤ u := (Real.sin_lt (by linarith)).le
  have hsinE : 0.018 ≤ Real.sin E := by
    have h1 : Real.sin (19 / 1000) ≤ Real.sin E :=
      Real.sin_le_sin_of_le_of_le_pi_div_two (by linarith [Real.pi_gt_three]) (by linarith [Real.pi_gt_three]) (by linarith)
    have h2 := Real.sin_gt_sub_cube (x := 19 / 1000) (by norm_num)
    norm_num at h2 ⊢
    linarith
  rw [hq]
  have hsub : ∀ x y x' y' : ℝ, (x • perigeeDir oe + y • alongDir oe) - (x' • perigeeDir oe + y' • alongDir oe) =
      (x - x') • perigeeDir oe + (y - y') • alongDir oe := by
    intro x y x' y'
    funext k
    simp only [Pi.sub_apply, Pi.smul_apply, Pi.add_apply, smul_eq_mul]
    ring
  rw [hsub, len_inplane]
  apply Real.lt_sqrt_of_sq_lt
  have hb : Real.sqrt (1 - 1 / 2 * (1 / 2)) ^ 2 = 3 / 4 := by rw [Real.sq_sqrt (by norm_num)]; norm_num
  generalize Real.sqrt (1 - 1 / 2 * (1 / 2)) = b at *
  have hd : 0.0079 ≤ Real.sin E - Real.sin u := by
    norm_num at hsinE ⊢
    linarith
  have hd2 : (0.0079 : ℝ) ^ 2 ≤ (Real.sin E - Real.sin u) ^ 2 := pow_le_pow_left₀ (by norm_num) hd 2
  have hy : (oe.semiMajorAxis * b * Real.sin u - oe.semiMajorAxis * b * Real.sin E) ^ 2 =
      oe.semiMajorAxis ^ 2 * (3 / 4) * (Real.sin E - Real.sin u) ^ 2 := by rw [← hb]; ring
  rw [hy]
  have ha2 := sq_pos_of_pos ha
  have := sq_nonneg (oe.semiMajorAxis * (Real.cos u - 1 / 2) - oe.semiMajorAxis * (Real.cos E - 1 / 2))
  norm_num at hd2
  nlinarith [mul_le_mul_of_nonneg_left hd2 ha2.le]

/-- Elements meeting the hypotheses: a low orbit (and, with eccentricity 1/2, a highly eccentric one). -/
example : Elliptic 398600441800000 ⟨7000000, 1 / 1000, 1, 2, 3, 2459945⟩ ∧ (1 / 1000 : ℝ) ≤ 1 / 4 ∧
    Elliptic 398600441800000 ⟨24000000, 1 / 2, 1, 2, 3, 2459945⟩ :=
  ⟨⟨by norm_num, by norm_num, by norm_num, by norm_num⟩, by norm_num, ⟨by norm_num, by norm_num, by norm_num, by norm_num⟩⟩

end S2E.Kepler
