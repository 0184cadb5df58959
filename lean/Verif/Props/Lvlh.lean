import Verif.Model.OrbitProp
import Verif.Props.Quaternion2
import Verif.Props.Quaternion3
import Verif.Props.OrbitalElements
/-!
# C95: local vertical local horizontal frame and Earth-fixed state of an orbit
-/
namespace S2E.OrbitProp
open S2E.TwoBody S2E.Kepler Quat

/-- Lagrange's identity. -/
theorem len_cross_sq (a b : Fin 3 → ℝ) : len (cross a b) ^ 2 + dot a b ^ 2 = len a ^ 2 * len b ^ 2 := by
  rw [len_sq, len_sq, len_sq]
  simp [dot, cross]
  ring

theorem normalized_of_pos {a : Fin 3 → ℝ} (h : 0 < len a) : calcNormalizedVector a = fun i => a i / len a := by
  have e : calcNorm a ≠ 0 := by rw [calcNorm_len]; exact h.ne'
  rw [calcNormalizedVector, if_neg e, calcNorm_len]
  funext i
  simp only [vdiv, scale]
  ring

theorem dcmI2Lvlh_eq (p v : Fin 3 → ℝ) (hne : cross p v ≠ 0) :
    let r := len p
    let h := len (cross p v)
    0 < r ∧ 0 < h ∧ dcmI2Lvlh p v = !![p 0 / r, p 1 / r, p 2 / r;
      cross (cross p v) p 0 / (h * r), cross (cross p v) p 1 / (h * r), cross (cross p v) p 2 / (h * r);
      cross p v 0 / h, cross p v 1 / h, cross p v 2 / h] := by
  intro r h
  have hp : p ≠ 0 := by
    rintro rfl
    apply hne
    funext i; fin_cases i <;> simp [cross]
  have hr := len_pos hp
  have hh := len_pos hne
  have hy : len (cross (cross p v) p) = h * r := by
    have h1 := len_cross_sq (cross p v) p
    have h2 : dot (cross p v) p = 0 := by simp [dot, cross]; ring
    rw [h2] at h1
    have h3 : len (cross (cross p v) p) ^ 2 = (h * r) ^ 2 := by rw [mul_pow]; linarith
    exact (pow_left_inj₀ (len_nonneg _) (by positivity) (by norm_num)).mp h3
  refine ⟨hr, hh, ?_⟩
  simp only [dcmI2Lvlh, outerProduct_cross, normalized_of_pos hr, normalized_of_pos hh, normalized_of_pos (a := cross (cross p v) p) (by rw [hy]; positivity), hy]
  apply mat3_ext
  refine ⟨?_, ?_, ?_, ?_, ?_, ?_, ?_, ?_, ?_⟩ <;> rfl

theorem dcmI2Lvlh_rotation (p v : Fin 3 → ℝ) (hne : cross p v ≠ 0) : IsRotation (dcmI2Lvlh p v) := by
  obtain ⟨hr, hh, e⟩ := dcmI2Lvlh_eq p v hne
  rw [e, isRotation_iff]
  have h1 := len_sq p
  have h2 := len_sq (cross p v)
  generalize len p = r at *
  generalize len (cross p v) = h at *
  have hr' := hr.ne'
  have hh' := hh.ne'
  simp [dot, cross] at h1 h2 ⊢
  refine ⟨?_, ?_, ?_, ?_, ?_, ?_, ?_⟩ <;> field_simp <;> grind

theorem i2Lvlh_spec (p v : Fin 3 → ℝ) (hne : cross p v ≠ 0) :
    (calcQuaternionI2Lvlh p v).IsUnit ∧ (calcQuaternionI2Lvlh p v).toDcm = dcmI2Lvlh p v := by
  obtain ⟨h1, h2⟩ := C67_dcm_roundtrip _ (dcmI2Lvlh_rotation p v hne)
  rw [calcQuaternionI2Lvlh, (C69_normalize _).2.2.2 h2]
  exact ⟨h2, h1⟩

/-- **C95 (LVLH frame).** For every position and velocity that are not parallel the quaternion is a unit quaternion and turns the position
into (distance, 0, 0), the velocity into (radial speed, tangential speed > 0, 0) and the angular momentum into (0, 0, its length). These
properties determine the quaternion's action on all vectors (they are linear and the three vectors span the space). -/
theorem C95_lvlh (p v : Fin 3 → ℝ) (hne : cross p v ≠ 0) :
    (calcQuaternionI2Lvlh p v).IsUnit ∧ (calcQuaternionI2Lvlh p v).frameConversion p = ![len p, 0, 0] ∧
    (calcQuaternionI2Lvlh p v).frameConversion v = ![dot p v / len p, len (cross p v) / len p, 0] ∧
    (calcQuaternionI2Lvlh p v).frameConversion (cross p v) = ![0, 0, len (cross p v)] ∧ 0 < len (cross p v) / len p := by
  obtain ⟨h1, h2⟩ := i2Lvlh_spec p v hne
  have act : ∀ a, (calcQuaternionI2Lvlh p v).frameConversion a = matVec (dcmI2Lvlh p v) a := fun a => by
    rw [← (C66_dcm_acts _ a).1, h2]
  obtain ⟨hr, hh, e⟩ := dcmI2Lvlh_eq p v hne
  refine ⟨h1, ?_, ?_, ?_, by positivity⟩
  all_goals
    rw [act, e]
    have g1 := len_sq p
    have g2 := len_sq (cross p v)
    clear act e h1 h2
    generalize len p = r at *
    generalize len (cross p v) = h at *
    have hr' := hr.ne'
    have hh' := hh.ne'
    simp [dot, cross] at g1 g2
    funext i
    fin_cases i <;> simp [matVec, Fin.sum_univ_three, cross, dot] <;> field_simp <;> grind

/-- **C95 (no frame).** If position and velocity are parallel (vertical motion, or no motion), no
frame with the three axes above exists; for motion along x the result is a half turn about x, whatever the speed. -/
theorem C95_lvlh_degenerate (r w : ℝ) (hr : 0 < r) :
    calcQuaternionI2Lvlh ![r, 0, 0] ![w, 0, 0] = (⟨1, 0, 0, 0⟩ : Quat) := by
  have hl : len ![r, 0, 0] = r := by simp [len, Real.sqrt_sq hr.le]
  have h0 : cross ![r, 0, 0] ![w, 0, 0] = 0 := by funext i; fin_cases i <;> simp [cross]
  have h0' : cross 0 ![r, 0, 0] = 0 := by funext i; fin_cases i <;> simp [cross]
  have hz : calcNormalizedVector (0 : Vec 3) = 0 := by
    rw [calcNormalizedVector, if_pos (by rw [calcNorm_len]; simp [len])]
  have hm : dcmI2Lvlh ![r, 0, 0] ![w, 0, 0] = !![1, 0, 0; 0, 0, 0; 0, 0, 0] := by
    simp only [dcmI2Lvlh, outerProduct_cross, h0, h0', hz, normalized_of_pos (a := ![r, 0, 0]) (by rw [hl]; exact hr), hl]
    apply mat3_ext
    refine ⟨?_, ?_, ?_, ?_, ?_, ?_, ?_, ?_, ?_⟩ <;> simp [hr.ne']
  have h2 : (0 : ℝ) < Real.sqrt 2 / 2 := by positivity
  have hq : fromDcm !![1, 0, 0; 0, 0, 0; 0, 0, (0 : ℝ)] = ⟨Real.sqrt 2 / 2, 0, 0, 0⟩ := by
    have hmax : maxIndex (Real.sqrt 2 / 2) 0 0 (Real.sqrt 2 / 2) = 0 := by
      simp [maxIndex, not_lt.mpr (abs_nonneg (Real.sqrt 2 / 2))]
    have e : (1 : ℝ) + 1 = 2 := by norm_num
    simp [fromDcm, e, hmax]
  have hs : Real.sqrt 2 / 2 * (Real.sqrt 2 / 2) = 1 / 2 := by
    have := Real.mul_self_sqrt (show (0 : ℝ) ≤ 2 by norm_num)
    linarith
  rw [calcQuaternionI2Lvlh, hm, hq, Quat.normalize]
  have hn : Quat.normSq ⟨Real.sqrt 2 / 2, 0, 0, 0⟩ = 1 / 2 := by simp only [normSq]; linarith
  rw [hn, if_neg (by norm_num)]
  have : Real.sqrt 2 / 2 * (1 / Real.sqrt (1 / 2)) = 1 := by
    rw [show (1 / 2 : ℝ) = Real.sqrt 2 / 2 * (Real.sqrt 2 / 2) from hs.symm, Real.sqrt_mul_self h2.le]
    field_simp
  ext <;> simp only [this, zero_mul]

/-! ## Earth-fixed position and velocity -/

/-- **C95 (Earth-fixed velocity).** If the Earth rotation matrix is a rotation about the inertial z axis by an angle with rate `w`, the
reported Earth-fixed velocity differs from the derivative of the reported Earth-fixed position by exactly the rate error
`(earth rate - w)` times the matrix applied to `z × r`; in particular it is the derivative if `w` is the Earth's mean rate. -/
theorem C95_ecef_velocity (p v : ℝ → Fin 3 → ℝ) (θ : ℝ → ℝ) (w t : ℝ) (hp : HasDerivAt p (v t) t) (hθ : HasDerivAt θ w t) :
    HasDerivAt (fun s => ecefPosition (makeRotationMatrixZ (θ s)) (p s))
      (ecefVelocity (makeRotationMatrixZ (θ t)) (p t) (v t) +
        (earthRate - w) • matVec (makeRotationMatrixZ (θ t)) (cross ![0, 0, 1] (p t))) t := by
  have h := hasDerivAt_pi.mp hp
  have hs := hθ.sin
  have hc := hθ.cos
  rw [hasDerivAt_pi]
  intro i
  fin_cases i
  · have := (hc.mul (h 0)).add (hs.mul (h 1))
    convert this using 1
    · funext s; simp [ecefPosition, matVec, Fin.sum_univ_three, makeRotationMatrixZ]
    · simp [ecefVelocity, matVec, Fin.sum_univ_three, makeRotationMatrixZ, vsub, outerProduct, cross]; ring
  · have := ((hs.neg).mul (h 0)).add (hc.mul (h 1))
    convert this using 1
    · funext s; simp [ecefPosition, matVec, Fin.sum_univ_three, makeRotationMatrixZ]
    · simp [ecefVelocity, matVec, Fin.sum_univ_three, makeRotationMatrixZ, vsub, outerProduct, cross]; ring
  · have := h 2
    convert this using 1
    · funext s; simp [ecefPosition, matVec, Fin.sum_univ_three, makeRotationMatrixZ]
    · simp [ecefVelocity, matVec, Fin.sum_univ_three, makeRotationMatrixZ, vsub, outerProduct, cross]

/-- **C95 (geostationary).** A satellite turning with the Earth about the z axis has Earth-fixed velocity zero. -/
theorem C95_geostationary (dcm : Mat 3 3) (p : Fin 3 → ℝ) : ecefVelocity dcm p (cross ![0, 0, earthRate] p) = 0 := by
  funext i
  simp [ecefVelocity, outerProduct_cross, matVec, vsub]

/-- Non-vacuity of `C95_lvlh`: an inclined elliptic state. -/
example : cross ![7, 0, 0] ![1, 2, 3] ≠ (0 : Fin 3 → ℝ) := by
  intro h
  have := congrFun h 2
  simp [cross] at this

end S2E.OrbitProp
