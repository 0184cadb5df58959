import Verif.Props.Quaternion2
import Verif.Props.LinAlg
/-!
# C68-C70: Euler angles, normalisation, construction from an axis and from two vectors
-/
namespace S2E
open Quat

/-! ## C68 Euler angles -/

/-- **C68.** The matrix built from 3-2-1 Euler angles is the product of the elementary rotation matrices about Z, Y and X, and it is a
rotation; the quaternion built from the angles represents that matrix and is a unit quaternion. -/
theorem C68_from_euler (e : Vec 3) :
    eulerDcm e = matMul (makeRotationMatrixX (e 0)) (matMul (makeRotationMatrixY (e 1)) (makeRotationMatrixZ (e 2))) ∧
    IsRotation (eulerDcm e) ∧ (fromEuler e).toDcm = eulerDcm e ∧ (fromEuler e).IsUnit := by
  have h0 := Real.sin_sq_add_cos_sq (e 0)
  have h1 := Real.sin_sq_add_cos_sq (e 1)
  have h2 := Real.sin_sq_add_cos_sq (e 2)
  have hrot : IsRotation (eulerDcm e) := by
    rw [isRotation_iff]
    simp only [eulerDcm]
    generalize Real.sin (e 0) = s0 at *; generalize Real.sin (e 1) = s1 at *; generalize Real.sin (e 2) = s2 at *
    generalize Real.cos (e 0) = c0 at *; generalize Real.cos (e 1) = c1 at *; generalize Real.cos (e 2) = c2 at *
    simp
    refine ⟨?_, ?_, ?_, ?_, ?_, ?_, ?_⟩ <;> grind
  refine ⟨?_, hrot, C67_dcm_roundtrip _ hrot⟩
  apply mat3_ext
  simp [eulerDcm, matMul, makeRotationMatrixX, makeRotationMatrixY, makeRotationMatrixZ, Fin.sum_univ_three]
  grind

/-- **C68.** Away from the singularity the Euler angles survive the trip through a quaternion. -/
theorem C68_euler_roundtrip (e : Vec 3) (h0 : -Real.pi < e 0 ∧ e 0 ≤ Real.pi) (h1 : -(Real.pi / 2) < e 1 ∧ e 1 < Real.pi / 2)
    (h2 : -Real.pi < e 2 ∧ e 2 ≤ Real.pi) : (fromEuler e).toEuler = e := by
  have hc : 0 < Real.cos (e 1) := Real.cos_pos_of_mem_Ioo h1
  have s0 := Real.sin_sq_add_cos_sq (e 0)
  unfold toEuler
  rw [(C68_from_euler e).2.2.1]
  have d12 : eulerDcm e 1 2 = Real.cos (e 1) * Real.sin (e 0) := by simp [eulerDcm]; ring
  have d22 : eulerDcm e 2 2 = Real.cos (e 1) * Real.cos (e 0) := by simp [eulerDcm]; ring
  have d02 : eulerDcm e 0 2 = -Real.sin (e 1) := by simp [eulerDcm]
  have d01 : eulerDcm e 0 1 = Real.cos (e 1) * Real.sin (e 2) := by simp [eulerDcm]
  have d00 : eulerDcm e 0 0 = Real.cos (e 1) * Real.cos (e 2) := by simp [eulerDcm]
  have hs : Real.sqrt (eulerDcm e 1 2 * eulerDcm e 1 2 + eulerDcm e 2 2 * eulerDcm e 2 2) = Real.cos (e 1) := by
    rw [d12, d22, show Real.cos (e 1) * Real.sin (e 0) * (Real.cos (e 1) * Real.sin (e 0)) +
      Real.cos (e 1) * Real.cos (e 0) * (Real.cos (e 1) * Real.cos (e 0)) = Real.cos (e 1) ^ 2 by grind, Real.sqrt_sq hc.le]
  have hpi := Real.pi_pos
  simp only [hs]
  rw [d12, d22, d02, d01, d00]
  apply vec3_ext
  · simpa using atan2_of_cos_sin hc h0.1 h0.2
  · simpa using atan2_of_cos_sin (r := 1) (t := e 1) one_pos (by linarith) (by linarith)
  · simpa using atan2_of_cos_sin hc h2.1 h2.2

/-- **C68.** For a unit quaternion whose rotation is not singular (the last column's lower two elements are not both zero), the Euler
angles represent the same rotation, and rebuild the quaternion up to sign. -/
theorem C68_quaternion_roundtrip (q : Quat) (hq : q.IsUnit) (hns : ¬ (q.toDcm 1 2 = 0 ∧ q.toDcm 2 2 = 0)) :
    eulerDcm q.toEuler = q.toDcm ∧ (fromEuler q.toEuler = q ∨ fromEuler q.toEuler = smul (-1) q) := by
  have hmain : eulerDcm q.toEuler = q.toDcm := by
    have hrot := C66_dcm_rotation q hq
    rw [isRotation_iff] at hrot
    unfold toEuler
    generalize q.toDcm = d at *
    simp only
    have a00 : d 0 0 * d 0 0 + d 0 1 * d 0 1 + d 0 2 * d 0 2 = 1 := by
      generalize d 0 0 = m00 at *; generalize d 0 1 = m01 at *; generalize d 0 2 = m02 at *
      generalize d 1 0 = m10 at *; generalize d 1 1 = m11 at *; generalize d 1 2 = m12 at *
      generalize d 2 0 = m20 at *; generalize d 2 1 = m21 at *; generalize d 2 2 = m22 at *
      clear hns
      obtain ⟨k00, k11, k22, k01, k02, k12, det⟩ := hrot
      have c00 : m00 = m11*m22-m12*m21 := by grind
      have c01 : m01 = m12*m20-m10*m22 := by grind
      have c02 : m02 = m10*m21-m11*m20 := by grind
      grind
    have hpos : 0 < d 1 2 * d 1 2 + d 2 2 * d 2 2 := by
      rcases not_and_or.1 hns with h | h
      · have := mul_self_pos.2 h; have := mul_self_nonneg (d 2 2); linarith
      · have := mul_self_pos.2 h; have := mul_self_nonneg (d 1 2); linarith
    obtain ⟨r, hr, hrsq⟩ : ∃ r, 0 < r ∧ r = Real.sqrt (d 1 2 * d 1 2 + d 2 2 * d 2 2) := ⟨_, Real.sqrt_pos.2 hpos, rfl⟩
    have hr2 : r ^ 2 = d 1 2 * d 1 2 + d 2 2 * d 2 2 := by rw [hrsq, Real.sq_sqrt hpos.le]
    rw [← hrsq]
    obtain ⟨x1, x2⟩ := atan2_cos_sin (x := d 2 2) (y := d 1 2) hr (by rw [hr2]; ring)
    obtain ⟨y1, y2⟩ := atan2_cos_sin (x := r) (y := -d 0 2) one_pos (by rw [hr2]; linarith [hrot.2.2.1])
    obtain ⟨z1, z2⟩ := atan2_cos_sin (x := d 0 0) (y := d 0 1) hr (by rw [hr2]; linarith [hrot.2.2.1])
    clear hns hpos hrsq
    apply mat3_ext
    simp only [eulerDcm]
    simp only [Matrix.cons_val_zero, Matrix.cons_val_one, Matrix.cons_val, x1, x2, y1, y2, z1, z2, div_one, Matrix.of_apply]
    generalize d 0 0 = m00 at *; generalize d 0 1 = m01 at *; generalize d 0 2 = m02 at *
    generalize d 1 0 = m10 at *; generalize d 1 1 = m11 at *; generalize d 1 2 = m12 at *
    generalize d 2 0 = m20 at *; generalize d 2 1 = m21 at *; generalize d 2 2 = m22 at *
    clear x1 x2 y1 y2 z1 z2
    obtain ⟨k00, k11, k22, k01, k02, k12, det⟩ := hrot
    have hr0 := hr.ne'
    have c00 : m00 = m11*m22-m12*m21 := by grind
    have c01 : m01 = m12*m20-m10*m22 := by grind
    have b10 : m10 * r ^ 2 = -m22 * m01 - m12 * m02 * m00 := by rw [hr2]; grind
    have b11 : m11 * r ^ 2 = m22 * m00 - m12 * m02 * m01 := by rw [hr2]; grind
    have b20 : m20 * r ^ 2 = m12 * m01 - m22 * m02 * m00 := by rw [hr2]; grind
    have b21 : m21 * r ^ 2 = -m12 * m00 - m22 * m02 * m01 := by rw [hr2]; grind
    clear k00 k11 k22 k01 k02 k12 det c00 c01 hr2 a00
    refine ⟨?_, ?_, ?_, ?_, ?_, ?_, ?_, ?_, ?_⟩
    · field_simp
    · field_simp
    · ring
    · field_simp; linarith
    · field_simp; linarith
    · field_simp
    · field_simp; linarith
    · field_simp; linarith
    · field_simp
  refine ⟨hmain, ?_⟩
  unfold fromEuler
  rw [hmain]
  exact C67_quaternion_roundtrip q hq

/-- **C68 (limit).** At the singularity the conversion loses the rotation: this unit quaternion (90° about Y, then 90° about Z) comes back
as a different rotation. -/
theorem C68_gimbal_lock : ∃ q : Quat, q.IsUnit ∧ eulerDcm q.toEuler ≠ q.toDcm := by
  refine ⟨⟨1/2, 1/2, -1/2, 1/2⟩, by norm_num [Quat.IsUnit], ?_⟩
  intro h
  have h10 := congrFun (congrFun h 1) 0
  have z : atan2 0 0 = 0 := by
    unfold atan2; exact Complex.arg_zero
  have e0 : toEuler ⟨1/2, 1/2, -1/2, 1/2⟩ 0 = 0 := by
    unfold toEuler; simp; norm_num [z]
  have e2 : toEuler ⟨1/2, 1/2, -1/2, 1/2⟩ 2 = 0 := by
    unfold toEuler; simp; norm_num [z]
  simp only [eulerDcm, e0, e2, toDcm_10] at h10
  simp at h10
  norm_num at h10

-- Non-vacuity: yaw 30 degrees, pitch 45 degrees, roll 60 degrees is within the range.
example : (fromEuler ![Real.pi / 3, Real.pi / 4, Real.pi / 6]).toEuler = ![Real.pi / 3, Real.pi / 4, Real.pi / 6] := by
  have := Real.pi_pos
  apply C68_euler_roundtrip <;> simp <;> constructor <;> linarith

/-! ## C69 normalisation -/

/-- **C69.** Normalising any non-zero quaternion gives a unit quaternion that is a positive multiple of it, so it represents the same
rotation; the zero quaternion is left alone; normalising twice changes nothing. -/
theorem C69_normalize (q : Quat) :
    (q ≠ ⟨0, 0, 0, 0⟩ → q.normalize.IsUnit ∧ ∃ s : ℝ, 0 < s ∧ q.normalize = smul s q) ∧
    (q = ⟨0, 0, 0, 0⟩ → q.normalize = q) ∧ q.normalize.normalize = q.normalize ∧ (q.IsUnit → q.normalize = q) := by
  have unit : ∀ p : Quat, p.IsUnit → p.normalize = p := by
    intro p hp
    have hn : p.normSq = 1 := hp
    unfold Quat.normalize; rw [hn]; simp
  have main : q ≠ ⟨0, 0, 0, 0⟩ → q.normalize.IsUnit ∧ ∃ s : ℝ, 0 < s ∧ q.normalize = smul s q := by
    intro hq
    have hne : q.normSq ≠ 0 := by
      intro h
      apply hq
      unfold normSq at h
      ext <;> simp only <;> nlinarith [sq_nonneg q.x, sq_nonneg q.y, sq_nonneg q.z, sq_nonneg q.w]
    have hpos : 0 < q.normSq := lt_of_le_of_ne (by unfold normSq; positivity) (Ne.symm hne)
    have e : q.normalize = smul (1 / Real.sqrt q.normSq) q := by
      unfold Quat.normalize; rw [if_neg hne]; ext <;> simp [smul] <;> ring
    have hs := Real.sqrt_pos.2 hpos
    refine ⟨?_, _, by positivity, e⟩
    rw [e]; unfold Quat.IsUnit smul
    have h2 : Real.sqrt q.normSq ^ 2 = q.normSq := Real.sq_sqrt hpos.le
    simp only [mul_pow, div_pow, h2, one_pow]
    rw [← mul_add, ← mul_add, ← mul_add]
    show 1 / q.normSq * q.normSq = 1
    field_simp
  have hz : q = ⟨0, 0, 0, 0⟩ → q.normalize = q := by
    rintro rfl; unfold Quat.normalize; rw [if_pos (by simp [normSq])]
  refine ⟨main, hz, ?_, unit q⟩
  by_cases h : q = ⟨0, 0, 0, 0⟩
  · rw [hz h, hz h]
  · exact unit _ (main h).1

/-- **C69.** The quaternion made from a unit axis and any angle is a unit quaternion; it keeps the axis fixed and turns every vector by
Rodrigues' formula (the inverse conversion turns by `+angle`, the frame conversion by `-angle`). -/
theorem C69_axis_angle (n v : Vec 3) (angle : ℝ) (hn : dot3 n n = 1) :
    (ofAxisAngle n angle).IsUnit ∧ (ofAxisAngle n angle).frameConversion n = n ∧
    (ofAxisAngle n angle).inverseFrameConversion v =
      vadd (vadd (scale (Real.cos angle) v) (scale (Real.sin angle) (outerProduct n v))) (scale ((1 - Real.cos angle) * dot3 n v) n) ∧
    (ofAxisAngle n angle).frameConversion v =
      vadd (vadd (scale (Real.cos angle) v) (scale (-Real.sin angle) (outerProduct n v))) (scale ((1 - Real.cos angle) * dot3 n v) n) := by
  have h1 := Real.sin_sq_add_cos_sq (angle * (1 / 2))
  have hc : Real.cos angle = Real.cos (angle * (1 / 2)) ^ 2 - Real.sin (angle * (1 / 2)) ^ 2 := by
    rw [← Real.cos_two_mul', ← mul_assoc, mul_comm 2, mul_assoc]; norm_num
  have hs : Real.sin angle = 2 * Real.sin (angle * (1 / 2)) * Real.cos (angle * (1 / 2)) := by
    rw [← Real.sin_two_mul, ← mul_assoc, mul_comm 2, mul_assoc]; norm_num
  rw [frame_explicit, inverse_explicit, frame_explicit, hc, hs]
  unfold ofAxisAngle
  generalize Real.sin (angle * (1 / 2)) = s at *
  generalize Real.cos (angle * (1 / 2)) = c at *
  clear hc hs
  unfold dot3 at *
  refine ⟨?_, ?_, ?_, ?_⟩
  · unfold Quat.IsUnit; simp only; grind
  · apply vec3_ext <;> simp <;> grind
  · apply vec3_ext <;> simp [vadd, scale, outerProduct] <;> grind
  · apply vec3_ext <;> simp [vadd, scale, outerProduct] <;> grind

example : dot3 ![0, 3/5, 4/5] ![0, 3/5, 4/5] = 1 := by simp [dot3]; norm_num

/-! ## C70 construction from two vectors -/

/-- **C70.** For any two vectors longer than the threshold the constructor never aborts; the result is a unit quaternion whose inverse
conversion turns the direction of the first vector into the direction of the second, exactly unless the directions are within the
threshold of parallel or opposite, and up to `sqrt(2 eps)` then. -/
theorem C70_two_vectors (eps : ℝ) (heps : 0 < eps) (a b : Vec 3) (ha : calcNorm a > eps) (hb : calcNorm b > eps) :
    ∃ q, ofTwoVectors eps a b = .ok q ∧ q.IsUnit ∧
      (let na := scale (1 / calcNorm a) a
       let nb := scale (1 / calcNorm b) b
       let d := vsub (q.inverseFrameConversion na) nb
       dot3 d d < 2 * eps ∧ (dot3 na nb ≤ 1 - eps → -1 + eps ≤ dot3 na nb → q.inverseFrameConversion na = nb)) := by
  have hna : calcNorm (scale (1 / calcNorm a) a) = 1 := by
    rw [calcNorm_scale, abs_of_pos (by have := heps.trans ha; positivity)]
    have := (heps.trans ha).ne'; field_simp
  have hnb : calcNorm (scale (1 / calcNorm b) b) = 1 := by
    rw [calcNorm_scale, abs_of_pos (by have := heps.trans hb; positivity)]
    have := (heps.trans hb).ne'; field_simp
  have hip : ∀ u v : Vec 3, innerProduct u v = dot3 u v := by intro u v; unfold innerProduct dot3; rw [Fin.sum_univ_three]
  have a0 : a ≠ 0 := by rintro rfl; rw [(calcNorm_eq_zero _).2 rfl] at ha; linarith
  unfold ofTwoVectors
  rw [if_neg (not_not.2 ha), if_neg (not_not.2 hb)]
  simp only
  obtain ⟨o1, o2⟩ := C71_orthogonal_unit a a0
  have o2' : dot3 (scale (1 / calcNorm a) a) (generateOrthogonalUnitVector a) = 0 := by
    have : dot3 (scale (1 / calcNorm a) a) (generateOrthogonalUnitVector a) = 1 / calcNorm a * dot3 a (generateOrthogonalUnitVector a) := by
      unfold dot3 scale; ring
    rw [this, o2, mul_zero]
  have o1' : dot3 (generateOrthogonalUnitVector a) (generateOrthogonalUnitVector a) = 1 := by
    rw [← hip, ← calcNorm_sq, o1]; norm_num
  generalize generateOrthogonalUnitVector a = g at o1' o2' ⊢
  generalize scale (1 / calcNorm a) a = u at *
  generalize scale (1 / calcNorm b) b = v at *
  have hu : dot3 u u = 1 := by rw [← hip, ← calcNorm_sq, hna]; norm_num
  have hv : dot3 v v = 1 := by rw [← hip, ← calcNorm_sq, hnb]; norm_num
  clear hna hnb
  rw [hip]
  by_cases c1 : dot3 u v > 1 - eps
  · rw [if_pos c1]
    have e : Quat.inverseFrameConversion ⟨0, 0, 0, 1⟩ u = u := by rw [inverse_explicit]; apply vec3_ext <;> simp
    refine ⟨_, rfl, by norm_num [Quat.IsUnit], ?_, fun h => absurd c1 (not_lt.2 h)⟩
    rw [e]; unfold dot3 vsub at *; nlinarith
  · rw [if_neg c1]
    by_cases c2 : dot3 u v < -1 + eps
    · rw [if_pos c2]
      refine ⟨_, rfl, ?_, ?_, fun _ h => absurd c2 (not_lt.2 h)⟩
      · unfold Quat.IsUnit; unfold dot3 at o1'; simp only; linarith
      · have e : Quat.inverseFrameConversion ⟨g 0, g 1, g 2, 0⟩ u = scale (-1) u := by
          rw [inverse_explicit]; unfold dot3 at o1' o2'
          apply vec3_ext <;> simp [scale] <;> grind
        rw [e]; unfold dot3 vsub scale at *; nlinarith
    · rw [if_neg c2]
      have c1 := not_lt.1 c1
      have c2 := not_lt.1 c2
      have hN2 : calcNorm (outerProduct u v) ^ 2 = 1 - dot3 u v ^ 2 := by
        rw [(C71_outer_product u v u).2.2.2.2, calcNorm_sq, calcNorm_sq, hip, hip, hu, hv]; ring
      have hN2' : calcNorm (outerProduct u v) ^ 2 = dot3 (outerProduct u v) (outerProduct u v) := by rw [calcNorm_sq, hip]
      have hN : 0 < calcNorm (outerProduct u v) := by
        have : 0 < calcNorm (outerProduct u v) ^ 2 := by rw [hN2]; nlinarith
        exact lt_of_le_of_ne (calcNorm_nonneg _) (fun h => by rw [← h] at this; norm_num at this)
      rw [if_neg (not_not.2 hN)]
      generalize calcNorm (outerProduct u v) = N at *
      have hsq : Real.sin (Real.arccos (dot3 u v)) = N := by
        rw [Real.sin_arccos, ← hN2, Real.sqrt_sq hN.le]
      have hcq : Real.cos (Real.arccos (dot3 u v)) = dot3 u v := Real.cos_arccos (by linarith) (by linarith)
      have k1 := Real.sin_sq_add_cos_sq (1 / 2 * Real.arccos (dot3 u v))
      have k2 : dot3 u v = Real.cos (1 / 2 * Real.arccos (dot3 u v)) ^ 2 - Real.sin (1 / 2 * Real.arccos (dot3 u v)) ^ 2 := by
        rw [← Real.cos_two_mul', ← mul_assoc]; norm_num [hcq]
      have k3 : N = 2 * Real.sin (1 / 2 * Real.arccos (dot3 u v)) * Real.cos (1 / 2 * Real.arccos (dot3 u v)) := by
        rw [← Real.sin_two_mul, ← mul_assoc]; norm_num [hsq]
      generalize Real.sin (1 / 2 * Real.arccos (dot3 u v)) = s at *
      generalize Real.cos (1 / 2 * Real.arccos (dot3 u v)) = c at *
      obtain ⟨k, hk⟩ : ∃ k, k = s / N := ⟨_, rfl⟩
      have hs : s = k * N := by rw [hk]; field_simp
      have hkc : 2 * c * k = 1 := by
        have : N * (2 * c * k) = N * 1 := by rw [hs] at k3; linarith
        exact mul_left_cancel₀ hN.ne' this
      have eq : (⟨scale (1 / N) (outerProduct u v) 0 * s, scale (1 / N) (outerProduct u v) 1 * s, scale (1 / N) (outerProduct u v) 2 * s, c⟩ : Quat)
          = ⟨k * outerProduct u v 0, k * outerProduct u v 1, k * outerProduct u v 2, c⟩ := by
        rw [hk]; ext <;> simp [scale] <;> ring
      rw [eq]
      have hfin : Quat.inverseFrameConversion ⟨k * outerProduct u v 0, k * outerProduct u v 1, k * outerProduct u v 2, c⟩ u = v := by
        have k1' : k ^ 2 * N ^ 2 + c ^ 2 = 1 := by rw [hs] at k1; linarith
        have k2' : dot3 u v = c ^ 2 - k ^ 2 * N ^ 2 := by rw [hs] at k2; linarith
        rw [hN2'] at k1' k2'
        clear hcq hsq k1 k2 k3 hs hk hN2 hN2' hip o1' o2' eq c1 c2 ha hb
        rw [inverse_explicit]
        simp only [dot3, outerProduct, Matrix.cons_val_zero, Matrix.cons_val_one, Matrix.cons_val] at *
        apply vec3_ext <;> simp only [Matrix.cons_val_zero, Matrix.cons_val_one, Matrix.cons_val] <;> grind
      refine ⟨_, rfl, ?_, ?_, fun _ _ => hfin⟩
      · unfold Quat.IsUnit; simp only
        rw [hs] at k1
        unfold dot3 at hN2'
        have : k ^ 2 * N ^ 2 = k ^ 2 * (outerProduct u v 0 * outerProduct u v 0 + outerProduct u v 1 * outerProduct u v 1 + outerProduct u v 2 * outerProduct u v 2) := by
          rw [hN2']
        linarith
      · rw [hfin]; unfold dot3 vsub; simp; linarith

/-- **C70.** A vector no longer than the threshold aborts the program. -/
theorem C70_short_vector_aborts (eps : ℝ) (a b : Vec 3) (h : calcNorm a ≤ eps ∨ calcNorm b ≤ eps) : ofTwoVectors eps a b = .throws := by
  unfold ofTwoVectors
  by_cases ha : calcNorm a > eps
  · rw [if_neg (not_not.2 ha), if_pos (by rcases h with h | h <;> linarith)]
  · rw [if_pos ha]

-- Non-vacuity: perpendicular vectors of lengths 2 and 5.
example : calcNorm (![2, 0, 0] : Vec 3) > 1 / 1000 ∧ calcNorm (![0, 3, 4] : Vec 3) > 1 / 1000 := by
  constructor
  · unfold calcNorm; rw [Fin.sum_univ_three]; simp; norm_num
  · unfold calcNorm; rw [Fin.sum_univ_three]; simp
    rw [show (3 : ℝ) ^ 2 + 4 ^ 2 = 5 ^ 2 by norm_num, Real.sqrt_sq (by norm_num)]; norm_num

end S2E
