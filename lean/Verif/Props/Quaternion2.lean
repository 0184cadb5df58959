import Verif.Props.Quaternion
/-!
# C67-C70: quaternion round trips, Euler angles, normalisation, two-vector construction
-/
namespace S2E
open Quat

/-! ## C67 round trips -/

/-- The four candidates' selection: the chosen index has the largest absolute value. -/
theorem maxIndex_spec (a b c d : ℝ) (ha : 0 ≤ a) (hb : 0 ≤ b) (hc : 0 ≤ c) (hd : 0 ≤ d) :
    (maxIndex a b c d = 0 → b ≤ a ∧ c ≤ a ∧ d ≤ a) ∧ (maxIndex a b c d = 1 → a ≤ b ∧ c ≤ b ∧ d ≤ b) ∧
    (maxIndex a b c d = 2 → a ≤ c ∧ b ≤ c ∧ d ≤ c) ∧ (maxIndex a b c d = 3 → a ≤ d ∧ b ≤ d ∧ c ≤ d) := by
  unfold maxIndex
  simp only [abs_of_nonneg ha, abs_of_nonneg hb, abs_of_nonneg hc, abs_of_nonneg hd]
  split_ifs <;> simp_all <;> grind

/-- `4 q_i q_j` as a function of the matrix of a rotation satisfies the rank-one relations. -/
theorem rotation_entries {m : Mat 3 3} (h : IsRotation m) :
    let a0 := 1 + m 0 0 - m 1 1 - m 2 2
    let a1 := 1 - m 0 0 + m 1 1 - m 2 2
    let a2 := 1 - m 0 0 - m 1 1 + m 2 2
    let a3 := 1 + m 0 0 + m 1 1 + m 2 2
    let s01 := m 0 1 + m 1 0
    let s02 := m 0 2 + m 2 0
    let s12 := m 1 2 + m 2 1
    let d0 := m 1 2 - m 2 1
    let d1 := m 2 0 - m 0 2
    let d2 := m 0 1 - m 1 0
    (a0 * a1 = s01 * s01 ∧ a0 * a2 = s02 * s02 ∧ a0 * a3 = d0 * d0 ∧ a1 * a2 = s12 * s12 ∧ a1 * a3 = d1 * d1 ∧ a2 * a3 = d2 * d2) ∧
    (a0 * s12 = s01 * s02 ∧ a0 * d1 = s01 * d0 ∧ a0 * d2 = s02 * d0) ∧
    (a1 * s02 = s01 * s12 ∧ a1 * d0 = s01 * d1 ∧ a1 * d2 = s12 * d1) ∧
    (a2 * s01 = s02 * s12 ∧ a2 * d0 = s02 * d2 ∧ a2 * d1 = s12 * d2) ∧
    (a3 * s01 = d0 * d1 ∧ a3 * s02 = d0 * d2 ∧ a3 * s12 = d1 * d2) := by
  rw [isRotation_iff] at h
  generalize m 0 0 = m00 at *; generalize m 0 1 = m01 at *; generalize m 0 2 = m02 at *
  generalize m 1 0 = m10 at *; generalize m 1 1 = m11 at *; generalize m 1 2 = m12 at *
  generalize m 2 0 = m20 at *; generalize m 2 1 = m21 at *; generalize m 2 2 = m22 at *
  obtain ⟨k00, k11, k22, k01, k02, k12, det⟩ := h
  have c00 : m00 = m11*m22-m12*m21 := by grind
  have c01 : m01 = m12*m20-m10*m22 := by grind
  have c02 : m02 = m10*m21-m11*m20 := by grind
  have c10 : m10 = m02*m21-m01*m22 := by grind
  have c11 : m11 = m00*m22-m02*m20 := by grind
  have c12 : m12 = m01*m20-m00*m21 := by grind
  have c20 : m20 = m01*m12-m02*m11 := by grind
  have c21 : m21 = m02*m10-m00*m12 := by grind
  have c22 : m22 = m00*m11-m01*m10 := by grind
  have r00 : m00*m00+m01*m01+m02*m02=1 := by grind
  have r11 : m10*m10+m11*m11+m12*m12=1 := by grind
  have r22 : m20*m20+m21*m21+m22*m22=1 := by grind
  have r01 : m00*m10+m01*m11+m02*m12=0 := by grind
  have r02 : m00*m20+m01*m21+m02*m22=0 := by grind
  have r12 : m10*m20+m11*m21+m12*m22=0 := by grind
  clear det
  refine ⟨⟨?_, ?_, ?_, ?_, ?_, ?_⟩, ⟨?_, ?_, ?_⟩, ⟨?_, ?_, ?_⟩, ⟨?_, ?_, ?_⟩, ⟨?_, ?_, ?_⟩⟩ <;> grind

theorem sqrt_sq_half {a : ℝ} (h : 0 ≤ a) : (Real.sqrt a / 2) * (Real.sqrt a / 2) = a / 4 := by
  have := Real.mul_self_sqrt h
  linear_combination this / 4

theorem fd_core {q a s t u : ℝ} (hq : q ≠ 0) (hs : q * q = a / 4) (h : a * u = s * t) : 4 * (s / (4 * q) * (t / (4 * q))) = u := by
  have ha : a = 4 * (q * q) := by linarith
  have : s * t = 4 * (q * q) * u := by rw [← h, ha]
  field_simp
  rw [this]; ring

theorem fd_self {q : ℝ} (hq : q ≠ 0) (s : ℝ) : 4 * (q * (s / (4 * q))) = s := by field_simp

theorem fd_self' {q : ℝ} (hq : q ≠ 0) (s : ℝ) : 4 * (s / (4 * q) * q) = s := by field_simp

theorem fd_conv (m : Mat 3 3) : ∀ q : Quat, 4 * (q.x * q.x) = 1 + m 0 0 - m 1 1 - m 2 2 → 4 * (q.y * q.y) = 1 - m 0 0 + m 1 1 - m 2 2 →
      4 * (q.z * q.z) = 1 - m 0 0 - m 1 1 + m 2 2 → 4 * (q.w * q.w) = 1 + m 0 0 + m 1 1 + m 2 2 →
      4 * (q.x * q.y) = m 0 1 + m 1 0 → 4 * (q.x * q.z) = m 0 2 + m 2 0 → 4 * (q.y * q.z) = m 1 2 + m 2 1 →
      4 * (q.w * q.x) = m 1 2 - m 2 1 → 4 * (q.w * q.y) = m 2 0 - m 0 2 → 4 * (q.w * q.z) = m 0 1 - m 1 0 →
      q.toDcm = m ∧ q.IsUnit := by
    intro q a1 a2 a3 a4 a5 a6 a7 a8 a9 a10
    constructor
    · apply mat3_ext
      refine ⟨?_, ?_, ?_, ?_, ?_, ?_, ?_, ?_, ?_⟩ <;> simp <;> linarith
    · unfold Quat.IsUnit; simp only [sq]; linarith

/-- **C67.** Reading a quaternion off any rotation matrix and converting it back gives the same matrix, and the quaternion is unit. -/
theorem C67_dcm_roundtrip (m : Mat 3 3) (h : IsRotation m) : (fromDcm m).toDcm = m ∧ (fromDcm m).IsUnit := by
  obtain ⟨⟨e01, e02, e03, e12, e13, e23⟩, ⟨f01, f02, f03⟩, ⟨g01, g02, g03⟩, ⟨h01, h02, h03⟩, ⟨k01, k02, k03⟩⟩ := rotation_entries h
  -- each `a_i` is non-negative because all products `a_i a_j` are and they sum to 4
  have nn : ∀ a b c d : ℝ, a + b + c + d = 4 → 0 ≤ a * b → 0 ≤ a * c → 0 ≤ a * d → 0 ≤ a := by
    intro a b c d hs h1 h2 h3
    by_contra hneg
    have hneg := not_le.1 hneg
    nlinarith [mul_pos_of_neg_of_neg hneg hneg]
  have p0 : 0 ≤ 1 + m 0 0 - m 1 1 - m 2 2 :=
    nn _ (1 - m 0 0 + m 1 1 - m 2 2) (1 - m 0 0 - m 1 1 + m 2 2) (1 + m 0 0 + m 1 1 + m 2 2) (by ring) (by rw [e01]; exact mul_self_nonneg _) (by rw [e02]; exact mul_self_nonneg _) (by rw [e03]; exact mul_self_nonneg _)
  have p1 : 0 ≤ 1 - m 0 0 + m 1 1 - m 2 2 :=
    nn _ (1 + m 0 0 - m 1 1 - m 2 2) (1 - m 0 0 - m 1 1 + m 2 2) (1 + m 0 0 + m 1 1 + m 2 2) (by ring)
      (by rw [mul_comm, e01]; exact mul_self_nonneg _) (by rw [e12]; exact mul_self_nonneg _) (by rw [e13]; exact mul_self_nonneg _)
  have p2 : 0 ≤ 1 - m 0 0 - m 1 1 + m 2 2 :=
    nn _ (1 + m 0 0 - m 1 1 - m 2 2) (1 - m 0 0 + m 1 1 - m 2 2) (1 + m 0 0 + m 1 1 + m 2 2) (by ring)
      (by rw [mul_comm, e02]; exact mul_self_nonneg _) (by rw [mul_comm, e12]; exact mul_self_nonneg _)
      (by rw [e23]; exact mul_self_nonneg _)
  have p3 : 0 ≤ 1 + m 0 0 + m 1 1 + m 2 2 :=
    nn _ (1 + m 0 0 - m 1 1 - m 2 2) (1 - m 0 0 + m 1 1 - m 2 2) (1 - m 0 0 - m 1 1 + m 2 2) (by ring)
      (by rw [mul_comm, e03]; exact mul_self_nonneg _) (by rw [mul_comm, e13]; exact mul_self_nonneg _)
      (by rw [mul_comm, e23]; exact mul_self_nonneg _)
  have s0 := sqrt_sq_half p0
  have s1 := sqrt_sq_half p1
  have s2 := sqrt_sq_half p2
  have s3 := sqrt_sq_half p3
  have n0 : 0 ≤ Real.sqrt (1 + m 0 0 - m 1 1 - m 2 2) / 2 := by positivity
  have n1 : 0 ≤ Real.sqrt (1 - m 0 0 + m 1 1 - m 2 2) / 2 := by positivity
  have n2 : 0 ≤ Real.sqrt (1 - m 0 0 - m 1 1 + m 2 2) / 2 := by positivity
  have n3 : 0 ≤ Real.sqrt (1 + m 0 0 + m 1 1 + m 2 2) / 2 := by positivity
  have hmax := maxIndex_spec _ _ _ _ n0 n1 n2 n3
  have conv := fd_conv m
  have sum4 : (Real.sqrt (1 + m 0 0 - m 1 1 - m 2 2) / 2) * (Real.sqrt (1 + m 0 0 - m 1 1 - m 2 2) / 2) +
      (Real.sqrt (1 - m 0 0 + m 1 1 - m 2 2) / 2) * (Real.sqrt (1 - m 0 0 + m 1 1 - m 2 2) / 2) +
      (Real.sqrt (1 - m 0 0 - m 1 1 + m 2 2) / 2) * (Real.sqrt (1 - m 0 0 - m 1 1 + m 2 2) / 2) +
      (Real.sqrt (1 + m 0 0 + m 1 1 + m 2 2) / 2) * (Real.sqrt (1 + m 0 0 + m 1 1 + m 2 2) / 2) = 1 := by
    rw [s0, s1, s2, s3]; ring
  have hne : ∀ a b c d : ℝ, 0 ≤ b → 0 ≤ c → 0 ≤ d → b ≤ a → c ≤ a → d ≤ a → a * a + b * b + c * c + d * d = 1 → a ≠ 0 := by
    intro a b c d hb hc hd h1 h2 h3 hs ha
    have : b = 0 := by linarith
    have : c = 0 := by linarith
    have : d = 0 := by linarith
    subst_vars; norm_num at hs
  unfold fromDcm
  dsimp only
  set q0 := Real.sqrt (1 + m 0 0 - m 1 1 - m 2 2) / 2
  set q1 := Real.sqrt (1 - m 0 0 + m 1 1 - m 2 2) / 2
  set q2 := Real.sqrt (1 - m 0 0 - m 1 1 + m 2 2) / 2
  set q3 := Real.sqrt (1 + m 0 0 + m 1 1 + m 2 2) / 2
  clear_value q0 q1 q2 q3
  rcases hi : maxIndex q0 q1 q2 q3 with ⟨i, hlt⟩
  have hi' := hi
  rcases i with _ | _ | _ | _ | i
  · obtain ⟨l1, l2, l3⟩ := hmax.1 hi
    have hn : q0 ≠ 0 := hne q0 q1 q2 q3 n1 n2 n3 l1 l2 l3 sum4
    refine conv _ ?_ ?_ ?_ ?_ ?_ ?_ ?_ ?_ ?_ ?_
    · show 4 * (q0 * q0) = _; linarith
    · exact fd_core hn s0 e01
    · exact fd_core hn s0 e02
    · exact fd_core hn s0 e03
    · exact fd_self hn _
    · exact fd_self hn _
    · exact fd_core hn s0 f01
    · exact fd_self' hn _
    · exact fd_core hn s0 (by rw [f02]; ring)
    · exact fd_core hn s0 (by rw [f03]; ring)
  · obtain ⟨l1, l2, l3⟩ := hmax.2.1 hi
    have hn : q1 ≠ 0 := hne q1 q0 q2 q3 n0 n2 n3 l1 l2 l3 (by linarith)
    refine conv _ ?_ ?_ ?_ ?_ ?_ ?_ ?_ ?_ ?_ ?_
    · exact fd_core hn s1 (by rw [mul_comm]; exact e01)
    · show 4 * (q1 * q1) = _; linarith
    · exact fd_core hn s1 (by rw [e12]; ring)
    · exact fd_core hn s1 e13
    · exact fd_self' hn _
    · exact fd_core hn s1 (by rw [g01]; ring)
    · exact (fd_self hn _).trans (by ring)
    · exact fd_core hn s1 (by rw [g02]; ring)
    · exact fd_self' hn _
    · exact fd_core hn s1 (by rw [g03]; ring)
  · obtain ⟨l1, l2, l3⟩ := hmax.2.2.1 hi
    have hn : q2 ≠ 0 := hne q2 q0 q1 q3 n0 n1 n3 l1 l2 l3 (by linarith)
    refine conv _ ?_ ?_ ?_ ?_ ?_ ?_ ?_ ?_ ?_ ?_
    · exact fd_core hn s2 (by rw [mul_comm, e02]; ring)
    · exact fd_core hn s2 (by rw [mul_comm, e12]; ring)
    · show 4 * (q2 * q2) = _; linarith
    · exact fd_core hn s2 e23
    · exact fd_core hn s2 (by rw [h01]; ring)
    · exact (fd_self' hn _).trans (by ring)
    · exact (fd_self' hn _).trans (by ring)
    · exact fd_core hn s2 (by rw [h02]; ring)
    · exact fd_core hn s2 (by rw [h03]; ring)
    · exact fd_self' hn _
  · obtain ⟨l1, l2, l3⟩ := hmax.2.2.2 hi
    have hn : q3 ≠ 0 := hne q3 q0 q1 q2 n0 n1 n2 l1 l2 l3 (by linarith)
    refine conv _ ?_ ?_ ?_ ?_ ?_ ?_ ?_ ?_ ?_ ?_
    · exact fd_core hn s3 (by rw [mul_comm]; exact e03)
    · exact fd_core hn s3 (by rw [mul_comm]; exact e13)
    · exact fd_core hn s3 (by rw [mul_comm]; exact e23)
    · show 4 * (q3 * q3) = _; linarith
    · exact fd_core hn s3 k01
    · exact fd_core hn s3 k02
    · exact fd_core hn s3 k03
    · exact fd_self hn _
    · exact fd_self hn _
    · exact fd_self hn _
  · omega

/-- **C67.** Converting a unit quaternion to a matrix and back gives the quaternion up to sign. -/
theorem C67_quaternion_roundtrip (q : Quat) (hq : q.IsUnit) : fromDcm q.toDcm = q ∨ fromDcm q.toDcm = smul (-1) q := by
  unfold Quat.IsUnit at hq
  have habs : ∀ a : ℝ, Real.sqrt (4 * a ^ 2) / 2 = |a| := by
    intro a
    rw [show 4 * a ^ 2 = (2 * a) ^ 2 by ring, Real.sqrt_sq_eq_abs, abs_mul, abs_two]; ring
  have e0 : 1 + q.toDcm 0 0 - q.toDcm 1 1 - q.toDcm 2 2 = 4 * q.x ^ 2 := by simp; linarith
  have e1 : 1 - q.toDcm 0 0 + q.toDcm 1 1 - q.toDcm 2 2 = 4 * q.y ^ 2 := by simp; linarith
  have e2 : 1 - q.toDcm 0 0 - q.toDcm 1 1 + q.toDcm 2 2 = 4 * q.z ^ 2 := by simp; linarith
  have e3 : 1 + q.toDcm 0 0 + q.toDcm 1 1 + q.toDcm 2 2 = 4 * q.w ^ 2 := by simp; linarith
  have hmax := maxIndex_spec |q.x| |q.y| |q.z| |q.w| (abs_nonneg _) (abs_nonneg _) (abs_nonneg _) (abs_nonneg _)
  unfold fromDcm
  simp only [e0, e1, e2, e3, habs]
  have z : ∀ a b : ℝ, |a| ≤ |b| → b = 0 → a = 0 := by
    intro a b h hb; rw [hb, abs_zero] at h; exact abs_nonpos_iff.1 h
  generalize maxIndex |q.x| |q.y| |q.z| |q.w| = i at hmax ⊢
  fin_cases i
  · obtain ⟨l1, l2, l3⟩ := hmax.1 rfl
    have hne : q.x ≠ 0 := by intro h; have := z _ _ l1 h; have := z _ _ l2 h; have := z _ _ l3 h; simp_all
    rcases abs_choice q.x with h | h
    · left; ext <;> simp [h] <;> field_simp <;> ring
    · right; ext <;> simp [h, smul] <;> field_simp <;> ring
  · obtain ⟨l1, l2, l3⟩ := hmax.2.1 rfl
    have hne : q.y ≠ 0 := by intro h; have := z _ _ l1 h; have := z _ _ l2 h; have := z _ _ l3 h; simp_all
    rcases abs_choice q.y with h | h
    · left; ext <;> simp [h] <;> field_simp <;> ring
    · right; ext <;> simp [h, smul] <;> field_simp <;> ring
  · obtain ⟨l1, l2, l3⟩ := hmax.2.2.1 rfl
    have hne : q.z ≠ 0 := by intro h; have := z _ _ l1 h; have := z _ _ l2 h; have := z _ _ l3 h; simp_all
    rcases abs_choice q.z with h | h
    · left; ext <;> simp [h] <;> field_simp <;> ring
    · right; ext <;> simp [h, smul] <;> field_simp <;> ring
  · obtain ⟨l1, l2, l3⟩ := hmax.2.2.2 rfl
    have hne : q.w ≠ 0 := by intro h; have := z _ _ l1 h; have := z _ _ l2 h; have := z _ _ l3 h; simp_all
    rcases abs_choice q.w with h | h
    · left; ext <;> simp [h] <;> field_simp <;> ring
    · right; ext <;> simp [h, smul] <;> field_simp <;> ring

end S2E
