import Verif.Model.Quaternion
import Mathlib.Tactic.Ring
import Mathlib.Tactic.LinearCombination
import Mathlib.Tactic.Linarith
import Mathlib.Tactic.FieldSimp
import Mathlib.Tactic.NormNum
import Mathlib.Tactic.FinCases
import Mathlib.Tactic.Positivity
import Mathlib.LinearAlgebra.Matrix.NonsingularInverse
/-!
# C64–C70: quaternions, direction cosine matrices, Euler angles
-/
namespace S2E
open Quat

/-! ## Specification vocabulary -/

/-- A unit quaternion. -/
def Quat.IsUnit (q : Quat) : Prop := q.x ^ 2 + q.y ^ 2 + q.z ^ 2 + q.w ^ 2 = 1

/-- Dot product of two spatial vectors, written out. -/
def dot3 (a b : Vec 3) : ℝ := a 0 * b 0 + a 1 * b 1 + a 2 * b 2

/-- A rotation matrix: orthogonal with determinant 1 (Mathlib's transpose, product and determinant). -/
def IsRotation (m : Mat 3 3) : Prop := m.transpose * m = 1 ∧ m.det = 1

theorem vec3_ext {a b : Vec 3} (h0 : a 0 = b 0) (h1 : a 1 = b 1) (h2 : a 2 = b 2) : a = b := by
  funext i; fin_cases i <;> assumption

theorem mat3_ext {a b : Mat 3 3} (h : a 0 0 = b 0 0 ∧ a 0 1 = b 0 1 ∧ a 0 2 = b 0 2 ∧ a 1 0 = b 1 0 ∧ a 1 1 = b 1 1 ∧ a 1 2 = b 1 2 ∧
    a 2 0 = b 2 0 ∧ a 2 1 = b 2 1 ∧ a 2 2 = b 2 2) : a = b := by
  obtain ⟨h1, h2, h3, h4, h5, h6, h7, h8, h9⟩ := h
  funext i j; fin_cases i <;> fin_cases j <;> assumption

/-! ## C64 frame conversion -/

theorem frame_explicit (q : Quat) (v : Vec 3) : q.frameConversion v =
    ![(q.w*q.w + q.x*q.x - q.y*q.y - q.z*q.z) * v 0 + 2*(q.x*q.y + q.w*q.z) * v 1 + 2*(q.x*q.z - q.w*q.y) * v 2,
      2*(q.x*q.y - q.w*q.z) * v 0 + (q.w*q.w - q.x*q.x + q.y*q.y - q.z*q.z) * v 1 + 2*(q.y*q.z + q.w*q.x) * v 2,
      2*(q.x*q.z + q.w*q.y) * v 0 + 2*(q.y*q.z - q.w*q.x) * v 1 + (q.w*q.w - q.x*q.x - q.y*q.y + q.z*q.z) * v 2] := by
  apply vec3_ext <;> simp [frameConversion, mulVec, mul, conjugate] <;> ring

theorem inverse_explicit (q : Quat) (v : Vec 3) : q.inverseFrameConversion v =
    ![(q.w*q.w + q.x*q.x - q.y*q.y - q.z*q.z) * v 0 + 2*(q.x*q.y - q.w*q.z) * v 1 + 2*(q.x*q.z + q.w*q.y) * v 2,
      2*(q.x*q.y + q.w*q.z) * v 0 + (q.w*q.w - q.x*q.x + q.y*q.y - q.z*q.z) * v 1 + 2*(q.y*q.z - q.w*q.x) * v 2,
      2*(q.x*q.z - q.w*q.y) * v 0 + 2*(q.y*q.z + q.w*q.x) * v 1 + (q.w*q.w - q.x*q.x - q.y*q.y + q.z*q.z) * v 2] := by
  apply vec3_ext <;> simp [inverseFrameConversion, mulVec, mul, conjugate] <;> ring

/-- **C64.** For every unit quaternion the two frame conversions are inverse to each other, in both orders. -/
theorem C64_inverse (q : Quat) (hq : q.IsUnit) (v : Vec 3) :
    q.inverseFrameConversion (q.frameConversion v) = v ∧ q.frameConversion (q.inverseFrameConversion v) = v := by
  unfold Quat.IsUnit at hq
  constructor
  · rw [frame_explicit, inverse_explicit]
    apply vec3_ext <;> simp <;> grind
  · rw [inverse_explicit, frame_explicit]
    apply vec3_ext <;> simp <;> grind

/-- **C64.** Frame conversion by a unit quaternion preserves dot products (hence lengths and angles) and cross products (hence
orientation). -/
theorem C64_isometry (q : Quat) (hq : q.IsUnit) (a b : Vec 3) :
    dot3 (q.frameConversion a) (q.frameConversion b) = dot3 a b ∧
    outerProduct (q.frameConversion a) (q.frameConversion b) = q.frameConversion (outerProduct a b) := by
  unfold Quat.IsUnit at hq
  constructor
  · simp only [frame_explicit, dot3]
    simp
    grind
  · simp only [frame_explicit, outerProduct]
    apply vec3_ext <;> simp <;> grind

/-- **C64.** Frame conversion is linear in the vector (any quaternion). -/
theorem C64_linear (q : Quat) (s t : ℝ) (a b : Vec 3) :
    q.frameConversion (vadd (scale s a) (scale t b)) = vadd (scale s (q.frameConversion a)) (scale t (q.frameConversion b)) := by
  simp only [frame_explicit]
  apply vec3_ext <;> simp [vadd, scale] <;> ring

-- Non-vacuity: a 120° rotation about (1,1,1) cycles the axes.
example : Quat.IsUnit ⟨1/2, 1/2, 1/2, 1/2⟩ ∧ Quat.frameConversion ⟨1/2, 1/2, 1/2, 1/2⟩ ![1, 2, 3] = ![2, 3, 1] := by
  refine ⟨by norm_num [Quat.IsUnit], ?_⟩
  rw [frame_explicit]; apply vec3_ext <;> simp <;> norm_num

/-! ## C65 composition -/

/-- **C65.** The product of two quaternions is the composition of the frame conversions, left factor first, for arbitrary quaternions;
the inverse conversions compose in the opposite order. -/
theorem C65_composition (p q : Quat) (v : Vec 3) :
    (p.mul q).frameConversion v = q.frameConversion (p.frameConversion v) ∧
    (p.mul q).inverseFrameConversion v = p.inverseFrameConversion (q.inverseFrameConversion v) := by
  constructor
  · simp only [frame_explicit]
    apply vec3_ext <;> simp [mul] <;> ring
  · simp only [inverse_explicit]
    apply vec3_ext <;> simp [mul] <;> ring

/-- **C65.** Quaternion multiplication is associative, multiplicative for the squared norm, has identity (0,0,0,1), and the conjugate
of a unit quaternion is its inverse; so products of unit quaternions stay unit. -/
theorem C65_group (p q r : Quat) :
    (p.mul q).mul r = p.mul (q.mul r) ∧ (p.mul q).normSq = p.normSq * q.normSq ∧
    p.mul ⟨0, 0, 0, 1⟩ = p ∧ Quat.mul ⟨0, 0, 0, 1⟩ p = p ∧
    (p.IsUnit → p.mul p.conjugate = ⟨0, 0, 0, 1⟩ ∧ p.conjugate.mul p = ⟨0, 0, 0, 1⟩) ∧
    (p.IsUnit → q.IsUnit → (p.mul q).IsUnit) ∧
    (p.mul q).conjugate = q.conjugate.mul p.conjugate := by
  refine ⟨?_, ?_, ?_, ?_, fun h => ⟨?_, ?_⟩, fun h1 h2 => ?_, ?_⟩
  · ext <;> simp [mul] <;> ring
  · simp [normSq, mul]; ring
  · ext <;> simp [mul]
  · ext <;> simp [mul]
  · unfold Quat.IsUnit at h; ext <;> simp [mul, conjugate] <;> grind
  · unfold Quat.IsUnit at h; ext <;> simp [mul, conjugate] <;> grind
  · unfold Quat.IsUnit at *; simp only [mul]; grind
  · ext <;> simp [mul, conjugate] <;> ring

/-! ## C66 direction cosine matrix -/

@[simp] theorem toDcm_00 (q : Quat) : q.toDcm 0 0 = q.w * q.w + q.x * q.x - q.y * q.y - q.z * q.z := rfl
@[simp] theorem toDcm_01 (q : Quat) : q.toDcm 0 1 = 2 * (q.x * q.y + q.w * q.z) := rfl
@[simp] theorem toDcm_02 (q : Quat) : q.toDcm 0 2 = 2 * (q.x * q.z - q.w * q.y) := rfl
@[simp] theorem toDcm_10 (q : Quat) : q.toDcm 1 0 = 2 * (q.x * q.y - q.w * q.z) := rfl
@[simp] theorem toDcm_11 (q : Quat) : q.toDcm 1 1 = q.w * q.w - q.x * q.x + q.y * q.y - q.z * q.z := rfl
@[simp] theorem toDcm_12 (q : Quat) : q.toDcm 1 2 = 2 * (q.y * q.z + q.w * q.x) := rfl
@[simp] theorem toDcm_20 (q : Quat) : q.toDcm 2 0 = 2 * (q.x * q.z + q.w * q.y) := rfl
@[simp] theorem toDcm_21 (q : Quat) : q.toDcm 2 1 = 2 * (q.y * q.z - q.w * q.x) := rfl
@[simp] theorem toDcm_22 (q : Quat) : q.toDcm 2 2 = q.w * q.w - q.x * q.x - q.y * q.y + q.z * q.z := rfl

theorem isRotation_iff (m : Mat 3 3) : IsRotation m ↔
    (m 0 0 * m 0 0 + m 1 0 * m 1 0 + m 2 0 * m 2 0 = 1 ∧ m 0 1 * m 0 1 + m 1 1 * m 1 1 + m 2 1 * m 2 1 = 1 ∧
     m 0 2 * m 0 2 + m 1 2 * m 1 2 + m 2 2 * m 2 2 = 1 ∧ m 0 0 * m 0 1 + m 1 0 * m 1 1 + m 2 0 * m 2 1 = 0 ∧
     m 0 0 * m 0 2 + m 1 0 * m 1 2 + m 2 0 * m 2 2 = 0 ∧ m 0 1 * m 0 2 + m 1 1 * m 1 2 + m 2 1 * m 2 2 = 0 ∧
     m 0 0 * (m 1 1 * m 2 2 - m 1 2 * m 2 1) - m 0 1 * (m 1 0 * m 2 2 - m 1 2 * m 2 0) + m 0 2 * (m 1 0 * m 2 1 - m 1 1 * m 2 0) = 1) := by
  have hd : m.det = m 0 0 * (m 1 1 * m 2 2 - m 1 2 * m 2 1) - m 0 1 * (m 1 0 * m 2 2 - m 1 2 * m 2 0) +
      m 0 2 * (m 1 0 * m 2 1 - m 1 1 * m 2 0) := by rw [Matrix.det_fin_three]; ring
  have e : ∀ i j, (m.transpose * m) i j = m 0 i * m 0 j + m 1 i * m 1 j + m 2 i * m 2 j := by
    intro i j; rw [Matrix.mul_apply, Fin.sum_univ_three]; rfl
  constructor
  · rintro ⟨h1, h2⟩
    have h := fun i j => (e i j).symm.trans (congrFun (congrFun h1 i) j)
    refine ⟨by simpa using h 0 0, by simpa using h 1 1, by simpa using h 2 2, by simpa using h 0 1, by simpa using h 0 2,
      by simpa using h 1 2, by rw [← hd, h2]⟩
  · rintro ⟨h00, h11, h22, h01, h02, h12, hdet⟩
    refine ⟨?_, by rw [hd, hdet]⟩
    apply mat3_ext
    simp only [e]
    refine ⟨by simpa using h00, by simpa using h01, by simpa using h02, ?_, by simpa using h11, by simpa using h12, ?_, ?_,
      by simpa using h22⟩ <;> simp <;> linarith

/-- **C66.** The direction cosine matrix of a unit quaternion is a rotation matrix. -/
theorem C66_dcm_rotation (q : Quat) (hq : q.IsUnit) : IsRotation q.toDcm := by
  unfold Quat.IsUnit at hq
  rw [isRotation_iff]
  simp only [toDcm_00, toDcm_01, toDcm_02, toDcm_10, toDcm_11, toDcm_12, toDcm_20, toDcm_21, toDcm_22]
  refine ⟨?_, ?_, ?_, ?_, ?_, ?_, ?_⟩ <;> grind

/-- **C66.** Multiplying by the matrix is the frame conversion, and multiplying by its transpose the inverse one (any quaternion). -/
theorem C66_dcm_acts (q : Quat) (v : Vec 3) :
    matVec q.toDcm v = q.frameConversion v ∧ matVec (matTranspose q.toDcm) v = q.inverseFrameConversion v := by
  constructor
  · rw [frame_explicit]
    apply vec3_ext <;> simp [matVec, Fin.sum_univ_three]
  · rw [inverse_explicit]
    apply vec3_ext <;> simp [matVec, matTranspose, Fin.sum_univ_three]

/-- **C66.** The matrix of a product is the product of the matrices in the opposite order. -/
theorem C66_dcm_product (p q : Quat) : (p.mul q).toDcm = matMul q.toDcm p.toDcm := by
  apply mat3_ext
  refine ⟨?_, ?_, ?_, ?_, ?_, ?_, ?_, ?_, ?_⟩ <;> simp [matMul, Fin.sum_univ_three, mul] <;> ring


end S2E
