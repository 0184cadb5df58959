import Verif.Props.Quaternion
/-!
# C71, C72: vectors
-/
namespace S2E

theorem calcNorm_sq {n : Nat} (v : Vec n) : calcNorm v ^ 2 = innerProduct v v := by
  unfold calcNorm innerProduct
  rw [Real.sq_sqrt (Finset.sum_nonneg fun i _ => sq_nonneg _)]
  simp only [sq]

theorem calcNorm_nonneg {n : Nat} (v : Vec n) : 0 ≤ calcNorm v := Real.sqrt_nonneg _

theorem calcNorm_eq_zero {n : Nat} (v : Vec n) : calcNorm v = 0 ↔ v = 0 := by
  unfold calcNorm
  rw [Real.sqrt_eq_zero (Finset.sum_nonneg fun i _ => sq_nonneg _), Finset.sum_eq_zero_iff_of_nonneg (fun i _ => sq_nonneg _)]
  constructor
  · intro h; funext i; simpa using h i (Finset.mem_univ i)
  · intro h i _; simp [h]

theorem innerProduct_scale {n : Nat} (a b : ℝ) (u v : Vec n) : innerProduct (scale a u) (scale b v) = a * b * innerProduct u v := by
  unfold innerProduct scale
  rw [Finset.mul_sum]
  exact Finset.sum_congr rfl fun i _ => by ring

theorem calcNorm_scale {n : Nat} (a : ℝ) (v : Vec n) : calcNorm (scale a v) = |a| * calcNorm v := by
  have h1 := calcNorm_sq (scale a v)
  rw [innerProduct_scale, ← calcNorm_sq] at h1
  have : calcNorm (scale a v) ^ 2 = (|a| * calcNorm v) ^ 2 := by rw [mul_pow, sq_abs, h1]; ring
  exact (sq_eq_sq₀ (calcNorm_nonneg _) (mul_nonneg (abs_nonneg _) (calcNorm_nonneg _))).1 this

/-- **C71.** The normalised vector of a non-zero vector has length 1 and the same direction; a zero vector is returned unchanged; and
normalising twice is the same as normalising once. Every dimension. -/
theorem C71_normalized_vector {n : Nat} (v : Vec n) :
    (v ≠ 0 → calcNorm (calcNormalizedVector v) = 1 ∧ 0 < calcNorm v ∧ scale (calcNorm v) (calcNormalizedVector v) = v) ∧
    (v = 0 → calcNormalizedVector v = 0) ∧
    calcNormalizedVector (calcNormalizedVector v) = calcNormalizedVector v := by
  have main : v ≠ 0 → calcNorm (calcNormalizedVector v) = 1 ∧ 0 < calcNorm v ∧ scale (calcNorm v) (calcNormalizedVector v) = v := by
    intro hv
    have hn : calcNorm v ≠ 0 := fun h => hv ((calcNorm_eq_zero v).1 h)
    have hp : 0 < calcNorm v := lt_of_le_of_ne (calcNorm_nonneg v) (Ne.symm hn)
    have e : calcNormalizedVector v = scale (1 / calcNorm v) v := by unfold calcNormalizedVector vdiv; rw [if_neg hn]
    refine ⟨?_, hp, ?_⟩
    · rw [e, calcNorm_scale, abs_of_pos (by positivity)]; field_simp
    · rw [e]; funext i; unfold scale; field_simp
  have hz : v = 0 → calcNormalizedVector v = 0 := by
    rintro rfl; unfold calcNormalizedVector; rw [if_pos ((calcNorm_eq_zero _).2 rfl)]
  refine ⟨main, hz, ?_⟩
  by_cases hv : v = 0
  · rw [hz hv, ← hv, hz hv, hv]
  · obtain ⟨h1, _, _⟩ := main hv
    generalize calcNormalizedVector v = u at h1 ⊢
    unfold calcNormalizedVector
    rw [if_neg (by rw [h1]; norm_num), h1]
    unfold vdiv scale; funext i; ring

/-- **C71.** The angle between two non-zero vectors is in `[0, π]`, and its cosine times both lengths is the inner product. Every
dimension; in particular the argument handed to `acos` never leaves `[-1, 1]` in exact arithmetic. -/
theorem C71_angle {n : Nat} (a b : Vec n) (ha : a ≠ 0) (hb : b ≠ 0) :
    0 ≤ calcAngleTwoVectors a b ∧ calcAngleTwoVectors a b ≤ Real.pi ∧
    calcNorm a * calcNorm b * Real.cos (calcAngleTwoVectors a b) = ∑ i, a i * b i ∧
    calcAngleTwoVectors a b = calcAngleTwoVectors b a := by
  have hna : 0 < calcNorm a := lt_of_le_of_ne (calcNorm_nonneg a) (Ne.symm fun h => ha ((calcNorm_eq_zero a).1 h))
  have hnb : 0 < calcNorm b := lt_of_le_of_ne (calcNorm_nonneg b) (Ne.symm fun h => hb ((calcNorm_eq_zero b).1 h))
  have cs : innerProduct a b ^ 2 ≤ (calcNorm a * calcNorm b) ^ 2 := by
    have := Finset.sum_mul_sq_le_sq_mul_sq Finset.univ a b
    rw [mul_pow, calcNorm_sq, calcNorm_sq]
    simpa only [innerProduct, sq] using this
  have hp : 0 < calcNorm a * calcNorm b := by positivity
  have habs : |innerProduct a b| ≤ calcNorm a * calcNorm b := abs_le_of_sq_le_sq cs hp.le
  refine ⟨Real.arccos_nonneg _, Real.arccos_le_pi _, ?_, ?_⟩
  · unfold calcAngleTwoVectors
    rw [Real.cos_arccos]
    · unfold innerProduct; field_simp
    · rw [le_div_iff₀ hp]; linarith [(abs_le.1 habs).1]
    · rw [div_le_iff₀ hp]; linarith [(abs_le.1 habs).2]
  · unfold calcAngleTwoVectors innerProduct
    rw [mul_comm (calcNorm a)]
    congr 2
    exact Finset.sum_congr rfl fun i _ => mul_comm _ _

/-- **C71.** The outer product is orthogonal to both factors, changes sign when they are exchanged, satisfies the triple-product rule,
and its squared length is `|a|²|b|² - (a·b)²`. -/
theorem C71_outer_product (a b c : Vec 3) :
    dot3 (outerProduct a b) a = 0 ∧ dot3 (outerProduct a b) b = 0 ∧ outerProduct a b = vneg (outerProduct b a) ∧
    outerProduct a (outerProduct b c) = vsub (scale (dot3 a c) b) (scale (dot3 a b) c) ∧
    calcNorm (outerProduct a b) ^ 2 = calcNorm a ^ 2 * calcNorm b ^ 2 - (dot3 a b) ^ 2 := by
  refine ⟨?_, ?_, ?_, ?_, ?_⟩
  · simp [dot3, outerProduct]; ring
  · simp [dot3, outerProduct]; ring
  · apply vec3_ext <;> simp [outerProduct, vneg, scale] <;> ring
  · apply vec3_ext <;> simp [outerProduct, vsub, scale, dot3] <;> ring
  · rw [calcNorm_sq, calcNorm_sq, calcNorm_sq]
    simp only [innerProduct, Fin.sum_univ_three, outerProduct, dot3]
    simp; ring

/-- **C71.** The generated vector is orthogonal to the input and of length one for every non-zero input, in spite of the repeated
condition in the branch selection. -/
theorem C71_orthogonal_unit (v : Vec 3) (hv : v ≠ 0) :
    calcNorm (generateOrthogonalUnitVector v) = 1 ∧ dot3 v (generateOrthogonalUnitVector v) = 0 := by
  have key : ∀ u : Vec 3, u ≠ 0 → dot3 v u = 0 → calcNorm (calcNormalizedVector u) = 1 ∧ dot3 v (calcNormalizedVector u) = 0 := by
    intro u hu hd
    obtain ⟨h1, h2, h3⟩ := (C71_normalized_vector u).1 hu
    refine ⟨h1, ?_⟩
    rw [← h3] at hd
    have : calcNorm u * dot3 v (calcNormalizedVector u) = 0 := by
      rw [← hd]; unfold dot3
      conv_rhs => unfold scale
      ring
    rcases mul_eq_zero.1 this with h | h
    · exact absurd h (ne_of_gt h2)
    · exact h
  unfold generateOrthogonalUnitVector
  by_cases c1 : v 0 * v 0 ≤ v 1 * v 1 ∧ v 0 * v 0 ≤ v 1 * v 1
  · rw [if_pos c1]
    refine key _ ?_ (by simp [dot3]; ring)
    intro h
    have h1 : v 2 = 0 := by simpa using congrFun h 1
    have h2 : v 1 = 0 := by simpa using congrFun h 2
    have h3 : v 0 = 0 := by
      have := c1.1; rw [h2] at this
      nlinarith [mul_self_nonneg (v 0)]
    exact hv (vec3_ext h3 h2 h1)
  · rw [if_neg c1]
    have hx : v 0 ≠ 0 := by
      intro h; apply c1; rw [h]; constructor <;> nlinarith [mul_self_nonneg (v 1)]
    by_cases c2 : v 1 * v 1 ≤ v 0 * v 0 ∧ v 1 * v 1 ≤ v 2 * v 2
    · rw [if_pos c2]
      refine key _ ?_ (by simp [dot3]; ring)
      intro h; exact hx (by simpa using congrFun h 2)
    · rw [if_neg c2]
      refine key _ ?_ (by simp [dot3]; ring)
      intro h; exact hx (by simpa using congrFun h 1)

-- Non-vacuity: the first branch, reached although the third element is the smallest.
example : generateOrthogonalUnitVector ![3, 4, 0] = ![0, 0, -1] := by
  have h : calcNorm (![0, 0, -4] : Vec 3) = 4 := by
    unfold calcNorm; rw [Fin.sum_univ_three]; simp
  unfold generateOrthogonalUnitVector
  rw [if_pos (by simp; norm_num)]
  simp only [Matrix.cons_val_zero, Matrix.cons_val_one, Matrix.cons_val]
  unfold calcNormalizedVector
  rw [if_neg (by rw [h]; norm_num), h]
  apply vec3_ext <;> simp [vdiv, scale]

/-! ## C72 polar coordinates -/

theorem atan2_cos_sin {x y r : ℝ} (hr : 0 < r) (h : x ^ 2 + y ^ 2 = r ^ 2) :
    Real.cos (atan2 y x) = x / r ∧ Real.sin (atan2 y x) = y / r := by
  have hn : ‖(⟨x, y⟩ : ℂ)‖ = r := by
    rw [Complex.norm_eq_sqrt_sq_add_sq, h, Real.sqrt_sq hr.le]
  have h0 : (⟨x, y⟩ : ℂ) ≠ 0 := by
    intro h0; rw [h0, norm_zero] at hn; exact hr.ne hn
  unfold atan2
  rw [Complex.cos_arg h0, Complex.sin_arg, hn]
  exact ⟨rfl, rfl⟩

theorem atan2_of_cos_sin {r t : ℝ} (hr : 0 < r) (h1 : -Real.pi < t) (h2 : t ≤ Real.pi) : atan2 (r * Real.sin t) (r * Real.cos t) = t := by
  have := Complex.arg_mul_cos_add_sin_mul_I hr (θ := t) ⟨h1, h2⟩
  unfold atan2
  refine Eq.trans (congrArg Complex.arg ?_) this
  apply Complex.ext <;> simp [← Complex.ofReal_cos, ← Complex.ofReal_sin]

/-- **C72.** The polar coordinates `(r, θ, φ)` of any vector are in range (`r ≥ 0`, `0 ≤ θ ≤ π`, `0 ≤ φ < 2π`) and determine the vector:
it is `r (sin θ cos φ, sin θ sin φ, cos θ)`. -/
theorem C72_polar (v : Vec 3) :
    let p := convertFrameOrthogonal2Polar v
    p 0 = Real.sqrt (v 0 ^ 2 + v 1 ^ 2 + v 2 ^ 2) ∧ (0 ≤ p 1 ∧ p 1 ≤ Real.pi) ∧ (0 ≤ p 2 ∧ p 2 < 2 * Real.pi) ∧
    v 0 = p 0 * (Real.sin (p 1) * Real.cos (p 2)) ∧ v 1 = p 0 * (Real.sin (p 1) * Real.sin (p 2)) ∧ v 2 = p 0 * Real.cos (p 1) := by
  intro p
  have hpi := Real.pi_pos
  have hn : calcNorm v = Real.sqrt (v 0 ^ 2 + v 1 ^ 2 + v 2 ^ 2) := by unfold calcNorm; rw [Fin.sum_univ_three]
  have hsq : calcNorm v ^ 2 = v 0 ^ 2 + v 1 ^ 2 + v 2 ^ 2 := by
    rw [hn, Real.sq_sqrt (by positivity)]
  rw [← hn]
  by_cases h0 : calcNorm v = 0
  · have hp : p = ![calcNorm v, 0, 0] := by simp only [p, convertFrameOrthogonal2Polar]; rw [if_pos h0]
    have hv := (calcNorm_eq_zero v).1 h0
    rw [hp, h0]
    refine ⟨by simp, by simp [hpi.le], by simp [hpi], ?_, ?_, ?_⟩ <;> simp [hv]
  · have hr : 0 < calcNorm v := lt_of_le_of_ne (calcNorm_nonneg v) (Ne.symm h0)
    have hlow : -1 ≤ v 2 / calcNorm v := by
      rw [le_div_iff₀ hr]
      have := abs_le_of_sq_le_sq (a := v 2) (b := calcNorm v) (by rw [hsq]; nlinarith [sq_nonneg (v 0), sq_nonneg (v 1)]) hr.le
      linarith [(abs_le.1 this).1]
    have hhigh : v 2 / calcNorm v ≤ 1 := by
      rw [div_le_iff₀ hr]
      have := abs_le_of_sq_le_sq (a := v 2) (b := calcNorm v) (by rw [hsq]; nlinarith [sq_nonneg (v 0), sq_nonneg (v 1)]) hr.le
      linarith [(abs_le.1 this).2]
    have hcos : calcNorm v * Real.cos (Real.arccos (v 2 / calcNorm v)) = v 2 := by
      rw [Real.cos_arccos hlow hhigh]; field_simp
    by_cases hxy : v 0 = 0 ∧ v 1 = 0
    · have hp : p = ![calcNorm v, Real.arccos (v 2 / calcNorm v), 0] := by
        simp only [p, convertFrameOrthogonal2Polar]; rw [if_neg h0, if_pos hxy]
      have hs : Real.sin (Real.arccos (v 2 / calcNorm v)) = 0 := by
        rw [Real.sin_arccos, div_pow, hsq, hxy.1, hxy.2]
        have : v 2 ^ 2 ≠ 0 := by rw [hxy.1, hxy.2] at hsq; intro h; rw [h] at hsq; exact h0 (by nlinarith)
        have e : (1 : ℝ) - v 2 ^ 2 / (0 ^ 2 + 0 ^ 2 + v 2 ^ 2) = 0 := by field_simp; ring
        rw [e, Real.sqrt_zero]
      rw [hp]
      refine ⟨by simp, ⟨by simpa using Real.arccos_nonneg _, by simpa using Real.arccos_le_pi _⟩, by simp [hpi], ?_, ?_, ?_⟩
      · simp [hxy.1, hs]
      · simp [hxy.2]
      · simp [hcos]
    · have hrho : 0 < v 0 ^ 2 + v 1 ^ 2 := by
        rcases not_and_or.1 hxy with h | h
        · have := sq_nonneg (v 1); positivity
        · have := sq_nonneg (v 0); positivity
      obtain ⟨a1, a2⟩ := atan2_cos_sin (x := v 0) (y := v 1) (Real.sqrt_pos.2 hrho) (Real.sq_sqrt hrho.le).symm
      have hs : calcNorm v * Real.sin (Real.arccos (v 2 / calcNorm v)) = Real.sqrt (v 0 ^ 2 + v 1 ^ 2) := by
        rw [Real.sin_arccos]
        have e : v 0 ^ 2 + v 1 ^ 2 = (calcNorm v) ^ 2 * (1 - (v 2 / calcNorm v) ^ 2) := by
          rw [div_pow, mul_sub, mul_div_cancel₀ _ (pow_ne_zero 2 h0), hsq]; ring
        rw [e, Real.sqrt_mul (sq_nonneg _), Real.sqrt_sq hr.le]
      have hphi : ∃ phi, p = ![calcNorm v, Real.arccos (v 2 / calcNorm v), phi] ∧ 0 ≤ phi ∧ phi < 2 * Real.pi ∧
          Real.cos phi = Real.cos (atan2 (v 1) (v 0)) ∧ Real.sin phi = Real.sin (atan2 (v 1) (v 0)) := by
        have b1 := Complex.neg_pi_lt_arg ⟨v 0, v 1⟩
        have b2 := Complex.arg_le_pi ⟨v 0, v 1⟩
        by_cases hneg : atan2 (v 1) (v 0) < 0
        · refine ⟨atan2 (v 1) (v 0) + tau, ?_, ?_, ?_, ?_, ?_⟩
          · simp only [p, convertFrameOrthogonal2Polar]; rw [if_neg h0, if_neg hxy, if_pos hneg]
          · unfold tau; unfold atan2 at *; linarith
          · unfold tau; unfold atan2 at *; linarith
          · unfold tau; rw [Real.cos_add_two_pi]
          · unfold tau; rw [Real.sin_add_two_pi]
        · refine ⟨atan2 (v 1) (v 0), ?_, not_lt.1 hneg, ?_, rfl, rfl⟩
          · simp only [p, convertFrameOrthogonal2Polar]; rw [if_neg h0, if_neg hxy, if_neg hneg]
          · unfold atan2; linarith
      obtain ⟨phi, hp, p1, p2, c, s⟩ := hphi
      rw [hp]
      have hsr : Real.sqrt (v 0 ^ 2 + v 1 ^ 2) ≠ 0 := (Real.sqrt_pos.2 hrho).ne'
      refine ⟨by simp, ⟨by simpa using Real.arccos_nonneg _, by simpa using Real.arccos_le_pi _⟩, ⟨by simpa using p1, by simpa using p2⟩, ?_, ?_, ?_⟩
      · simp only [Matrix.cons_val_zero, Matrix.cons_val_one, Matrix.cons_val]
        rw [c, a1, ← mul_assoc, hs]; field_simp
      · simp only [Matrix.cons_val_zero, Matrix.cons_val_one, Matrix.cons_val]
        rw [s, a2, ← mul_assoc, hs]; field_simp
      · simp [hcos]

end S2E
