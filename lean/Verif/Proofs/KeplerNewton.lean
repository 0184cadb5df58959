import Verif.Spec.Sgp4Report
import Mathlib.Analysis.SpecialFunctions.Trigonometric.Bounds
import Mathlib.Topology.Order.IntermediateValue

/-!
# Newton's iteration for Kepler's equation converges
-/
namespace S2E.Sgp4.Report

/-- The left side of Kepler's equation. -/
noncomputable def kep (ax ay E : ℝ) : ℝ := E - ax * Real.sin E + ay * Real.cos E

theorem rot_le {ax ay ε : ℝ} (h : ax ^ 2 + ay ^ 2 ≤ ε ^ 2) (hε : 0 ≤ ε) (E : ℝ) : |ax * Real.cos E + ay * Real.sin E| ≤ ε ∧ |ax * Real.sin E - ay * Real.cos E| ≤ ε := by
  have hs := Real.sin_sq_add_cos_sq E
  have hid : (ax * Real.cos E + ay * Real.sin E) ^ 2 + (ax * Real.sin E - ay * Real.cos E) ^ 2 = ax ^ 2 + ay ^ 2 := by
    linear_combination (ax ^ 2 + ay ^ 2) * hs
  constructor <;> apply abs_le_of_sq_le_sq _ hε <;> nlinarith [sq_nonneg (ax * Real.cos E + ay * Real.sin E), sq_nonneg (ax * Real.sin E - ay * Real.cos E)]

theorem kep_sub {ax ay ε : ℝ} (h : ax ^ 2 + ay ^ 2 ≤ ε ^ 2) (hε : 0 ≤ ε) {x y : ℝ} (hxy : x ≤ y) : (1 - ε) * (y - x) ≤ kep ax ay y - kep ax ay x := by
  have h1 := (rot_le h hε ((y + x) / 2)).1
  have h2 : ax * (Real.sin y - Real.sin x) - ay * (Real.cos y - Real.cos x) = 2 * Real.sin ((y - x) / 2) * (ax * Real.cos ((y + x) / 2) + ay * Real.sin ((y + x) / 2)) := by
    rw [Real.sin_sub_sin, Real.cos_sub_cos]; ring
  have h3 : |2 * Real.sin ((y - x) / 2) * (ax * Real.cos ((y + x) / 2) + ay * Real.sin ((y + x) / 2))| ≤ (y - x) * ε := by
    rw [abs_mul]
    refine mul_le_mul ?_ h1 (abs_nonneg _) (by linarith)
    rw [abs_mul]
    have := Real.abs_sin_le_abs (x := (y - x) / 2)
    rw [abs_of_nonneg (by linarith : 0 ≤ (y - x) / 2)] at this
    norm_num
    linarith
  have h4 := (abs_le.1 h3).2
  unfold kep
  linarith

theorem kep_exists {ax ay ε : ℝ} (h : ax ^ 2 + ay ^ 2 ≤ ε ^ 2) (hε : 0 ≤ ε) (U : ℝ) : ∃ F, kep ax ay F = U := by
  have hc : Continuous (kep ax ay) := by unfold kep; fun_prop
  have e1 : kep ax ay (U - ε) ≤ U := by
    have := abs_le.1 (rot_le h hε (U - ε)).2
    unfold kep; linarith
  have e2 : U ≤ kep ax ay (U + ε) := by
    have := abs_le.1 (rot_le h hε (U + ε)).2
    unfold kep; linarith
  obtain ⟨F, _, hF⟩ := intermediate_value_Icc (by linarith : U - ε ≤ U + ε) hc.continuousOn ⟨e1, e2⟩
  exact ⟨F, hF⟩

theorem kep_unique {ax ay ε : ℝ} (h : ax ^ 2 + ay ^ 2 ≤ ε ^ 2) (hε : 0 ≤ ε) (h1 : ε < 1) {x y : ℝ} (hxy : kep ax ay x = kep ax ay y) : x = y := by
  rcases le_total x y with hl | hl
  · have := kep_sub h hε hl
    rw [hxy] at this
    nlinarith
  · have := kep_sub h hε hl
    rw [hxy] at this
    nlinarith

/-- The remainder of the first-order expansion. -/
theorem kep_taylor {ax ay ε : ℝ} (h : ax ^ 2 + ay ^ 2 ≤ ε ^ 2) (hε : 0 ≤ ε) (E d : ℝ) (hd : |d| ≤ 0.55) :
    |kep ax ay (E + d) - kep ax ay E - (1 - ax * Real.cos E - ay * Real.sin E) * d| ≤ 0.64 * ε * d ^ 2 := by
  obtain ⟨h1, h2⟩ := rot_le h hε E
  have e : kep ax ay (E + d) - kep ax ay E - (1 - ax * Real.cos E - ay * Real.sin E) * d =
      (1 - Real.cos d) * (ax * Real.sin E - ay * Real.cos E) + (d - Real.sin d) * (ax * Real.cos E + ay * Real.sin E) := by
    unfold kep; rw [Real.sin_add, Real.cos_add]; ring
  have c1 : |1 - Real.cos d| ≤ d ^ 2 / 2 := by
    rw [abs_of_nonneg (by linarith [Real.cos_le_one d])]
    linarith [Real.one_sub_sq_div_two_le_cos (x := d)]
  have c2 : |d - Real.sin d| ≤ 0.14 * d ^ 2 := by
    have key : ∀ y : ℝ, 0 ≤ y → y ≤ 0.55 → 0 ≤ y - Real.sin y ∧ y - Real.sin y ≤ 0.14 * y ^ 2 := fun y y0 y1 => by
      rcases y0.eq_or_lt with rfl | y0
      · simp
      · have a1 := Real.sin_lt y0
        have a2 := Real.sin_gt_sub_cube y0
        refine ⟨by linarith, ?_⟩
        nlinarith [mul_nonneg (sq_nonneg y) (sub_nonneg.2 y1)]
    rcases le_total 0 d with h0 | h0
    · rw [abs_of_nonneg h0] at hd
      rw [abs_of_nonneg (key d h0 hd).1]; exact (key d h0 hd).2
    · rw [abs_of_nonpos h0] at hd
      obtain ⟨k1, k2⟩ := key (-d) (by linarith) hd
      rw [Real.sin_neg] at k1 k2
      rw [abs_of_nonpos (by linarith)]
      nlinarith
  rw [e]
  refine (abs_add_le _ _).trans ?_
  rw [abs_mul, abs_mul]
  have m1 := mul_le_mul c1 h2 (abs_nonneg _) (by positivity)
  have m2 := mul_le_mul c2 h1 (abs_nonneg _) (by positivity)
  nlinarith

/-- One step: the error is squared, and the correction is not limited. -/
theorem newton_step {ax ay : ℝ} (h : ax ^ 2 + ay ^ 2 ≤ 0.55 ^ 2) {U F E : ℝ} (hF : kep ax ay F = U) (hE : |E - F| ≤ 0.55) :
    |E + correction U ax ay E - F| ≤ 0.783 * (E - F) ^ 2 ∧ |correction U ax ay E| ≤ |E - F| + 0.783 * (E - F) ^ 2 ∧
      |E - F| ≤ |correction U ax ay E| + 0.783 * (E - F) ^ 2 := by
  have ht := kep_taylor h (by norm_num) E (F - E) (by rw [abs_sub_comm]; exact hE)
  rw [show E + (F - E) = F by ring, hF] at ht
  have hr := (abs_le.1 (rot_le h (by norm_num) E).1)
  set D := 1 - ax * Real.cos E - ay * Real.sin E with hD
  have hD0 : 0.45 ≤ D := by linarith
  have hDp : 0 < D := by linarith
  set d := (U - kep ax ay E) / D with hd
  have hdD : d * D = U - kep ax ay E := div_mul_cancel₀ _ hDp.ne'
  have h1 : |E + d - F| ≤ 0.783 * (E - F) ^ 2 := by
    have e1 : (E + d - F) * D = U - kep ax ay E - D * (F - E) := by rw [add_sub_right_comm, add_mul, hdD]; ring
    have e2 : |E + d - F| * D ≤ 0.64 * 0.55 * (F - E) ^ 2 := by
      rw [← abs_of_pos hDp, ← abs_mul, e1]; exact ht
    nlinarith [abs_nonneg (E + d - F), sq_nonneg (E - F)]
  have hsq : (E - F) ^ 2 ≤ 0.55 ^ 2 := sq_le_sq' (by linarith [(abs_le.1 hE).1]) (abs_le.1 hE).2
  have h2 : |d| ≤ |E - F| + 0.783 * (E - F) ^ 2 := by
    have : d = -(E - F) + (E + d - F) := by ring
    calc |d| = |-(E - F) + (E + d - F)| := by rw [← this]
      _ ≤ |-(E - F)| + |E + d - F| := abs_add_le _ _
      _ ≤ _ := by rw [abs_neg]; linarith
  have h3 : |E - F| ≤ |d| + 0.783 * (E - F) ^ 2 := by
    have : E - F = -d + (E + d - F) := by ring
    calc |E - F| = |-d + (E + d - F)| := by rw [← this]
      _ ≤ |-d| + |E + d - F| := abs_add_le _ _
      _ ≤ _ := by rw [abs_neg]; linarith
  have hc : correction U ax ay E = d := by
    have e : correction U ax ay E = max (-0.95) (min 0.95 d) := rfl
    have h5 := abs_le.1 (show |d| ≤ 0.95 by nlinarith)
    rw [e, min_eq_right h5.2, max_eq_right h5.1]
  rw [hc]
  exact ⟨h1, h2, h3⟩

/-- Nine steps are enough. -/
theorem solved_close {U ax ay E : ℝ} (h : ax ^ 2 + ay ^ 2 ≤ 0.55 ^ 2) (hs : Solved U ax ay E) {F : ℝ} (hF : kep ax ay F = U) : |E - F| ≤ 1.001e-12 := by
  have h0 : |U - F| ≤ 0.55 := by
    have := (rot_le h (by norm_num) F).2
    rw [← hF]
    unfold kep
    rw [show F - ax * Real.sin F + ay * Real.cos F - F = -(ax * Real.sin F - ay * Real.cos F) by ring, abs_neg]
    exact this
  have step : ∀ (j : ℕ) (b : ℝ), b ≤ 0.55 → |(fun y => y + correction U ax ay y)^[j] U - F| ≤ b →
      |(fun y => y + correction U ax ay y)^[j + 1] U - F| ≤ 0.783 * b ^ 2 := fun j b hb hj => by
    rw [Function.iterate_succ_apply']
    refine (newton_step h hF (hj.trans hb)).1.trans ?_
    have := abs_le.1 hj
    have : ((fun y => y + correction U ax ay y)^[j] U - F) ^ 2 ≤ b ^ 2 := sq_le_sq' this.1 this.2
    linarith
  have s0 : |(fun y => y + correction U ax ay y)^[0] U - F| ≤ 0.55 := h0
  have s1 := (step 0 _ (le_refl _) s0).trans (show (0.783 * 0.55 ^ 2 : ℝ) ≤ 0.24 by norm_num)
  have s2 := (step 1 _ (by norm_num) s1).trans (show (0.783 * 0.24 ^ 2 : ℝ) ≤ 0.046 by norm_num)
  have s3 := (step 2 _ (by norm_num) s2).trans (show (0.783 * 0.046 ^ 2 : ℝ) ≤ 0.0017 by norm_num)
  have s4 := (step 3 _ (by norm_num) s3).trans (show (0.783 * 0.0017 ^ 2 : ℝ) ≤ 2.3e-6 by norm_num)
  have s5 := (step 4 _ (by norm_num) s4).trans (show (0.783 * 2.3e-6 ^ 2 : ℝ) ≤ 5e-12 by norm_num)
  have s6 := (step 5 _ (by norm_num) s5).trans (show (0.783 * 5e-12 ^ 2 : ℝ) ≤ 1e-12 by norm_num)
  have s7 := (step 6 _ (by norm_num) s6).trans (show (0.783 * 1e-12 ^ 2 : ℝ) ≤ 1e-12 by norm_num)
  have s8 := (step 7 _ (by norm_num) s7).trans (show (0.783 * 1e-12 ^ 2 : ℝ) ≤ 1e-12 by norm_num)
  have s9 := (step 8 _ (by norm_num) s8).trans (show (0.783 * 1e-12 ^ 2 : ℝ) ≤ 1e-12 by norm_num)
  obtain ⟨k, hk, rfl, hstop, _⟩ := hs
  rcases hstop with hc | rfl
  · have hb : |(fun y => y + correction U ax ay y)^[k] U - F| ≤ 0.55 := by
      rcases k with _ | _ | _ | _ | _ | _ | _ | _ | _ | _ | k
      · exact s0
      · exact s1.trans (by norm_num)
      · exact s2.trans (by norm_num)
      · exact s3.trans (by norm_num)
      · exact s4.trans (by norm_num)
      · exact s5.trans (by norm_num)
      · exact s6.trans (by norm_num)
      · exact s7.trans (by norm_num)
      · exact s8.trans (by norm_num)
      · exact s9.trans (by norm_num)
      · omega
    generalize (fun y => y + correction U ax ay y)^[k] U = E at *
    have h3 := (newton_step h hF hb).2.2
    rw [← sq_abs] at h3
    generalize |E - F| = d at *
    have hd0 : d ≤ 1.76e-12 := by nlinarith
    have : 0 ≤ d ∨ d < 0 := le_or_gt 0 d
    rcases this with h0 | h0
    · nlinarith
    · linarith
  · exact s9.trans (by norm_num)

end S2E.Sgp4.Report
