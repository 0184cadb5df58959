import Mathlib.Analysis.ODE.Gronwall
import Mathlib.Analysis.Calculus.ContDiff.RCLike
import Mathlib.Analysis.Calculus.MeanValue
import Mathlib.Tactic.Linarith
/-! # The linearised flow near an equilibrium is accurate to second order -/
namespace S2E.Linearization
open Set

variable {E : Type*} [NormedAddCommGroup E] [NormedSpace ℝ E]

/-- Second order Taylor bound. -/
theorem quadratic {F : E → E} (hF : ContDiffAt ℝ 2 F 0) :
    ∃ K r, 0 ≤ K ∧ 0 < r ∧ ∀ z, ‖z‖ < r → ‖F z - F 0 - fderiv ℝ F 0 z‖ ≤ K * ‖z‖ ^ 2 := by
  have h1 : ContDiffAt ℝ 1 (fderiv ℝ F) 0 := hF.fderiv_right (by norm_num)
  obtain ⟨K, s, hs, hL⟩ := h1.exists_lipschitzOnWith
  have h2 : ∀ᶠ z in nhds (0 : E), ContDiffAt ℝ 2 F z := hF.eventually (by simp)
  obtain ⟨r, hr, hball⟩ := Metric.mem_nhds_iff.mp (Filter.inter_mem hs h2)
  refine ⟨K, r, K.2, hr, fun z hz => ?_⟩
  have hsub : ∀ y, ‖y‖ ≤ ‖z‖ → y ∈ s ∧ ContDiffAt ℝ 2 F y := fun y hy => hball (by
    rw [Metric.mem_ball, dist_zero_right]; exact lt_of_le_of_lt hy hz)
  have h0 : (0 : E) ∈ s := (hsub 0 (by simp)).1
  have := (convex_closedBall (0 : E) ‖z‖).norm_image_sub_le_of_norm_hasFDerivWithin_le' (f := F) (f' := fderiv ℝ F) (φ := fderiv ℝ F 0)
    (C := K * ‖z‖) (x := 0) (y := z) (𝕜 := ℝ)
    (fun y hy => ((hsub y (by simpa using hy)).2.differentiableAt (by norm_num)).hasFDerivAt.hasFDerivWithinAt)
    (fun y hy => by
      have := hL.norm_sub_le (hsub y (by simpa using hy)).1 h0
      rw [sub_zero] at this
      exact this.trans (by have : ‖y‖ ≤ ‖z‖ := by simpa using hy
                           gcongr))
    (by simp) (by simp)
  rw [sub_zero] at this
  calc _ ≤ K * ‖z‖ * ‖z‖ := this
    _ = _ := by ring

/-- If `F` vanishes at zero and is twice continuously differentiable there, then over any time span the solution through a small initial
value differs from the solution of the linearised equation by at most a constant times the square of the initial value. -/
theorem linear_error {F : E → E} (hF : ContDiffAt ℝ 2 F 0) (h0 : F 0 = 0) (T : ℝ) (hT : 0 ≤ T) :
    ∃ C ε, 0 ≤ C ∧ 0 < ε ∧ ∀ y z : ℝ → E, (∀ t ∈ Icc 0 T, HasDerivAt y (F (y t)) t) →
      (∀ t ∈ Icc 0 T, HasDerivAt z (fderiv ℝ F 0 (z t)) t) → y 0 = z 0 → ‖y 0‖ ≤ ε → ∀ t ∈ Icc 0 T, ‖y t - z t‖ ≤ C * ‖y 0‖ ^ 2 := by
  obtain ⟨K, r₁, hK, hr₁, hquad⟩ := quadratic hF
  obtain ⟨L, s, hs, hL⟩ := (hF.of_le (by norm_num) : ContDiffAt ℝ 1 F 0).exists_lipschitzOnWith
  obtain ⟨r₂, hr₂, hball⟩ := Metric.mem_nhds_iff.mp hs
  set r := min r₁ r₂ with hr
  have hr0 : 0 < r := lt_min hr₁ hr₂
  set A := fderiv ℝ F 0 with hA
  set M := Real.exp (‖A‖ * T) with hM
  have hM1 : 0 < M := Real.exp_pos _
  set L' : ℝ := L + 1 with hL'
  have hL0 : 0 < L' := by have := L.2; rw [hL']; linarith [show (0:ℝ) ≤ L from L.2]
  set C := K * M ^ 2 / L' * Real.exp (L' * T) with hC
  have hC0 : 0 ≤ C := by positivity
  -- choose the neighbourhood
  set ε := min 1 (r / (2 * (M + C + 1))) with hε
  have hε0 : 0 < ε := lt_min one_pos (by positivity)
  have hεr : (M + C) * ε < r := by
    have : ε ≤ r / (2 * (M + C + 1)) := min_le_right _ _
    have h2 : (M + C + 1) * ε ≤ r / 2 := by
      calc (M + C + 1) * ε ≤ (M + C + 1) * (r / (2 * (M + C + 1))) := by gcongr
        _ = r / 2 := by field_simp
    nlinarith
  refine ⟨C, ε, hC0, hε0, fun y z hy hz hyz hsmall => ?_⟩
  have hycont : ContinuousOn y (Icc 0 T) := fun t ht => (hy t ht).continuousAt.continuousWithinAt
  have hzcont : ContinuousOn z (Icc 0 T) := fun t ht => (hz t ht).continuousAt.continuousWithinAt
  set e := ‖y 0‖ with he
  have he0 : 0 ≤ e := norm_nonneg _
  have hzb : ∀ t ∈ Icc 0 T, ‖z t‖ ≤ M * e := by
    intro t ht
    have := norm_le_gronwallBound_of_norm_deriv_right_le (f := z) (f' := fun t => A (z t)) (δ := e) (K := ‖A‖) (ε := 0) hzcont
      (fun x hx => (hz x ⟨hx.1, hx.2.le⟩).hasDerivWithinAt) (by rw [← hyz]) (fun x _ => by rw [add_zero]; exact A.le_opNorm _) t ht
    rw [gronwallBound_ε0, sub_zero] at this
    have h2 : Real.exp (‖A‖ * t) ≤ M := Real.exp_le_exp.mpr (by gcongr; exact ht.2)
    nlinarith
  have hzr : ∀ t ∈ Icc 0 T, ‖z t‖ < r := by
    intro t ht
    have h1 := hzb t ht
    nlinarith
  have key : ∀ τ, 0 ≤ τ → τ ≤ T → (∀ t, 0 ≤ t → t < τ → ‖y t‖ < r) → ∀ t ∈ Icc 0 τ, ‖y t - z t‖ ≤ C * e ^ 2 := by
    intro τ h0τ hτ hin t ht
    have hsubset : Icc 0 τ ⊆ Icc 0 T := Icc_subset_Icc_right hτ
    have := dist_le_of_approx_trajectories_ODE_of_mem (v := fun _ => F) (s := fun _ => s) (K := L + 1) (f := y) (g := z) (f' := fun t => F (y t))
      (g' := fun t => A (z t)) (εf := 0) (εg := K * (M * e) ^ 2) (δ := 0) (a := 0) (b := τ)
      (fun _ _ => hL.weaken (by simp)) (hycont.mono hsubset)
      (fun t ht => (hy t ⟨ht.1, ht.2.le.trans hτ⟩).hasDerivWithinAt) (fun t _ => by simp)
      (fun t ht => hball (by
        rw [Metric.mem_ball, dist_zero_right]; exact (hin t ht.1 ht.2).trans_le (min_le_right _ _)))
      (hzcont.mono hsubset) (fun t ht => (hz t ⟨ht.1, ht.2.le.trans hτ⟩).hasDerivWithinAt)
      (fun t ht => by
        have ht' : t ∈ Icc 0 T := ⟨ht.1, ht.2.le.trans hτ⟩
        have h1 := hquad (z t) ((hzr t ht').trans_le (min_le_left _ _))
        rw [h0, sub_zero] at h1
        rw [dist_comm, dist_eq_norm]
        refine h1.trans ?_
        have := hzb t ht'
        gcongr)
      (fun t ht => hball (by
        rw [Metric.mem_ball, dist_zero_right]; exact (hzr t ⟨ht.1, ht.2.le.trans hτ⟩).trans_le (min_le_right _ _)))
      (by rw [hyz, dist_self]) t ht
    rw [dist_eq_norm, sub_zero, zero_add] at this
    have hne : ((L + 1 : NNReal) : ℝ) ≠ 0 := by push_cast; exact hL0.ne'
    rw [gronwallBound_of_K_ne_0 hne] at this
    push_cast at this
    rw [zero_mul, zero_add] at this
    refine this.trans ?_
    have h3 : Real.exp (L' * t) ≤ Real.exp (L' * T) := Real.exp_le_exp.mpr (by gcongr; exact ht.2.trans hτ)
    calc K * (M * e) ^ 2 / L' * (Real.exp (L' * t) - 1) ≤ K * (M * e) ^ 2 / L' * Real.exp (L' * T) := by
          apply mul_le_mul_of_nonneg_left _ (by positivity); linarith
      _ = C * e ^ 2 := by rw [hC]; ring
  -- the solution does not leave the neighbourhood
  have hstay : ∀ t ∈ Icc 0 T, ‖y t‖ < r := by
    by_contra hcon
    push Not at hcon
    obtain ⟨t₁, ht₁, hout⟩ := hcon
    set S := {t | t ∈ Icc 0 T ∧ r ≤ ‖y t‖} with hS
    have hclosed : IsClosed S := by
      have : S = Icc 0 T ∩ (fun t => ‖y t‖) ⁻¹' Ici r := by ext t; simp [hS]
      rw [this]
      exact hycont.norm.preimage_isClosed_of_isClosed isClosed_Icc isClosed_Ici
    have hbdd : BddBelow S := ⟨0, fun t ht => ht.1.1⟩
    have hmem := hclosed.csInf_mem ⟨t₁, ht₁, hout⟩ hbdd
    set τ := sInf S
    have hin : ∀ t, 0 ≤ t → t < τ → ‖y t‖ < r := by
      intro t h1 h2
      by_contra h3
      push Not at h3
      exact absurd (csInf_le hbdd ⟨⟨h1, h2.le.trans hmem.1.2⟩, h3⟩) (not_le.mpr h2)
    have h4 := key τ hmem.1.1 hmem.1.2 hin τ ⟨hmem.1.1, le_rfl⟩
    have h5 := hzb τ hmem.1
    have h6 : ‖y τ‖ ≤ ‖y τ - z τ‖ + ‖z τ‖ := by
      have := norm_add_le (y τ - z τ) (z τ); rwa [sub_add_cancel] at this
    have h7 : e ≤ 1 := hsmall.trans (min_le_left _ _)
    have h8 : C * e ^ 2 ≤ C * ε := by
      have : e ^ 2 ≤ ε := by nlinarith
      gcongr
    have h9 : M * e ≤ M * ε := by gcongr
    have := hmem.2
    nlinarith
  intro t ht
  exact key T hT le_rfl (fun t h1 h2 => hstay t ⟨h1, h2.le⟩) t ht

end S2E.Linearization
