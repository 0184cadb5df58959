import Mathlib.Analysis.Calculus.TaylorIntegral
import Mathlib.Analysis.Calculus.MeanValue
import Mathlib.Analysis.Calculus.ContDiff.Basic
import Mathlib.Analysis.Calculus.ContDiff.Operations
import Mathlib.Analysis.Asymptotics.Lemmas
import Mathlib.Topology.MetricSpace.Thickening
import Mathlib.Analysis.Normed.Module.FiniteDimension
import Mathlib.Tactic.Ring
import Mathlib.Tactic.Linarith
import Verif.Proofs.Butcher

/-! # Convergence of one-step methods -/

namespace S2E.OneStep

open Asymptotics Filter Topology Finset

variable {E : Type*} [NormedAddCommGroup E] [NormedSpace ℝ E]

/-- A polynomial of degree at most `p` that is `O(h^(p+1))` is zero. -/
theorem poly_zero (p : ℕ) (c : ℕ → E) (h : (fun x : ℝ => ∑ k ∈ range (p + 1), x ^ k • c k) =O[𝓝 0] fun x : ℝ => x ^ (p + 1)) :
    ∀ k ≤ p, c k = 0 := by
  intro k
  induction k using Nat.strong_induction_on with
  | _ k ih =>
    intro hk
    have h1 : (fun x : ℝ => x ^ k • c k) =O[𝓝 0] fun x : ℝ => x ^ (k + 1) := by
      have hsplit : ∀ x : ℝ, x ^ k • c k = (∑ j ∈ range (p + 1), x ^ j • c j) -
          ∑ j ∈ (range (p + 1)).filter (k < ·), x ^ j • c j := by
        intro x
        rw [← sum_filter_add_sum_filter_not (range (p + 1)) (k < ·), add_sub_cancel_left]
        rw [sum_eq_single_of_mem k (by simp; omega)]
        intro j hj hne
        simp only [mem_filter, mem_range, not_lt] at hj
        rw [ih j (by omega) (by omega), smul_zero]
      simp only [hsplit]
      refine (h.trans (Butcher.pow_isBigO_pow (by omega))).sub (IsBigO.fun_sum fun j hj => ?_)
      simp only [mem_filter] at hj
      exact Butcher.smul_pow_isBigO (by omega) _
    obtain ⟨C, hC⟩ := h1.bound
    have hC' : ∀ᶠ x in 𝓝[≠] (0 : ℝ), ‖c k‖ ≤ C * ‖x‖ := by
      filter_upwards [hC.filter_mono nhdsWithin_le_nhds, self_mem_nhdsWithin] with x hx hx0
      rw [norm_smul, norm_pow, norm_pow, pow_succ, mul_comm (‖x‖ ^ k), mul_comm (‖x‖ ^ k), ← mul_assoc] at hx
      exact le_of_mul_le_mul_right hx (pow_pos (norm_pos_iff.2 hx0) k)
    have hlim : Tendsto (fun x : ℝ => C * ‖x‖) (𝓝[≠] 0) (𝓝 0) := by
      have : Tendsto (fun x : ℝ => C * ‖x‖) (𝓝 0) (𝓝 (C * ‖(0 : ℝ)‖)) := (continuous_const.mul continuous_norm).tendsto 0
      simp only [norm_zero, mul_zero] at this
      exact this.mono_left nhdsWithin_le_nhds
    exact norm_le_zero_iff.1 (ge_of_tendsto hlim hC')

/-- A `C^(p+1)` solution of a `C^p` equation. -/
theorem solution_smooth {F : ℝ → E → E} {x : ℝ → E} {t : ℝ} (m : ℕ)
    (hF : ContDiffAt ℝ m (fun z : ℝ × E => F z.1 z.2) (t, x t))
    (hx : ∀ᶠ s in 𝓝 t, HasDerivAt x (F s (x s)) s) : ContDiffAt ℝ m x t := by
  suffices h : ∀ k ≤ m, ContDiffAt ℝ k x t from h m le_rfl
  intro k
  induction k with
  | zero =>
    intro _
    have : ContDiffAt ℝ 0 x t := by
      rw [contDiffAt_zero]
      exact ⟨_, hx, fun s hs => (HasDerivAt.continuousAt hs).continuousWithinAt⟩
    exact_mod_cast this
  | succ k ih =>
    intro hk
    have h1 := ih (by omega)
    have : ContDiffAt ℝ ((k : WithTop ℕ∞) + 1) x t := by
      rw [contDiffAt_succ_iff_hasFDerivAt]
      refine ⟨fun s => ContinuousLinearMap.toSpanSingleton ℝ (F s (x s)), ⟨_, hx, fun s hs => ?_⟩, ?_⟩
      · exact HasDerivAt.hasFDerivAt hs
      · have h2 : ContDiffAt ℝ k (fun s => F s (x s)) t := by
          have hF' : ContDiffAt ℝ k (fun z : ℝ × E => F z.1 z.2) (t, x t) := hF.of_le (by exact_mod_cast (by omega))
          exact ContDiffAt.comp t (f := fun s => (s, x s)) hF' (contDiffAt_id.prodMk h1)
        exact (ContinuousLinearMap.toSpanSingletonCLE (𝕜 := ℝ) (E := E)).contDiff.contDiffAt.comp t h2
    exact_mod_cast this

/-- A closed neighbourhood of a compact set on which a function is still smooth. -/
theorem smooth_tube {X : Type*} [NormedAddCommGroup X] [NormedSpace ℝ X] {G : X → E} {S : Set X} (hS : IsCompact S)
    {m : ℕ} (hG : ∀ z ∈ S, ContDiffAt ℝ m G z) :
    ∃ δ > 0, ∀ z ∈ Metric.cthickening δ S, ContDiffAt ℝ m G z := by
  have hopen : IsOpen {z | ContDiffAt ℝ m G z} := by
    rw [isOpen_iff_eventually]
    intro z hz
    have hz' : ContDiffAt ℝ m G z := hz
    exact hz'.eventually (by exact_mod_cast ENat.natCast_ne_top m)
  obtain ⟨δ, hδ, h⟩ := hS.exists_cthickening_subset_open hopen hG
  exact ⟨δ, hδ, fun z hz => h hz⟩

/-- Pointwise consistency of order `p` is uniform along a compact piece of the solution. -/
theorem uniform_local [CompleteSpace E] {a b : ℝ} {p : ℕ} (G : ℝ × ℝ → E)
    (hG : ∀ t ∈ Set.Icc a b, ContDiffAt ℝ (p + 1 : ℕ) G (t, 0))
    (h0 : ∀ t ∈ Set.Icc a b, (fun h : ℝ => G (t, h)) =O[𝓝 0] fun h : ℝ => h ^ (p + 1)) :
    ∃ C δ, 0 ≤ C ∧ 0 < δ ∧ ∀ t ∈ Set.Icc a b, ∀ h : ℝ, |h| ≤ δ → ‖G (t, h)‖ ≤ C * |h| ^ (p + 1) := by
  set S : Set (ℝ × ℝ) := (fun t => (t, (0 : ℝ))) '' Set.Icc a b with hSdef
  have hS : IsCompact S := isCompact_Icc.image (by fun_prop)
  obtain ⟨δ, hδ, htube⟩ := smooth_tube hS (G := G) (m := p + 1) (by rintro _ ⟨t, ht, rfl⟩; exact hG t ht)
  have hcomp : IsCompact (Metric.cthickening δ S) := hS.cthickening
  have hcont : ContinuousOn (fun z => iteratedFDeriv ℝ (p + 1) G z) (Metric.cthickening δ S) := fun z hz =>
    ((htube z hz).continuousAt_iteratedFDeriv (by exact_mod_cast le_rfl)).continuousWithinAt
  obtain ⟨M, hM⟩ := hcomp.exists_bound_of_continuousOn hcont
  refine ⟨(p.factorial : ℝ)⁻¹ * max M 0, δ, by positivity, hδ, fun t ht h hh => ?_⟩
  have hmem : ∀ r ∈ Set.Icc (0 : ℝ) 1, ((t, (0 : ℝ)) + r • ((0 : ℝ), h)) ∈ Metric.cthickening δ S := by
    intro r hr
    refine Metric.mem_cthickening_of_dist_le _ (t, (0 : ℝ)) δ S ⟨t, ht, rfl⟩ ?_
    rw [dist_self_add_left, norm_smul, Real.norm_of_nonneg hr.1]
    have hn : ‖((0 : ℝ), h)‖ = |h| := by simp [Prod.norm_def]
    rw [hn]
    calc r * |h| ≤ 1 * |h| := by gcongr; exact hr.2
      _ ≤ δ := by rw [one_mul]; exact hh
  -- Taylor expansion at (t, 0) in the direction (0, 1), for every small step
  have taylor : ∀ u : ℝ, |u| ≤ δ → G (t, u) = (∑ k ∈ range (p + 1), u ^ k • ((k.factorial : ℝ)⁻¹ •
      iteratedFDeriv ℝ k G (t, 0) (fun _ => ((0 : ℝ), (1 : ℝ))))) +
      (p.factorial : ℝ)⁻¹ • ∫ r in (0 : ℝ)..1, (1 - r) ^ p •
        iteratedFDeriv ℝ (p + 1) G ((t, 0) + r • ((0 : ℝ), u)) (fun _ => ((0 : ℝ), u)) := by
    intro u hu
    have hmem' : ∀ r ∈ Set.Icc (0 : ℝ) 1, ((t, (0 : ℝ)) + r • ((0 : ℝ), u)) ∈ Metric.cthickening δ S := by
      intro r hr
      refine Metric.mem_cthickening_of_dist_le _ (t, (0 : ℝ)) δ S ⟨t, ht, rfl⟩ ?_
      rw [dist_self_add_left, norm_smul, Real.norm_of_nonneg hr.1]
      have hn : ‖((0 : ℝ), u)‖ = |u| := by simp [Prod.norm_def]
      rw [hn]
      calc r * |u| ≤ 1 * |u| := by gcongr; exact hr.2
        _ ≤ δ := by rw [one_mul]; exact hu
    have key := map_add_eq_sum_add_integral_iteratedFDeriv (f := G) (x := (t, (0 : ℝ))) (y := ((0 : ℝ), u)) (n := p)
      fun r hr => by exact_mod_cast htube _ (hmem' r hr)
    have e : (t, (0 : ℝ)) + ((0 : ℝ), u) = (t, u) := by simp
    rw [e] at key
    rw [key]
    congr 1
    refine sum_congr rfl fun k _ => ?_
    have e2 : (fun _ : Fin k => ((0 : ℝ), u)) = fun _ => u • ((0 : ℝ), (1 : ℝ)) := by simp
    rw [e2, ContinuousMultilinearMap.map_smul_univ (iteratedFDeriv ℝ k G (t, 0)) (fun _ => u) (fun _ => ((0 : ℝ), (1 : ℝ)))]
    rw [prod_const, card_univ, Fintype.card_fin, smul_comm]
  have rem : ∀ u : ℝ, |u| ≤ δ → ‖(p.factorial : ℝ)⁻¹ • ∫ r in (0 : ℝ)..1, (1 - r) ^ p •
        iteratedFDeriv ℝ (p + 1) G ((t, 0) + r • ((0 : ℝ), u)) (fun _ => ((0 : ℝ), u))‖ ≤
        (p.factorial : ℝ)⁻¹ * max M 0 * |u| ^ (p + 1) := by
    intro u hu
    have hmem' : ∀ r ∈ Set.Icc (0 : ℝ) 1, ((t, (0 : ℝ)) + r • ((0 : ℝ), u)) ∈ Metric.cthickening δ S := by
      intro r hr
      refine Metric.mem_cthickening_of_dist_le _ (t, (0 : ℝ)) δ S ⟨t, ht, rfl⟩ ?_
      rw [dist_self_add_left, norm_smul, Real.norm_of_nonneg hr.1]
      have hn : ‖((0 : ℝ), u)‖ = |u| := by simp [Prod.norm_def]
      rw [hn]
      calc r * |u| ≤ 1 * |u| := by gcongr; exact hr.2
        _ ≤ δ := by rw [one_mul]; exact hu
    have hI : ‖∫ r in (0 : ℝ)..1, (1 - r) ^ p •
        iteratedFDeriv ℝ (p + 1) G ((t, 0) + r • ((0 : ℝ), u)) (fun _ => ((0 : ℝ), u))‖ ≤ (max M 0 * |u| ^ (p + 1)) * |1 - 0| := by
      refine intervalIntegral.norm_integral_le_of_norm_le_const fun r hr => ?_
      rw [Set.uIoc_of_le zero_le_one] at hr
      have hr' : r ∈ Set.Icc (0 : ℝ) 1 := ⟨hr.1.le, hr.2⟩
      rw [norm_smul]
      have b1 : ‖(1 - r) ^ p‖ ≤ 1 := by
        rw [norm_pow, Real.norm_eq_abs, abs_of_nonneg (by linarith [hr.2])]
        exact pow_le_one₀ (by linarith [hr.2]) (by linarith [hr.1])
      have b2 : ‖iteratedFDeriv ℝ (p + 1) G ((t, 0) + r • ((0 : ℝ), u)) (fun _ => ((0 : ℝ), u))‖ ≤ max M 0 * |u| ^ (p + 1) := by
        refine (ContinuousMultilinearMap.le_opNorm _ _).trans ?_
        have hn : ‖((0 : ℝ), u)‖ = |u| := by simp [Prod.norm_def]
        simp only [prod_const, card_univ, Fintype.card_fin, hn]
        have := (hM _ (hmem' r hr')).trans (le_max_left M 0)
        gcongr
      calc _ ≤ 1 * (max M 0 * |u| ^ (p + 1)) := mul_le_mul b1 b2 (norm_nonneg _) zero_le_one
        _ = _ := one_mul _
    rw [sub_zero, abs_one, mul_one] at hI
    rw [norm_smul, Real.norm_of_nonneg (by positivity), mul_assoc]
    gcongr
  have hzero : ∀ k ≤ p, ((k.factorial : ℝ)⁻¹ • iteratedFDeriv ℝ k G (t, 0) (fun _ => ((0 : ℝ), (1 : ℝ)))) = 0 := by
    refine poly_zero p (fun k => (k.factorial : ℝ)⁻¹ • iteratedFDeriv ℝ k G (t, 0) (fun _ => ((0 : ℝ), (1 : ℝ)))) ?_
    have hsmall : ∀ᶠ u in 𝓝 (0 : ℝ), |u| ≤ δ := by
      filter_upwards [Metric.closedBall_mem_nhds (0 : ℝ) hδ] with u hu
      simpa using hu
    have hR : (fun u : ℝ => (p.factorial : ℝ)⁻¹ • ∫ r in (0 : ℝ)..1, (1 - r) ^ p •
        iteratedFDeriv ℝ (p + 1) G ((t, 0) + r • ((0 : ℝ), u)) (fun _ => ((0 : ℝ), u))) =O[𝓝 0] fun u : ℝ => u ^ (p + 1) := by
      refine isBigO_iff.2 ⟨(p.factorial : ℝ)⁻¹ * max M 0, hsmall.mono fun u hu => ?_⟩
      rw [norm_pow, Real.norm_eq_abs]
      exact rem u hu
    refine ((h0 t ht).sub hR).congr' (hsmall.mono fun u hu => ?_) EventuallyEq.rfl
    simp only [taylor u hu, add_sub_cancel_right]
  rw [taylor h hh, sum_eq_zero, zero_add]
  · exact rem h hh
  · intro k hk
    rw [hzero k (by have := mem_range.1 hk; omega), smul_zero]

/-- Convergence of order `p` of a one-step method whose increment function is smooth near the solution. -/
theorem converges [FiniteDimensional ℝ E] {a b : ℝ} (hab : a ≤ b) {p : ℕ} (hp : 1 ≤ p) (Ψ : ℝ × E × ℝ → E) (x : ℝ → E)
    (hΨ : ∀ t ∈ Set.Icc a b, ContDiffAt ℝ (p + 1 : ℕ) Ψ (t, x t, 0))
    (hx : ∀ t ∈ Set.Icc a b, ContDiffAt ℝ (p + 1 : ℕ) x t)
    (hloc : ∀ t ∈ Set.Icc a b, (fun h : ℝ => x (t + h) - (x t + h • Ψ (t, x t, h))) =O[𝓝 0] fun h : ℝ => h ^ (p + 1)) :
    ∃ C h0, 0 < h0 ∧ ∀ h, 0 < h → h ≤ h0 → ∀ y : ℕ → E, y 0 = x a →
      (∀ j : ℕ, y (j + 1) = y j + h • Ψ (a + j * h, y j, h)) →
      ∀ k : ℕ, a + k * h ≤ b → ‖y k - x (a + k * h)‖ ≤ C * h ^ p := by
  have : CompleteSpace E := FiniteDimensional.complete ℝ E
  have : ProperSpace E := FiniteDimensional.proper_real E
  -- uniform local error
  obtain ⟨C1, δ1, hC1, hδ1, hloc1⟩ := uniform_local (a := a) (b := b) (p := p)
    (fun z : ℝ × ℝ => x (z.1 + z.2) - (x z.1 + z.2 • Ψ (z.1, x z.1, z.2))) (by
      intro t ht
      have h1 : ContDiffAt ℝ (p + 1 : ℕ) (fun z : ℝ × ℝ => x (z.1 + z.2)) (t, 0) := by
        have : ContDiffAt ℝ (p + 1 : ℕ) x ((fun z : ℝ × ℝ => z.1 + z.2) (t, 0)) := by simpa using hx t ht
        exact this.comp (t, (0 : ℝ)) (f := fun z : ℝ × ℝ => z.1 + z.2) (by fun_prop)
      have h2 : ContDiffAt ℝ (p + 1 : ℕ) (fun z : ℝ × ℝ => x z.1) (t, 0) :=
        (hx t ht).comp (t, (0 : ℝ)) (f := fun z : ℝ × ℝ => z.1) (by fun_prop)
      have h3 : ContDiffAt ℝ (p + 1 : ℕ) (fun z : ℝ × ℝ => Ψ (z.1, x z.1, z.2)) (t, 0) :=
        (hΨ t ht).comp (t, (0 : ℝ)) (f := fun z : ℝ × ℝ => (z.1, x z.1, z.2))
          (contDiffAt_fst.prodMk (h2.prodMk contDiffAt_snd))
      exact h1.sub (h2.add (contDiffAt_snd.smul h3))) hloc
  -- uniform Lipschitz constant
  set S : Set (ℝ × E × ℝ) := (fun t => (t, x t, (0 : ℝ))) '' Set.Icc a b with hSdef
  have hxc : ContinuousOn x (Set.Icc a b) := fun t ht => (hx t ht).continuousAt.continuousWithinAt
  have hS : IsCompact S := isCompact_Icc.image_of_continuousOn (continuousOn_id.prodMk (hxc.prodMk continuousOn_const))
  obtain ⟨δ2, hδ2, htube⟩ := smooth_tube hS (G := Ψ) (m := p + 1) (by rintro _ ⟨t, ht, rfl⟩; exact hΨ t ht)
  have hcont : ContinuousOn (fun z => fderiv ℝ Ψ z) (Metric.cthickening δ2 S) := fun z hz =>
    ((htube z hz).continuousAt_fderiv (by norm_cast)).continuousWithinAt
  obtain ⟨L0, hL0⟩ := hS.cthickening.exists_bound_of_continuousOn hcont
  set L := max L0 0 with hL
  have hLnn : 0 ≤ L := le_max_right _ _
  have hlip : ∀ t ∈ Set.Icc a b, ∀ h : ℝ, |h| ≤ δ2 → ∀ y, ‖y - x t‖ ≤ δ2 →
      ‖Ψ (t, y, h) - Ψ (t, x t, h)‖ ≤ L * ‖y - x t‖ := by
    intro t ht h hh y hy
    have hsub : Metric.closedBall (t, x t, (0 : ℝ)) δ2 ⊆ Metric.cthickening δ2 S :=
      Metric.closedBall_subset_cthickening (x := (t, x t, (0 : ℝ))) (E := S) (Set.mem_image_of_mem (fun t => (t, x t, (0 : ℝ))) ht) δ2
    have := (convex_closedBall (t, x t, (0 : ℝ)) δ2).norm_image_sub_le_of_norm_fderiv_le (𝕜 := ℝ) (f := Ψ) (C := L)
      (x := (t, x t, h)) (y := (t, y, h))
      (fun z hz => (htube z (hsub hz)).differentiableAt (by norm_cast))
      (fun z hz => (hL0 z (hsub hz)).trans (le_max_left _ _))
      (by simp [Metric.mem_closedBall, Prod.dist_eq, hh, hδ2.le])
      (by simp [Metric.mem_closedBall, Prod.dist_eq, hh, hδ2.le, dist_eq_norm, hy])
    refine this.trans (le_of_eq ?_)
    congr 1
    simp [Prod.norm_def]
  -- the constant and the largest step
  set K := C1 * (b - a) * Real.exp (L * (b - a)) with hK
  have hKnn : 0 ≤ K := by have := sub_nonneg.2 hab; positivity
  set h0 := min (min δ1 δ2) (min 1 (δ2 / (K + 1))) with hh0
  have hh0pos : 0 < h0 := by
    refine lt_min (lt_min hδ1 hδ2) (lt_min one_pos (div_pos hδ2 (by linarith)))
  refine ⟨K, h0, hh0pos, fun h hpos hle y y0 hy k => ?_⟩
  have hd1 : h ≤ δ1 := hle.trans ((min_le_left _ _).trans (min_le_left _ _))
  have hd2 : h ≤ δ2 := hle.trans ((min_le_left _ _).trans (min_le_right _ _))
  have hd3 : h ≤ 1 := hle.trans ((min_le_right _ _).trans (min_le_left _ _))
  have hd4 : h ≤ δ2 / (K + 1) := hle.trans ((min_le_right _ _).trans (min_le_right _ _))
  have hbound : ∀ j : ℕ, a + j * h ≤ b → C1 * h ^ p * (j * h) * (1 + h * L) ^ j ≤ K * h ^ p := by
    intro j hj
    have e1 : (1 + h * L) ^ j ≤ Real.exp (L * (b - a)) := by
      have : 1 + h * L ≤ Real.exp (h * L) := by linarith [Real.add_one_le_exp (h * L)]
      calc (1 + h * L) ^ j ≤ Real.exp (h * L) ^ j := by
            gcongr
        _ = Real.exp (j * (h * L)) := by rw [← Real.exp_nat_mul]
        _ ≤ Real.exp (L * (b - a)) := by
            apply Real.exp_le_exp.2
            have : (j : ℝ) * h ≤ b - a := by linarith
            calc (j : ℝ) * (h * L) = (j * h) * L := by ring
              _ ≤ (b - a) * L := by gcongr
              _ = L * (b - a) := mul_comm _ _
    have e2 : (j : ℝ) * h ≤ b - a := by linarith
    calc C1 * h ^ p * (j * h) * (1 + h * L) ^ j ≤ C1 * h ^ p * (b - a) * Real.exp (L * (b - a)) := by gcongr
      _ = K * h ^ p := by rw [hK]; ring
  have hKδ : K * h ^ p ≤ δ2 := by
    have : h ^ p ≤ h := by
      calc h ^ p ≤ h ^ 1 := pow_le_pow_of_le_one hpos.le hd3 hp
        _ = h := pow_one h
    calc K * h ^ p ≤ (K + 1) * h := by
          have : K * h ^ p ≤ K * h := by gcongr
          nlinarith
      _ ≤ (K + 1) * (δ2 / (K + 1)) := by gcongr
      _ = δ2 := by field_simp
  have main : ∀ j : ℕ, a + j * h ≤ b → ‖y j - x (a + j * h)‖ ≤ C1 * h ^ p * (j * h) * (1 + h * L) ^ j := by
    intro j
    induction j with
    | zero => intro _; simp [y0]
    | succ j ih =>
      intro hj
      push_cast at hj
      have hj' : a + j * h ≤ b := by nlinarith
      have ih' := ih hj'
      have ht : a + j * h ∈ Set.Icc a b := ⟨by have : 0 ≤ (j : ℝ) * h := by positivity
                                               linarith, hj'⟩
      have hnear : ‖y j - x (a + j * h)‖ ≤ δ2 := ih'.trans ((hbound j hj').trans hKδ)
      have l1 := hloc1 _ ht h (by rw [abs_of_pos hpos]; exact hd1)
      have l2 := hlip _ ht h (by rw [abs_of_pos hpos]; exact hd2) (y j) hnear
      rw [abs_of_pos hpos] at l1
      simp only at l1
      have e : y (j + 1) - x (a + (j + 1 : ℕ) * h) = (y j - x (a + j * h)) +
          h • (Ψ (a + j * h, y j, h) - Ψ (a + j * h, x (a + j * h), h)) -
          (x (a + j * h + h) - (x (a + j * h) + h • Ψ (a + j * h, x (a + j * h), h))) := by
        rw [hy j, smul_sub]
        have : a + (j + 1 : ℕ) * h = a + j * h + h := by push_cast; ring
        rw [this]; abel
      set D := ‖y j - x (a + j * h)‖ with hD
      have step : ‖y (j + 1) - x (a + (j + 1 : ℕ) * h)‖ ≤ D + h * (L * D) + C1 * h ^ (p + 1) := by
        rw [e]
        refine (norm_sub_le _ _).trans (add_le_add ((norm_add_le _ _).trans (add_le_add le_rfl ?_)) l1)
        rw [norm_smul, Real.norm_of_nonneg hpos.le]
        gcongr
      refine step.trans ?_
      have g1 : 1 ≤ (1 + h * L) ^ (j + 1) := one_le_pow₀ (by nlinarith)
      have g2 : C1 * h ^ (p + 1) ≤ C1 * h ^ (p + 1) * (1 + h * L) ^ (j + 1) := le_mul_of_one_le_right (by positivity) g1
      have g3 : D + h * (L * D) ≤ (1 + h * L) * (C1 * h ^ p * (j * h) * (1 + h * L) ^ j) := by
        have : D + h * (L * D) = (1 + h * L) * D := by ring
        rw [this]
        gcongr
      calc D + h * (L * D) + C1 * h ^ (p + 1)
          ≤ (1 + h * L) * (C1 * h ^ p * (j * h) * (1 + h * L) ^ j) + C1 * h ^ (p + 1) * (1 + h * L) ^ (j + 1) := add_le_add g3 g2
        _ = C1 * h ^ p * ((j + 1 : ℕ) * h) * (1 + h * L) ^ (j + 1) := by push_cast; ring
  exact fun hk => (main k hk).trans (hbound k hk)

end S2E.OneStep
