import Verif.Proofs.OneStep
import Mathlib.Algebra.Order.BigOperators.Group.List
import Mathlib.Algebra.BigOperators.Group.List.Basic

/-! # Convergence of one-step methods with varying steps and an inexact start -/

namespace S2E.OneStep

open Asymptotics Filter Topology Finset

variable {E : Type*} [NormedAddCommGroup E] [NormedSpace ℝ E]

/-- One step after the other, over a list of step widths. -/
def runSteps (Ψ : ℝ × E × ℝ → E) (l : List ℝ) (z : ℝ × E) : ℝ × E :=
  l.foldl (fun z h => (z.1 + h, z.2 + h • Ψ (z.1, z.2, h))) z

theorem runSteps_fst (Ψ : ℝ × E × ℝ → E) (l : List ℝ) (z : ℝ × E) : (runSteps Ψ l z).1 = z.1 + l.sum := by
  induction l generalizing z with
  | nil => simp [runSteps]
  | cons h l ih =>
    have := ih (z.1 + h, z.2 + h • Ψ (z.1, z.2, h))
    simp only [runSteps, List.foldl_cons] at this ⊢
    rw [this, List.sum_cons]; ring

/-- Local error and Lipschitz constant, uniform along the solution. -/
theorem constants [FiniteDimensional ℝ E] {a b : ℝ} {p : ℕ} (Ψ : ℝ × E × ℝ → E) (x : ℝ → E)
    (hΨ : ∀ t ∈ Set.Icc a b, ContDiffAt ℝ (p + 1 : ℕ) Ψ (t, x t, 0))
    (hx : ∀ t ∈ Set.Icc a b, ContDiffAt ℝ (p + 1 : ℕ) x t)
    (hloc : ∀ t ∈ Set.Icc a b, (fun h : ℝ => x (t + h) - (x t + h • Ψ (t, x t, h))) =O[𝓝 0] fun h : ℝ => h ^ (p + 1)) :
    ∃ C1 L δ, 0 ≤ C1 ∧ 0 ≤ L ∧ 0 < δ ∧
      (∀ t ∈ Set.Icc a b, ∀ h : ℝ, |h| ≤ δ → ‖x (t + h) - (x t + h • Ψ (t, x t, h))‖ ≤ C1 * |h| ^ (p + 1)) ∧
      (∀ t ∈ Set.Icc a b, ∀ h : ℝ, |h| ≤ δ → ∀ y, ‖y - x t‖ ≤ δ → ‖Ψ (t, y, h) - Ψ (t, x t, h)‖ ≤ L * ‖y - x t‖) := by
  have : CompleteSpace E := FiniteDimensional.complete ℝ E
  have : ProperSpace E := FiniteDimensional.proper_real E
  obtain ⟨C1, δ1, hC1, hδ1, hloc1⟩ := uniform_local (a := a) (b := b) (p := p)
    (fun z : ℝ × ℝ => x (z.1 + z.2) - (x z.1 + z.2 • Ψ (z.1, x z.1, z.2))) (by
      intro t ht
      have h1 : ContDiffAt ℝ (p + 1 : ℕ) (fun z : ℝ × ℝ => x (z.1 + z.2)) (t, 0) := by
        have : ContDiffAt ℝ (p + 1 : ℕ) x ((fun z : ℝ × ℝ => z.1 + z.2) (t, 0)) := by simpa using hx t ht
        exact this.comp (t, (0 : ℝ)) (f := fun z : ℝ × ℝ => z.1 + z.2) (by fun_prop)
      have h2 : ContDiffAt ℝ (p + 1 : ℕ) (fun z : ℝ × ℝ => x z.1) (t, 0) :=
        (hx t ht).comp (t, (0 : ℝ)) (f := fun z : ℝ × ℝ => z.1) (by fun_prop)
      have h3 : ContDiffAt ℝ (p + 1 : ℕ) (fun z : ℝ × ℝ => Ψ (z.1, x z.1, z.2)) (t, 0) :=
        (hΨ t ht).comp (t, (0 : ℝ)) (f := fun z : ℝ × ℝ => (z.1, x z.1, z.2))
          (contDiffAt_fst.prodMk (h2.prodMk contDiffAt_snd))
      exact h1.sub (h2.add (contDiffAt_snd.smul h3))) hloc
  set S : Set (ℝ × E × ℝ) := (fun t => (t, x t, (0 : ℝ))) '' Set.Icc a b with hSdef
  have hxc : ContinuousOn x (Set.Icc a b) := fun t ht => (hx t ht).continuousAt.continuousWithinAt
  have hS : IsCompact S := isCompact_Icc.image_of_continuousOn (continuousOn_id.prodMk (hxc.prodMk continuousOn_const))
  obtain ⟨δ2, hδ2, htube⟩ := smooth_tube hS (G := Ψ) (m := p + 1) (by rintro _ ⟨t, ht, rfl⟩; exact hΨ t ht)
  have hcont : ContinuousOn (fun z => fderiv ℝ Ψ z) (Metric.cthickening δ2 S) := fun z hz =>
    ((htube z hz).continuousAt_fderiv (by norm_cast)).continuousWithinAt
  obtain ⟨L0, hL0⟩ := hS.cthickening.exists_bound_of_continuousOn hcont
  set L := max L0 0 with hL
  have hLnn : 0 ≤ L := le_max_right _ _
  refine ⟨C1, L, min δ1 δ2, hC1, hLnn, lt_min hδ1 hδ2, fun t ht h hh => hloc1 t ht h (hh.trans (min_le_left _ _)), ?_⟩
  intro t ht h hh y hy
  have hh := hh.trans (min_le_right _ _)
  have hy := hy.trans (min_le_right _ _)
  have hsub : Metric.closedBall (t, x t, (0 : ℝ)) δ2 ⊆ Metric.cthickening δ2 S :=
    Metric.closedBall_subset_cthickening (x := (t, x t, (0 : ℝ))) (E := S) (Set.mem_image_of_mem (fun t => (t, x t, (0 : ℝ))) ht) δ2
  have := (convex_closedBall (t, x t, (0 : ℝ)) δ2).norm_image_sub_le_of_norm_fderiv_le (𝕜 := ℝ) (f := Ψ) (C := L)
    (x := (t, x t, h)) (y := (t, y, h))
    (fun z hz => (htube z (hsub hz)).differentiableAt (by norm_cast))
    (fun z hz => (hL0 z (hsub hz)).trans (le_max_left _ _))
    (by simp [Metric.mem_closedBall, Prod.dist_eq, hh, hδ2.le])
    (by simp [Metric.mem_closedBall, Prod.dist_eq, hh, hδ2.le, dist_eq_norm, hy])
  refine this.trans (le_of_eq ?_)
  congr 1
  simp [Prod.norm_def]

/-- Convergence of order `p` for arbitrary lists of steps below `H`, from a start near the solution. -/
theorem converges_var [FiniteDimensional ℝ E] {a b : ℝ} (hab : a ≤ b) {p : ℕ} (hp : 1 ≤ p) (Ψ : ℝ × E × ℝ → E) (x : ℝ → E)
    (hΨ : ∀ t ∈ Set.Icc a b, ContDiffAt ℝ (p + 1 : ℕ) Ψ (t, x t, 0))
    (hx : ∀ t ∈ Set.Icc a b, ContDiffAt ℝ (p + 1 : ℕ) x t)
    (hloc : ∀ t ∈ Set.Icc a b, (fun h : ℝ => x (t + h) - (x t + h • Ψ (t, x t, h))) =O[𝓝 0] fun h : ℝ => h ^ (p + 1)) :
    ∃ C h0, 0 ≤ C ∧ 0 < h0 ∧ ∀ H, 0 < H → H ≤ h0 → ∀ l : List ℝ, (∀ h ∈ l, 0 ≤ h ∧ h ≤ H) → a + l.sum ≤ b →
      ∀ y, ‖y - x a‖ ≤ h0 → ‖(runSteps Ψ l (a, y)).2 - x (a + l.sum)‖ ≤ C * (‖y - x a‖ + H ^ p) := by
  obtain ⟨C1, L, δ, hC1, hL, hδ, hlocal, hlip⟩ := constants Ψ x hΨ hx hloc
  have hba : 0 ≤ b - a := sub_nonneg.2 hab
  set C := Real.exp (L * (b - a)) * (1 + C1 * (b - a)) with hC
  have hCnn : 0 ≤ C := by positivity
  set h0 := min (min δ 1) (δ / (2 * C + 1)) with hh0
  have hh0pos : 0 < h0 := lt_min (lt_min hδ one_pos) (by positivity)
  have h0δ : h0 ≤ δ := (min_le_left _ _).trans (min_le_left _ _)
  have h01 : h0 ≤ 1 := (min_le_left _ _).trans (min_le_right _ _)
  have h0C : C * (2 * h0) ≤ δ := by
    have : h0 * (2 * C + 1) ≤ δ := by rw [← le_div_iff₀ (by positivity)]; exact min_le_right _ _
    nlinarith
  refine ⟨C, h0, hCnn, hh0pos, fun H hH hle l => ?_⟩
  have hHp : H ^ p ≤ H := by
    calc H ^ p ≤ H ^ 1 := pow_le_pow_of_le_one hH.le (hle.trans h01) hp
      _ = H := pow_one H
  have hHpnn : 0 ≤ H ^ p := by positivity
  have hbound : ∀ s : ℝ, 0 ≤ s → a + s ≤ b → ∀ e : ℝ, 0 ≤ e → Real.exp (L * s) * (e + C1 * H ^ p * s) ≤ C * (e + H ^ p) := by
    intro s hs hsb e he
    have h1 : Real.exp (L * s) ≤ Real.exp (L * (b - a)) := Real.exp_le_exp.2 (by nlinarith)
    have h2 : e + C1 * H ^ p * s ≤ (1 + C1 * (b - a)) * (e + H ^ p) := by
      have h3 : C1 * H ^ p * s ≤ C1 * H ^ p * (b - a) := by gcongr; linarith
      have h4 : 0 ≤ C1 * (b - a) * e := by positivity
      nlinarith
    calc _ ≤ Real.exp (L * (b - a)) * ((1 + C1 * (b - a)) * (e + H ^ p)) := by gcongr
      _ = _ := by rw [hC]; ring
  have main : (∀ h ∈ l, 0 ≤ h ∧ h ≤ H) → a + l.sum ≤ b → ∀ y, ‖y - x a‖ ≤ h0 → 0 ≤ l.sum ∧
      ‖(runSteps Ψ l (a, y)).2 - x (a + l.sum)‖ ≤ Real.exp (L * l.sum) * (‖y - x a‖ + C1 * H ^ p * l.sum) := by
    induction l using List.reverseRecOn with
    | nil => intro _ _ y _; simp [runSteps]
    | append_singleton l h ih =>
      intro hl hsum y hy
      have hh := hl h (by simp)
      rw [List.sum_append, List.sum_singleton] at hsum ⊢
      obtain ⟨hs, ih⟩ := ih (fun u hu => hl u (by simp [hu])) (by linarith [hh.1]) y hy
      refine ⟨by linarith [hh.1], ?_⟩
      have hb : a + l.sum ≤ b := by linarith [hh.1]
      have ht : a + l.sum ∈ Set.Icc a b := ⟨by linarith, hb⟩
      set e := ‖y - x a‖ with he
      have he0 : 0 ≤ e := norm_nonneg _
      set w := (runSteps Ψ l (a, y)).2 with hw
      have hw1 : (runSteps Ψ l (a, y)).1 = a + l.sum := runSteps_fst Ψ l (a, y)
      have hnear : ‖w - x (a + l.sum)‖ ≤ δ := by
        refine ih.trans ((hbound _ hs hb e he0).trans ?_)
        refine le_trans ?_ h0C
        gcongr
        linarith
      have hstep : (runSteps Ψ (l ++ [h]) (a, y)).2 = w + h • Ψ (a + l.sum, w, h) := by
        rw [runSteps, List.foldl_append, List.foldl_cons, List.foldl_nil]
        change (runSteps Ψ l (a, y)).2 + h • Ψ ((runSteps Ψ l (a, y)).1, (runSteps Ψ l (a, y)).2, h) = _
        rw [hw1]
      have habs : |h| = h := abs_of_nonneg hh.1
      have hhδ : |h| ≤ δ := by rw [habs]; exact hh.2.trans (hle.trans h0δ)
      have l1 := hlocal _ ht h hhδ
      have l2 := hlip _ ht h hhδ w hnear
      rw [habs] at l1
      have e1 : (runSteps Ψ (l ++ [h]) (a, y)).2 - x (a + (l.sum + h)) = (w - x (a + l.sum)) +
          h • (Ψ (a + l.sum, w, h) - Ψ (a + l.sum, x (a + l.sum), h)) -
          (x (a + l.sum + h) - (x (a + l.sum) + h • Ψ (a + l.sum, x (a + l.sum), h))) := by
        rw [hstep, smul_sub, ← add_assoc]; abel
      set D := ‖w - x (a + l.sum)‖ with hD
      have step : ‖(runSteps Ψ (l ++ [h]) (a, y)).2 - x (a + (l.sum + h))‖ ≤ D + h * (L * D) + C1 * h ^ (p + 1) := by
        rw [e1]
        refine (norm_sub_le _ _).trans (add_le_add ((norm_add_le _ _).trans (add_le_add le_rfl ?_)) l1)
        rw [norm_smul, Real.norm_of_nonneg hh.1]
        exact mul_le_mul_of_nonneg_left l2 hh.1
      refine step.trans ?_
      have g0 : 1 + h * L ≤ Real.exp (h * L) := by linarith [Real.add_one_le_exp (h * L)]
      have g1 : D + h * (L * D) ≤ Real.exp (h * L) * (Real.exp (L * l.sum) * (e + C1 * H ^ p * l.sum)) := by
        have : D + h * (L * D) = (1 + h * L) * D := by ring
        rw [this]
        have hD0 : 0 ≤ D := norm_nonneg _
        have := hh.1
        gcongr
      have g2 : Real.exp (L * (l.sum + h)) = Real.exp (h * L) * Real.exp (L * l.sum) := by rw [← Real.exp_add]; congr 1; ring
      have g3 : C1 * h ^ (p + 1) ≤ C1 * H ^ p * h := by
        have : h ^ p ≤ H ^ p := pow_le_pow_left₀ hh.1 hh.2 p
        rw [pow_succ, ← mul_assoc]
        have := hh.1
        gcongr
      have g4 : (1 : ℝ) ≤ Real.exp (L * (l.sum + h)) := by
        rw [← Real.exp_zero]; exact Real.exp_le_exp.2 (mul_nonneg hL (by linarith [hh.1]))
      have g5 : C1 * H ^ p * h ≤ Real.exp (L * (l.sum + h)) * (C1 * H ^ p * h) :=
        le_mul_of_one_le_left (by have := hh.1; positivity) g4
      calc _ ≤ Real.exp (h * L) * (Real.exp (L * l.sum) * (e + C1 * H ^ p * l.sum)) + Real.exp (L * (l.sum + h)) * (C1 * H ^ p * h) :=
            add_le_add g1 (g3.trans g5)
        _ = Real.exp (L * (l.sum + h)) * (e + C1 * H ^ p * (l.sum + h)) := by rw [g2]; ring
  intro hl hsum y hy
  obtain ⟨hs, h1⟩ := main hl hsum y hy
  exact h1.trans (hbound _ hs hsum _ (norm_nonneg _))

end S2E.OneStep
