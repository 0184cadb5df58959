import Verif.Props.Integrator
import Verif.Props.LinAlg
import Mathlib.Analysis.InnerProductSpace.PiL2

/-! # C83: error estimate and step width control of the embedded methods -/

namespace S2E.Integ

open Asymptotics Filter Topology Finset S2E.Butcher

variable {n : ℕ}

theorem calcNorm_eq_norm (v : Vec n) : calcNorm v = ‖WithLp.toLp 2 v‖ := by
  rw [EuclideanSpace.norm_eq, calcNorm]
  simp [sq_abs]

theorem calcNorm_sub_le (a b c : Vec n) : |calcNorm (a - b) - calcNorm (a - c)| ≤ calcNorm (c - b) := by
  simp only [calcNorm_eq_norm, WithLp.toLp_sub]
  have := abs_norm_sub_norm_le (WithLp.toLp 2 a - WithLp.toLp 2 b) (WithLp.toLp 2 a - WithLp.toLp 2 c)
  simpa using this

theorem calcNorm_isBigO {g : ℝ → Vec n} {u : ℝ → ℝ} (h : g =O[𝓝 0] u) : (fun x => calcNorm (g x)) =O[𝓝 0] u := by
  have hL : (fun x => calcNorm (g x)) =O[𝓝 0] fun x => ‖g x‖ := by
    set L := (EuclideanSpace.equiv (Fin n) ℝ).symm
    refine isBigO_iff.2 ⟨‖(L : (Fin n → ℝ) →L[ℝ] EuclideanSpace ℝ (Fin n))‖, Eventually.of_forall fun x => ?_⟩
    have := (L : (Fin n → ℝ) →L[ℝ] EuclideanSpace ℝ (Fin n)).le_opNorm (g x)
    rw [calcNorm_eq_norm, norm_norm, norm_norm]
    exact this
  exact hL.trans h.norm_left

/-- The fourth-order solution of the embedded pair: the state plus the slopes combined with `weights_`. -/
noncomputable def lowerSolution (T : Tableau) (f : ℝ → Vec n → Vec n) (s : Integrator n) : Vec n :=
  s.current + s.stepWidth • ∑ i ∈ range T.stages,
    ((T.weights i : ℚ) : ℝ) • (slopes T f s.stepWidth s.time s.current T.stages).getD i 0

theorem error_eq (T : Tableau) (w : ℕ → ℚ) (f : ℝ → Vec n → Vec n) (s : Integrator n) :
    (integrateEmbedded T w f s).error =
      some (calcNorm (lowerSolution T f s - (integrateEmbedded T w f s).current)) := by
  rw [integrateEmbedded_current]
  simp only [integrateEmbedded, calcSlope, combine_eq, lowerSolution]

theorem estimate_order (T : Tableau) (hT : Explicit T) (w : ℕ → ℚ) (hw : HasOrder T.stages T.matrix w 5)
    (hl : HasOrder T.stages T.matrix T.weights 4) (F : ℝ → Vec n → Vec n) (t0 : ℝ) (x : ℝ → Vec n)
    (hF : ContDiffAt ℝ 5 (fun z : ℝ × Vec n => F z.1 z.2) (t0, x t0))
    (hx : ∀ᶠ t in 𝓝 t0, HasDerivAt x (F t (x t)) t)
    (s : ℝ → Integrator n) (hs : ∀ h, (s h).stepWidth = h ∧ (s h).time = t0 ∧ (s h).current = x t0) :
    ∃ e : ℝ → ℝ, (∀ h, (integrateEmbedded T w F (s h)).error = some (e h)) ∧ (∀ h, 0 ≤ e h) ∧
      (e =O[𝓝 0] fun h : ℝ => h ^ 5) ∧
      ((fun h => e h - calcNorm (lowerSolution T F (s h) - x (t0 + h))) =O[𝓝 0] fun h : ℝ => h ^ 6) := by
  have hhi := local_error_model (p := 5) T hT 1 (fun i => ((w i : ℚ) : ℝ)) (cast_order hw) F t0 x (by exact_mod_cast hF) hx
  have hlo := local_error_model (p := 4) T hT 1 (fun i => ((T.weights i : ℚ) : ℝ)) (cast_order hl) F t0 x
    ((by exact_mod_cast hF : ContDiffAt ℝ ((5 : ℕ) : WithTop ℕ∞) _ _).of_le (by norm_cast)) hx
  have hhi' : (fun h : ℝ => x (t0 + h) - (integrateEmbedded T w F (s h)).current) =O[𝓝 0] fun h : ℝ => h ^ 6 := by
    refine hhi.congr_left fun h => ?_
    obtain ⟨h1, h2, h3⟩ := hs h
    rw [integrateEmbedded_current, h1, h2, h3, one_mul]
  have hlo' : (fun h : ℝ => x (t0 + h) - lowerSolution T F (s h)) =O[𝓝 0] fun h : ℝ => h ^ 5 := by
    refine hlo.congr_left fun h => ?_
    obtain ⟨h1, h2, h3⟩ := hs h
    rw [lowerSolution, h1, h2, h3, one_mul]
  refine ⟨_, fun h => error_eq T w F (s h), fun h => ?_, ?_, ?_⟩
  · rw [calcNorm_eq_norm]; exact norm_nonneg _
  · refine calcNorm_isBigO ?_
    refine ((hhi'.trans (pow_isBigO_pow (by omega))).sub hlo').congr_left fun h => ?_
    abel
  · refine IsBigO.trans ?_ (calcNorm_isBigO hhi')
    refine IsBigO.of_norm_le fun h => ?_
    exact calcNorm_sub_le _ _ _

/-- Fehlberg: the reported error estimate is non-negative, is `O(h⁵)`, and differs from the true error of the fourth-order solution
(whose error it estimates) only by `O(h⁶)`. -/
theorem C83_rkf_estimate (F : ℝ → Vec n → Vec n) (t0 : ℝ) (x : ℝ → Vec n)
    (hF : ContDiffAt ℝ 5 (fun z : ℝ × Vec n => F z.1 z.2) (t0, x t0))
    (hx : ∀ᶠ t in 𝓝 t0, HasDerivAt x (F t (x t)) t)
    (s : ℝ → Integrator n) (hs : ∀ h, (s h).stepWidth = h ∧ (s h).time = t0 ∧ (s h).current = x t0) :
    ∃ e : ℝ → ℝ, (∀ h, (integrateEmbedded rkf rkfHigher F (s h)).error = some (e h)) ∧ (∀ h, 0 ≤ e h) ∧
      (e =O[𝓝 0] fun h : ℝ => h ^ 5) ∧
      ((fun h => e h - calcNorm (lowerSolution rkf F (s h) - x (t0 + h))) =O[𝓝 0] fun h : ℝ => h ^ 6) :=
  estimate_order rkf rkf_explicit rkfHigher rkf_order rkf_order_lower F t0 x hF hx s hs

/-- Dormand-Prince: the same. -/
theorem C83_dp5_estimate (F : ℝ → Vec n → Vec n) (t0 : ℝ) (x : ℝ → Vec n)
    (hF : ContDiffAt ℝ 5 (fun z : ℝ × Vec n => F z.1 z.2) (t0, x t0))
    (hx : ∀ᶠ t in 𝓝 t0, HasDerivAt x (F t (x t)) t)
    (s : ℝ → Integrator n) (hs : ∀ h, (s h).stepWidth = h ∧ (s h).time = t0 ∧ (s h).current = x t0) :
    ∃ e : ℝ → ℝ, (∀ h, (integrateEmbedded dp5 dp5Higher F (s h)).error = some (e h)) ∧ (∀ h, 0 ≤ e h) ∧
      (e =O[𝓝 0] fun h : ℝ => h ^ 5) ∧
      ((fun h => e h - calcNorm (lowerSolution dp5 F (s h) - x (t0 + h))) =O[𝓝 0] fun h : ℝ => h ^ 6) :=
  estimate_order dp5 dp5_explicit dp5Higher dp5_order dp5_order_lower F t0 x hF hx s hs

example (t0 : ℝ) : ∃ e : ℝ → ℝ, (∀ h, (integrateEmbedded rkf rkfHigher (fun _ x => ![x 1, -x 0])
      (setState (new rkf (fun _ x => ![x 1, -x 0]) h) t0 ![Real.sin t0, Real.cos t0])).error = some (e h)) ∧
      e =O[𝓝 0] fun h : ℝ => h ^ 5 := by
  obtain ⟨e, h1, -, h2, -⟩ := C83_rkf_estimate (fun _ x => ![x 1, -x 0]) t0 (fun t => ![Real.sin t, Real.cos t])
    (oscillator_meets t0 5).1 (oscillator_meets t0 5).2
    (fun h => setState (new rkf (fun _ x => ![x 1, -x 0]) h) t0 ![Real.sin t0, Real.cos t0]) fun h => ⟨rfl, rfl, rfl⟩
  exact ⟨e, h1, h2⟩

/-- What `ControlStepWidth` does, in every case: before the first `Integrate` it reads an uninitialised variable; with a zero estimate
or a negative tolerance the step width is no longer a finite number; with tolerance zero, or a step width that is not positive, nothing
changes; otherwise the new step width `h'` solves `e (h'/h)^(order + 1) = tol` and nothing else changes. -/
theorem C83_control (T : Tableau) (tol : ℝ) (s : Integrator n) :
    (s.error = none → controlStepWidth T tol s = .ub) ∧
    (∀ e, s.error = some e → 0 ≤ e →
      (e = 0 ∨ tol < 0 → controlStepWidth T tol s = .ok none) ∧
      (0 < e → tol = 0 ∨ (0 < tol ∧ s.stepWidth ≤ 0) → controlStepWidth T tol s = .ok (some s)) ∧
      (0 < e → 0 < tol → 0 < s.stepWidth → ∃ h', 0 < h' ∧ e * (h' / s.stepWidth) ^ (T.order + 1) = tol ∧
        controlStepWidth T tol s = .ok (some { s with stepWidth := h' }))) := by
  refine ⟨fun h => by simp only [controlStepWidth, h], fun e he he0 => ⟨?_, ?_, ?_⟩⟩
  · intro h
    simp only [controlStepWidth, he]
    rw [if_pos]
    rcases h with h | h
    · exact Or.inl h
    · rcases he0.eq_or_lt with h0 | h0
      · exact Or.inl h0.symm
      · exact Or.inr (div_neg_of_neg_of_pos h h0)
  · intro hpos h
    simp only [controlStepWidth, he]
    have h0 : ¬ (e = 0 ∨ tol / e < 0) := by
      rintro (h1 | h1)
      · exact hpos.ne' h1
      · have : 0 ≤ tol / e := div_nonneg (by rcases h with h | h; exacts [h.ge, h.1.le]) hpos.le
        linarith
    rw [if_neg h0, if_pos]
    rcases h with h | ⟨h1, h2⟩
    · rw [h, zero_div, Real.zero_rpow (by positivity), zero_mul]
    · exact mul_nonpos_of_nonneg_of_nonpos (Real.rpow_nonneg (div_nonneg h1.le hpos.le) _) h2
  · intro hpos htol hstep
    have hq : 0 < tol / e := div_pos htol hpos
    refine ⟨(tol / e) ^ (1 / ((T.order + 1 : ℕ) : ℝ)) * s.stepWidth, mul_pos (Real.rpow_pos_of_pos hq _) hstep, ?_, ?_⟩
    · rw [mul_div_assoc, div_self hstep.ne', mul_one, ← Real.rpow_natCast, ← Real.rpow_mul hq.le,
        one_div_mul_cancel (by positivity), Real.rpow_one]
      field_simp
    · simp only [controlStepWidth, he]
      rw [if_neg (by rintro (h | h); exacts [hpos.ne' h, absurd h (not_lt.2 hq.le)]),
        if_neg (not_le.2 (mul_pos (Real.rpow_pos_of_pos hq _) hstep))]

/-- The error estimate for `y' = t⁴ A` started at `t = 0`: exactly a multiple of `h⁵`. -/
theorem error_quartic (T : Tableau) (w : ℕ → ℚ) (A : Vec n) (s : Integrator n) (h0 : s.time = 0) (hpos : 0 < s.stepWidth) :
    (integrateEmbedded T w (fun t _ => t ^ 4 • A) s).error =
      some (|((∑ i ∈ range T.stages, (T.weights i - w i) * T.nodes i ^ 4 : ℚ) : ℝ)| * calcNorm A * s.stepWidth ^ 5) := by
  rw [error_eq, integrateEmbedded_current, lowerSolution]
  congr 1
  have hsl : ∀ i ∈ range T.stages, (slopes T (fun t _ => t ^ 4 • A) s.stepWidth s.time s.current T.stages).getD i 0 =
      (((T.nodes i : ℚ) : ℝ) * s.stepWidth) ^ 4 • A := fun i hi => by
    rw [slopes_eq _ _ _ _ _ (mem_range.1 hi), h0, zero_add]
  rw [add_sub_add_left_eq_sub, ← smul_sub, ← sum_sub_distrib, sum_congr rfl (fun i hi => by rw [hsl i hi])]
  have : s.stepWidth • ∑ i ∈ range T.stages, (((T.weights i : ℚ) : ℝ) • (((T.nodes i : ℚ) : ℝ) * s.stepWidth) ^ 4 • A -
      ((w i : ℚ) : ℝ) • (((T.nodes i : ℚ) : ℝ) * s.stepWidth) ^ 4 • A) =
      (((∑ i ∈ range T.stages, (T.weights i - w i) * T.nodes i ^ 4 : ℚ) : ℝ) * s.stepWidth ^ 5) • A := by
    simp only [smul_smul, ← sub_smul, ← sum_smul]
    congr 1
    push_cast
    rw [sum_mul, mul_sum]
    refine sum_congr rfl fun i _ => ?_
    ring
  rw [this, calcNorm_eq_norm, calcNorm_eq_norm, WithLp.toLp_smul, norm_smul, Real.norm_eq_abs, abs_mul,
    abs_of_pos (pow_pos hpos 5)]
  ring

/-- For `y' = t⁴ A` from `t = 0` the Fehlberg controller works exactly: after `Integrate` and `ControlStepWidth(tol)`, repeating the step
from the start has the estimated error `tol`. -/
theorem C83_rkf_controller_exact (A : Vec n) (hA : A ≠ 0) (tol : ℝ) (htol : 0 < tol) (s : Integrator n) (h0 : s.time = 0)
    (hpos : 0 < s.stepWidth) :
    ∃ s', controlStepWidth rkf tol (integrateEmbedded rkf rkfHigher (fun t _ => t ^ 4 • A) s) = .ok (some s') ∧
      (integrateEmbedded rkf rkfHigher (fun t _ => t ^ 4 • A) (setState s' 0 s.current)).error = some tol := by
  have hA' : 0 < calcNorm A := by
    rw [calcNorm_eq_norm]; exact norm_pos_iff.2 (by simpa using hA)
  have hk : ((∑ i ∈ range rkf.stages, (rkf.weights i - rkfHigher i) * rkf.nodes i ^ 4 : ℚ)) = -1 / 2080 := by decide +kernel
  have herr := error_quartic rkf rkfHigher A s h0 hpos
  rw [hk] at herr
  have he : 0 < |((-1 / 2080 : ℚ) : ℝ)| * calcNorm A * s.stepWidth ^ 5 := by
    have : ((-1 / 2080 : ℚ) : ℝ) ≠ 0 := by norm_num
    positivity
  have hb := C81_bookkeeping rkf rkfHigher (fun t _ => t ^ 4 • A) s
  obtain ⟨h', h'0, h1, h2⟩ := ((C83_control rkf tol (integrateEmbedded rkf rkfHigher (fun t _ => t ^ 4 • A) s)).2 _ herr he.le).2.2
    he htol (by rw [hb.2.2.2.2.2]; exact hpos)
  refine ⟨_, h2, ?_⟩
  rw [error_quartic _ _ _ _ rfl (by exact h'0), hk]
  simp only [setState]
  rw [hb.2.2.2.2.2] at h1
  rw [← h1, show rkf.order + 1 = 5 from rfl, div_pow]
  congr 1
  have := hpos.ne'
  field_simp

/-- The Dormand-Prince controller assumes an estimate of order `h⁶` although it is of order `h⁵`: for the same equation, asking for a
64th of the estimated error leaves an estimated error of twice the tolerance. -/
theorem C83_dp5_controller_misses (A : Vec n) (hA : A ≠ 0) (s : Integrator n) (h0 : s.time = 0) (hpos : 0 < s.stepWidth) :
    ∃ tol s', 0 < tol ∧ (integrateEmbedded dp5 dp5Higher (fun t _ => t ^ 4 • A) s).error = some (64 * tol) ∧
      controlStepWidth dp5 tol (integrateEmbedded dp5 dp5Higher (fun t _ => t ^ 4 • A) s) = .ok (some s') ∧
      (integrateEmbedded dp5 dp5Higher (fun t _ => t ^ 4 • A) (setState s' 0 s.current)).error = some (2 * tol) := by
  have hA' : 0 < calcNorm A := by
    rw [calcNorm_eq_norm]; exact norm_pos_iff.2 (by simpa using hA)
  have hk : ((∑ i ∈ range dp5.stages, (dp5.weights i - dp5Higher i) * dp5.nodes i ^ 4 : ℚ)) ≠ 0 := by decide +kernel
  have herr := error_quartic dp5 dp5Higher A s h0 hpos
  have hq := error_quartic dp5 dp5Higher A (n := n)
  generalize ((∑ i ∈ range dp5.stages, (dp5.weights i - dp5Higher i) * dp5.nodes i ^ 4 : ℚ)) = κ at *
  have he : 0 < |((κ : ℚ) : ℝ)| * calcNorm A * s.stepWidth ^ 5 := by
    have : ((κ : ℚ) : ℝ) ≠ 0 := by exact_mod_cast hk
    positivity
  have hb := C81_bookkeeping dp5 dp5Higher (fun t _ => t ^ 4 • A) s
  set e := |((κ : ℚ) : ℝ)| * calcNorm A * s.stepWidth ^ 5 with hedef
  obtain ⟨h', h'0, h1, h2⟩ := ((C83_control dp5 (e / 64) (integrateEmbedded dp5 dp5Higher (fun t _ => t ^ 4 • A) s)).2 _ herr he.le).2.2
    he (by positivity) (by rw [hb.2.2.2.2.2]; exact hpos)
  rw [hb.2.2.2.2.2] at h1
  have hhalf : h' = s.stepWidth / 2 := by
    have h3 : (h' / s.stepWidth) ^ 6 = (1 / 2) ^ 6 := by
      have : e * (h' / s.stepWidth) ^ 6 = e * (1 / 2) ^ 6 := by
        rw [show dp5.order + 1 = 6 from rfl] at h1
        rw [h1]; ring
      exact mul_left_cancel₀ he.ne' this
    have h4 : h' / s.stepWidth = 1 / 2 :=
      (pow_left_inj₀ (div_nonneg h'0.le hpos.le) (by norm_num) (by norm_num)).1 h3
    rw [div_eq_iff hpos.ne'] at h4
    rw [h4]; ring
  refine ⟨e / 64, _, by positivity, ?_, h2, ?_⟩
  · rw [herr]; congr 1; ring
  · rw [hq _ rfl (by exact h'0)]
    simp only [setState]
    rw [hhalf, hedef]
    congr 1
    ring

example : (integrateEmbedded rkf rkfHigher (fun t _ => t ^ 4 • (fun _ : Fin 1 => (1 : ℝ)))
    (new rkf (fun t _ => t ^ 4 • (fun _ : Fin 1 => (1 : ℝ))) 2)).time = 2 := by
  simp [integrateEmbedded, calcSlope, new]

end S2E.Integ
