import Verif.Props.Integrator
import Verif.Proofs.OneStep

/-! # C84: convergence of the integrators on a whole interval -/

namespace S2E.Integ

open Asymptotics Filter Topology Finset S2E.Butcher

variable {n : ℕ}

/-- The increment of a step with weights `w`. -/
noncomputable def increment (T : Tableau) (w : ℕ → ℚ) (F : ℝ → Vec n → Vec n) (z : ℝ × Vec n × ℝ) : Vec n :=
  ∑ i ∈ range T.stages, ((w i : ℚ) : ℝ) • (slopes T F z.2.2 z.1 z.2.1 T.stages).getD i 0

theorem slopes_smooth (T : Tableau) (F : ℝ → Vec n → Vec n) (t : ℝ) (y : Vec n) (m : ℕ)
    (hF : ContDiffAt ℝ m (fun z : ℝ × Vec n => F z.1 z.2) (t, y)) :
    ∀ i < T.stages, ContDiffAt ℝ m (fun z : ℝ × Vec n × ℝ => (slopes T F z.2.2 z.1 z.2.1 T.stages).getD i 0) (t, y, 0) := by
  intro i
  induction i using Nat.strong_induction_on with
  | _ i ih =>
    intro hi
    have e : (fun z : ℝ × Vec n × ℝ => (slopes T F z.2.2 z.1 z.2.1 T.stages).getD i 0) = fun z =>
        F (z.1 + ((T.nodes i : ℚ) : ℝ) * z.2.2) (z.2.1 + ∑ j ∈ range i, (((T.matrix i j : ℚ) : ℝ) * z.2.2) •
          (slopes T F z.2.2 z.1 z.2.1 T.stages).getD j 0) := by
      funext z; exact slopes_eq T F z.2.2 z.1 z.2.1 hi
    rw [e]
    have h1 : ContDiffAt ℝ m (fun z : ℝ × Vec n × ℝ => z.1 + ((T.nodes i : ℚ) : ℝ) * z.2.2) (t, y, 0) := by fun_prop
    have h2 : ContDiffAt ℝ m (fun z : ℝ × Vec n × ℝ => z.2.1 + ∑ j ∈ range i, (((T.matrix i j : ℚ) : ℝ) * z.2.2) •
        (slopes T F z.2.2 z.1 z.2.1 T.stages).getD j 0) (t, y, 0) := by
      have h3 : ContDiffAt ℝ m (fun z : ℝ × Vec n × ℝ => z.2.1) (t, y, 0) := by fun_prop
      refine h3.add (ContDiffAt.sum fun j hj => ?_)
      have hj' := mem_range.1 hj
      have h4 : ContDiffAt ℝ m (fun z : ℝ × Vec n × ℝ => ((T.matrix i j : ℚ) : ℝ) * z.2.2) (t, y, 0) := by fun_prop
      exact h4.smul (ih j hj' (hj'.trans hi))
    have hF' : ContDiffAt ℝ m (fun z : ℝ × Vec n => F z.1 z.2)
        ((fun z : ℝ × Vec n × ℝ => (z.1 + ((T.nodes i : ℚ) : ℝ) * z.2.2, z.2.1 + ∑ j ∈ range i,
          (((T.matrix i j : ℚ) : ℝ) * z.2.2) • (slopes T F z.2.2 z.1 z.2.1 T.stages).getD j 0)) (t, y, 0)) := by
      simpa using hF
    exact hF'.comp (t, y, (0 : ℝ)) (h1.prodMk h2)

theorem increment_smooth (T : Tableau) (w : ℕ → ℚ) (F : ℝ → Vec n → Vec n) (t : ℝ) (y : Vec n) (m : ℕ)
    (hF : ContDiffAt ℝ m (fun z : ℝ × Vec n => F z.1 z.2) (t, y)) :
    ContDiffAt ℝ m (increment T w F) (t, y, 0) := by
  refine ContDiffAt.sum fun i hi => ?_
  exact (slopes_smooth T F t y m hF i (mem_range.1 hi)).const_smul _

/-- Convergence of a method of order `p` started on the solution, for any sequence of states produced by its step. -/
theorem method_converges (T : Tableau) (hT : Explicit T) (w : ℕ → ℚ) {p : ℕ} (hp : 1 ≤ p) (hw : HasOrder T.stages T.matrix w p)
    (F : ℝ → Vec n → Vec n) (x : ℝ → Vec n) {a b : ℝ} (hab : a ≤ b)
    (hF : ∀ t ∈ Set.Icc a b, ContDiffAt ℝ (p + 1 : ℕ) (fun z : ℝ × Vec n => F z.1 z.2) (t, x t))
    (hx : ∀ t ∈ Set.Icc a b, ∀ᶠ s in 𝓝 t, HasDerivAt x (F s (x s)) s) :
    ∃ C h0, 0 < h0 ∧ ∀ h, 0 < h → h ≤ h0 → ∀ y : ℕ → Vec n, y 0 = x a →
      (∀ j : ℕ, y (j + 1) = y j + h • increment T w F (a + j * h, y j, h)) →
      ∀ k : ℕ, a + k * h ≤ b → ‖y k - x (a + k * h)‖ ≤ C * h ^ p := by
  refine OneStep.converges hab hp (increment T w F) x (fun t ht => increment_smooth T w F t (x t) _ (hF t ht))
    (fun t ht => OneStep.solution_smooth _ (hF t ht) (hx t ht)) fun t ht => ?_
  have := local_error_model (p := p) T hT 1 (fun i => ((w i : ℚ) : ℝ)) (cast_order hw) F t x
    ((hF t ht).of_le (by exact_mod_cast Nat.le_succ p)) (hx t ht)
  simpa [increment] using this

/-- `RungeKutta4` converges with order 4: if `x` solves the equation on `[a, b]` and the right-hand side is `C⁵` along it, then after any
number of steps of any sufficiently small width `h` every component of the state is within `C h⁴` of the solution at the integrator's
time, as long as that time is in `[a, b]`. The right-hand side need not be defined smoothly, or be Lipschitz, away from the solution. -/
theorem C84_rk4_converges (F : ℝ → Vec n → Vec n) (x : ℝ → Vec n) {a b : ℝ} (hab : a ≤ b)
    (hF : ∀ t ∈ Set.Icc a b, ContDiffAt ℝ 5 (fun z : ℝ × Vec n => F z.1 z.2) (t, x t))
    (hx : ∀ t ∈ Set.Icc a b, ∀ᶠ s in 𝓝 t, HasDerivAt x (F s (x s)) s) :
    ∃ C h0, 0 < h0 ∧ ∀ s : Integrator n, 0 < s.stepWidth → s.stepWidth ≤ h0 → s.time = a → s.current = x a →
      ∀ k : ℕ, ((integrate rk4 F)^[k] s).time ≤ b →
        ∀ i, |((integrate rk4 F)^[k] s).current i - x ((integrate rk4 F)^[k] s).time i| ≤ C * s.stepWidth ^ 4 := by
  obtain ⟨C, h0, hpos, H⟩ := method_converges rk4 rk4_explicit rk4.weights (p := 4) (by omega) rk4_order F x hab
    (fun t ht => by exact_mod_cast hF t ht) hx
  refine ⟨C, h0, hpos, fun s hs1 hs2 hs3 hs4 k hk i => ?_⟩
  have ht := fun k => C81_time_after rk4 rk4.weights F s k
  have := H s.stepWidth hs1 hs2 (fun j => ((integrate rk4 F)^[j] s).current) hs4 (fun j => by
    simp only [Function.iterate_succ', Function.comp]
    rw [integrate_current, (ht j).1, (ht j).2.1, hs3]; rfl) k (by rw [← hs3, ← (ht k).1]; exact hk)
  rw [← hs3, ← (ht k).1] at this
  exact (norm_le_pi_norm (((integrate rk4 F)^[k] s).current - x ((integrate rk4 F)^[k] s).time) i).trans this

theorem embedded_converges (T : Tableau) (hT : Explicit T) (w : ℕ → ℚ) (hw : HasOrder T.stages T.matrix w 5)
    (F : ℝ → Vec n → Vec n) (x : ℝ → Vec n) {a b : ℝ} (hab : a ≤ b)
    (hF : ∀ t ∈ Set.Icc a b, ContDiffAt ℝ 6 (fun z : ℝ × Vec n => F z.1 z.2) (t, x t))
    (hx : ∀ t ∈ Set.Icc a b, ∀ᶠ s in 𝓝 t, HasDerivAt x (F s (x s)) s) :
    ∃ C h0, 0 < h0 ∧ ∀ s : Integrator n, 0 < s.stepWidth → s.stepWidth ≤ h0 → s.time = a → s.current = x a →
      ∀ k : ℕ, ((integrateEmbedded T w F)^[k] s).time ≤ b →
        ∀ i, |((integrateEmbedded T w F)^[k] s).current i - x ((integrateEmbedded T w F)^[k] s).time i|
          ≤ C * s.stepWidth ^ 5 := by
  obtain ⟨C, h0, hpos, H⟩ := method_converges T hT w (p := 5) (by omega) hw F x hab
    (fun t ht => by exact_mod_cast hF t ht) hx
  refine ⟨C, h0, hpos, fun s hs1 hs2 hs3 hs4 k hk i => ?_⟩
  have ht := fun k => C81_time_after T w F s k
  have := H s.stepWidth hs1 hs2 (fun j => ((integrateEmbedded T w F)^[j] s).current) hs4 (fun j => by
    simp only [Function.iterate_succ', Function.comp]
    rw [integrateEmbedded_current, (ht j).2.2.1, (ht j).2.2.2, hs3]; rfl) k (by rw [← hs3, ← (ht k).2.2.1]; exact hk)
  rw [← hs3, ← (ht k).2.2.1] at this
  exact (norm_le_pi_norm (((integrateEmbedded T w F)^[k] s).current - x ((integrateEmbedded T w F)^[k] s).time) i).trans this

/-- `RungeKuttaFehlberg` with constant step width converges with order 5. -/
theorem C84_rkf_converges (F : ℝ → Vec n → Vec n) (x : ℝ → Vec n) {a b : ℝ} (hab : a ≤ b)
    (hF : ∀ t ∈ Set.Icc a b, ContDiffAt ℝ 6 (fun z : ℝ × Vec n => F z.1 z.2) (t, x t))
    (hx : ∀ t ∈ Set.Icc a b, ∀ᶠ s in 𝓝 t, HasDerivAt x (F s (x s)) s) :
    ∃ C h0, 0 < h0 ∧ ∀ s : Integrator n, 0 < s.stepWidth → s.stepWidth ≤ h0 → s.time = a → s.current = x a →
      ∀ k : ℕ, ((integrateEmbedded rkf rkfHigher F)^[k] s).time ≤ b →
        ∀ i, |((integrateEmbedded rkf rkfHigher F)^[k] s).current i - x ((integrateEmbedded rkf rkfHigher F)^[k] s).time i|
          ≤ C * s.stepWidth ^ 5 :=
  embedded_converges rkf rkf_explicit rkfHigher rkf_order F x hab hF hx

/-- `DormandPrince5` with constant step width converges with order 5. -/
theorem C84_dp5_converges (F : ℝ → Vec n → Vec n) (x : ℝ → Vec n) {a b : ℝ} (hab : a ≤ b)
    (hF : ∀ t ∈ Set.Icc a b, ContDiffAt ℝ 6 (fun z : ℝ × Vec n => F z.1 z.2) (t, x t))
    (hx : ∀ t ∈ Set.Icc a b, ∀ᶠ s in 𝓝 t, HasDerivAt x (F s (x s)) s) :
    ∃ C h0, 0 < h0 ∧ ∀ s : Integrator n, 0 < s.stepWidth → s.stepWidth ≤ h0 → s.time = a → s.current = x a →
      ∀ k : ℕ, ((integrateEmbedded dp5 dp5Higher F)^[k] s).time ≤ b →
        ∀ i, |((integrateEmbedded dp5 dp5Higher F)^[k] s).current i - x ((integrateEmbedded dp5 dp5Higher F)^[k] s).time i|
          ≤ C * s.stepWidth ^ 5 :=
  embedded_converges dp5 dp5_explicit dp5Higher dp5_order F x hab hF hx

/-- The orbit and attitude propagators' own `OrdinaryDifferentialEquation::Update` converges with order 4. -/
theorem C84_ode_converges (F : ℝ → Vec n → Vec n) (x : ℝ → Vec n) {a b : ℝ} (hab : a ≤ b)
    (hF : ∀ t ∈ Set.Icc a b, ContDiffAt ℝ 5 (fun z : ℝ × Vec n => F z.1 z.2) (t, x t))
    (hx : ∀ t ∈ Set.Icc a b, ∀ᶠ s in 𝓝 t, HasDerivAt x (F s (x s)) s) :
    ∃ C h0, 0 < h0 ∧ ∀ h, 0 < h → h ≤ h0 → ∀ k : ℕ,
      let z := (fun z : ℝ × Vec n => odeUpdate F h z.1 z.2)^[k] (a, x a)
      z.1 ≤ b → ∀ i, |z.2 i - x z.1 i| ≤ C * h ^ 4 := by
  obtain ⟨C, h0, hpos, H⟩ := C84_rk4_converges F x hab hF hx
  refine ⟨C, h0, hpos, fun h h1 h2 k => ?_⟩
  set s : Integrator n := setState (new rk4 F h) a (x a) with hs
  have hw : s.stepWidth = h := rfl
  have e : ∀ k : ℕ, (fun z : ℝ × Vec n => odeUpdate F h z.1 z.2)^[k] (a, x a) =
      (((integrate rk4 F)^[k] s).time, ((integrate rk4 F)^[k] s).current) := by
    intro k
    induction k with
    | zero => rfl
    | succ k ih =>
      simp only [Function.iterate_succ', Function.comp] at ih ⊢
      rw [ih, ← C81_ode_update, (C81_time_after rk4 rk4.weights F s k).2.1, hw]
  intro z hz i
  have := H s (by rw [hw]; exact h1) (by rw [hw]; exact h2) rfl rfl k (by simpa only [z, e k] using hz) i
  simpa only [z, e k, hw] using this

/-- Non-vacuity: the oscillator over any interval, whose solution never leaves the circle. -/
example (T : ℝ) (hT : 0 ≤ T) : ∃ C h0, 0 < h0 ∧ ∀ s : Integrator 2, 0 < s.stepWidth → s.stepWidth ≤ h0 → s.time = 0 →
    s.current = ![Real.sin 0, Real.cos 0] → ∀ k : ℕ, ((integrate rk4 (fun _ x => ![x 1, -x 0]))^[k] s).time ≤ T →
      ∀ i, |((integrate rk4 (fun _ x => ![x 1, -x 0]))^[k] s).current i -
        (![Real.sin ((integrate rk4 (fun _ x => ![x 1, -x 0]))^[k] s).time,
           Real.cos ((integrate rk4 (fun _ x => ![x 1, -x 0]))^[k] s).time] : Vec 2) i| ≤ C * s.stepWidth ^ 4 :=
  C84_rk4_converges (fun _ x => ![x 1, -x 0]) (fun t => ![Real.sin t, Real.cos t]) hT
    (fun t _ => (oscillator_meets t 5).1) fun t _ => (oscillator_meets t 5).2

end S2E.Integ
