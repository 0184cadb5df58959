import Verif.Model.Integrator
import Verif.Proofs.OrderTable
import Mathlib.Analysis.Calculus.Deriv.Prod
import Mathlib.Analysis.Calculus.Deriv.Pi
import Mathlib.Analysis.Calculus.ContDiff.Basic
import Mathlib.Analysis.Calculus.ContDiff.Operations
import Mathlib.Analysis.SpecialFunctions.Trigonometric.Deriv
import Mathlib.Tactic.NormNum
import Mathlib.Tactic.Linarith

/-! # C81-C83: the Runge-Kutta integrators -/

namespace S2E.Integ

open Asymptotics Filter Topology Finset S2E.Butcher

variable {n : ℕ}

/-! ## The loops as sums -/

theorem foldl_add {V : Type*} [AddCommMonoid V] (g : ℕ → V) (x : V) (m : ℕ) :
    (List.range m).foldl (fun s j => s + g j) x = x + ∑ j ∈ range m, g j := by
  induction m with
  | zero => simp
  | succ m ih => rw [List.range_succ, List.foldl_append, ih, sum_range_succ]; simp [add_assoc]

theorem slopes_succ (T : Tableau) (f : ℝ → Vec n → Vec n) (h t : ℝ) (x : Vec n) (m : ℕ) :
    slopes T f h t x (m + 1) = slopes T f h t x m ++
      [f (t + ((T.nodes m : ℚ) : ℝ) * h) (stageState T h x (slopes T f h t x m) m)] := by
  simp [slopes, List.range_succ]

theorem slopes_length (T : Tableau) (f : ℝ → Vec n → Vec n) (h t : ℝ) (x : Vec n) (m : ℕ) :
    (slopes T f h t x m).length = m := by
  induction m with
  | zero => rfl
  | succ m ih => simp [slopes_succ, ih]

theorem slopes_getD (T : Tableau) (f : ℝ → Vec n → Vec n) (h t : ℝ) (x : Vec n) {m k : ℕ} (hk : k < m) :
    (slopes T f h t x m).getD k 0 = (slopes T f h t x (k + 1)).getD k 0 := by
  induction m with
  | zero => omega
  | succ m ih =>
    rcases Nat.lt_or_ge k m with hlt | hge
    · rw [← ih hlt, slopes_succ]
      have : k < (slopes T f h t x m).length := by rw [slopes_length]; exact hlt
      simp [List.getD_eq_getElem?_getD, List.getElem?_append_left this]
    · obtain rfl : k = m := by omega
      rfl

/-- Every slope is the right-hand side at its node, at the state built from the slopes before it. -/
theorem slopes_eq (T : Tableau) (f : ℝ → Vec n → Vec n) (h t : ℝ) (x : Vec n) {m i : ℕ} (hi : i < m) :
    (slopes T f h t x m).getD i 0 = f (t + ((T.nodes i : ℚ) : ℝ) * h)
      (x + ∑ j ∈ range i, (((T.matrix i j : ℚ) : ℝ) * h) • (slopes T f h t x m).getD j 0) := by
  rw [slopes_getD T f h t x hi, slopes_succ]
  have e : (slopes T f h t x i ++ [f (t + ((T.nodes i : ℚ) : ℝ) * h)
      (stageState T h x (slopes T f h t x i) i)]).getD i 0 =
      f (t + ((T.nodes i : ℚ) : ℝ) * h) (stageState T h x (slopes T f h t x i) i) := by
    simp [List.getD_eq_getElem?_getD, slopes_length]
  rw [e, stageState, foldl_add]
  congr 2
  refine sum_congr rfl fun j hj => ?_
  have hj' := mem_range.1 hj
  rw [slopes_getD T f h t x hj', slopes_getD T f h t x (hj'.trans hi)]

theorem combine_eq (w : ℕ → ℚ) (h : ℝ) (x : Vec n) (ks : List (Vec n)) (m : ℕ) :
    combine w h x ks m = x + h • ∑ i ∈ range m, ((w i : ℚ) : ℝ) • ks.getD i 0 := by
  rw [combine, foldl_add, smul_sum]
  congr 1
  refine sum_congr rfl fun i _ => ?_
  rw [smul_smul, mul_comm]

/-! ## The tableaux -/

/-- Stage `i` of an explicit method uses only earlier slopes, and its node is the sum of its row. -/
structure Explicit (T : Tableau) : Prop where
  lower : ∀ i j, i ≤ j → T.matrix i j = 0
  row : ∀ i < T.stages, ∑ j ∈ range T.stages, T.matrix i j = T.nodes i

theorem rk4_explicit : Explicit rk4 where
  lower i j h := by
    simp only [rk4]; split <;> first | omega | rfl
  row := by decide +kernel

theorem rkf_explicit : Explicit rkf where
  lower i j h := by
    simp only [rkf]; split <;> first | omega | rfl
  row := by decide +kernel

theorem dp5_explicit : Explicit dp5 where
  lower i j h := by
    simp only [dp5]; split <;> first | omega | rfl
  row := by decide +kernel

theorem rk4_order : HasOrder rk4.stages rk4.matrix rk4.weights 4 := hasOrder_of_check (by decide +kernel)
theorem rkf_order : HasOrder rkf.stages rkf.matrix rkfHigher 5 := hasOrder_of_check (by decide +kernel)
theorem rkf_order_lower : HasOrder rkf.stages rkf.matrix rkf.weights 4 := hasOrder_of_check (by decide +kernel)
theorem dp5_order : HasOrder dp5.stages dp5.matrix dp5Higher 5 := hasOrder_of_check (by decide +kernel)
theorem dp5_order_lower : HasOrder dp5.stages dp5.matrix dp5.weights 4 := hasOrder_of_check (by decide +kernel)

/-! ## From the time dependent equation to Butcher's theorem -/

/-- Local error of any combination of the slopes of an explicit method, for a time dependent equation. -/
theorem local_error_model (T : Tableau) (hT : Explicit T) {p : ℕ} (σ : ℝ) (β : ℕ → ℝ)
    (hord : ∀ τ : Tree, τ.size ≤ p →
      ∑ i ∈ range T.stages, β i * (τ.weight T.stages T.matrix i : ℝ) = σ ^ τ.size / (τ.density : ℝ))
    (F : ℝ → Vec n → Vec n) (t0 : ℝ) (x : ℝ → Vec n)
    (hF : ContDiffAt ℝ p (fun z : ℝ × Vec n => F z.1 z.2) (t0, x t0))
    (hx : ∀ᶠ t in 𝓝 t0, HasDerivAt x (F t (x t)) t) :
    (fun h : ℝ => x (t0 + σ * h) - (x t0 + h • ∑ i ∈ range T.stages,
      β i • (slopes T F h t0 (x t0) T.stages).getD i 0)) =O[𝓝 0] fun h : ℝ => h ^ (p + 1) := by
  set f : ℝ × Vec n → ℝ × Vec n := fun z => (1, F z.1 z.2) with hf
  have hfc : ContDiffAt ℝ p f (t0, x t0) := contDiffAt_const.prodMk hF
  set K : ℝ → ℕ → ℝ × Vec n := fun h i => (1, (slopes T F h t0 (x t0) T.stages).getD i 0) with hKdef
  have hK : ∀ h, ∀ i < T.stages, K h i = f ((t0, x t0) + h • ∑ j ∈ range T.stages, (T.matrix i j : ℝ) • K h j) := by
    intro h i hi
    simp only [hKdef, hf]
    refine Prod.ext rfl ?_
    rw [slopes_eq T F h t0 (x t0) hi]
    have e1 : ((t0, x t0) + h • ∑ j ∈ range T.stages, (T.matrix i j : ℝ) •
        ((1 : ℝ), (slopes T F h t0 (x t0) T.stages).getD j 0)).1 = t0 + ((T.nodes i : ℚ) : ℝ) * h := by
      rw [← hT.row i hi]
      simp [Prod.fst_sum, mul_comm]
    have e2 : ((t0, x t0) + h • ∑ j ∈ range T.stages, (T.matrix i j : ℝ) •
        ((1 : ℝ), (slopes T F h t0 (x t0) T.stages).getD j 0)).2 =
        x t0 + ∑ j ∈ range i, (((T.matrix i j : ℚ) : ℝ) * h) • (slopes T F h t0 (x t0) T.stages).getD j 0 := by
      have hsub : range i ⊆ range T.stages := range_subset_range.2 hi.le
      rw [sum_subset hsub (fun j _ hj => by
        rw [hT.lower i j (by simpa using hj)]; simp)]
      simp [Prod.snd_sum, smul_sum, smul_smul, mul_comm]
    rw [e1, e2]
  have h0 : (fun h : ℝ => (t0 + h, x (t0 + h))) 0 = (t0, x t0) := by simp
  have hy : ∀ᶠ h in 𝓝 (0 : ℝ), HasDerivAt (fun h : ℝ => (t0 + h, x (t0 + h))) (f (t0 + h, x (t0 + h))) h := by
    have ht : Tendsto (fun h : ℝ => t0 + h) (𝓝 0) (𝓝 t0) := by
      simpa using (continuous_const_add t0).tendsto 0
    filter_upwards [ht.eventually hx] with h hh
    have h1 : HasDerivAt (fun h : ℝ => t0 + h) 1 h := by simpa using (hasDerivAt_id h).const_add t0
    have h2 := hh.scomp h h1
    rw [one_smul] at h2
    exact h1.prodMk h2
  have := local_error (taylor_of_contDiffAt hfc) T.matrix hT.lower K hK _ h0 hy σ β hord
  have h2 := IsBigO.trans (IsBigO.of_norm_le (f := fun h : ℝ => (((t0 + σ * h, x (t0 + σ * h)) : ℝ × Vec n) -
    ((t0, x t0) + h • ∑ i ∈ range T.stages, β i • K h i)).2) fun h => norm_snd_le _) this.norm_left
  refine h2.congr_left fun h => ?_
  simp [hKdef, Prod.snd_sum]

theorem cast_order {s : ℕ} {a : ℕ → ℕ → ℚ} {b : ℕ → ℚ} {p : ℕ} (h : HasOrder s a b p) (τ : Tree) (hτ : τ.size ≤ p) :
    ∑ i ∈ range s, ((b i : ℚ) : ℝ) * (τ.weight s a i : ℝ) = (1 : ℝ) ^ τ.size / (τ.density : ℝ) := by
  have := congrArg (fun q : ℚ => (q : ℝ)) (h τ hτ)
  push_cast at this
  rw [this, one_pow]

/-! ## C81: order of the step -/

theorem integrate_current (T : Tableau) (f : ℝ → Vec n → Vec n) (s : Integrator n) :
    (integrate T f s).current = s.current + s.stepWidth • ∑ i ∈ range T.stages,
      ((T.weights i : ℚ) : ℝ) • (slopes T f s.stepWidth s.time s.current T.stages).getD i 0 := by
  simp only [integrate, calcSlope, combine_eq]

theorem integrateEmbedded_current (T : Tableau) (w : ℕ → ℚ) (f : ℝ → Vec n → Vec n) (s : Integrator n) :
    (integrateEmbedded T w f s).current = s.current + s.stepWidth • ∑ i ∈ range T.stages,
      ((w i : ℚ) : ℝ) • (slopes T f s.stepWidth s.time s.current T.stages).getD i 0 := by
  simp only [integrateEmbedded, calcSlope, combine_eq]

/-- `RungeKutta4`: one step from the exact solution of any ODE with a `C⁴` right-hand side is wrong by `O(h⁵)`. The integrator may have
any history: `s h` is any object with step width `h` whose state is the point `(t0, x t0)`. -/
theorem C81_rk4_order (F : ℝ → Vec n → Vec n) (t0 : ℝ) (x : ℝ → Vec n)
    (hF : ContDiffAt ℝ 4 (fun z : ℝ × Vec n => F z.1 z.2) (t0, x t0))
    (hx : ∀ᶠ t in 𝓝 t0, HasDerivAt x (F t (x t)) t)
    (s : ℝ → Integrator n) (hs : ∀ h, (s h).stepWidth = h ∧ (s h).time = t0 ∧ (s h).current = x t0) :
    (fun h : ℝ => x (t0 + h) - (integrate rk4 F (s h)).current) =O[𝓝 0] fun h : ℝ => h ^ 5 := by
  have := local_error_model (p := 4) rk4 rk4_explicit 1 (fun i => ((rk4.weights i : ℚ) : ℝ)) (cast_order rk4_order)
    F t0 x (by exact_mod_cast hF) hx
  refine this.congr_left fun h => ?_
  obtain ⟨h1, h2, h3⟩ := hs h
  rw [integrate_current, h1, h2, h3, one_mul]

/-- `RungeKuttaFehlberg`: one step is wrong by `O(h⁶)`. -/
theorem C81_rkf_order (F : ℝ → Vec n → Vec n) (t0 : ℝ) (x : ℝ → Vec n)
    (hF : ContDiffAt ℝ 5 (fun z : ℝ × Vec n => F z.1 z.2) (t0, x t0))
    (hx : ∀ᶠ t in 𝓝 t0, HasDerivAt x (F t (x t)) t)
    (s : ℝ → Integrator n) (hs : ∀ h, (s h).stepWidth = h ∧ (s h).time = t0 ∧ (s h).current = x t0) :
    (fun h : ℝ => x (t0 + h) - (integrateEmbedded rkf rkfHigher F (s h)).current) =O[𝓝 0] fun h : ℝ => h ^ 6 := by
  have := local_error_model (p := 5) rkf rkf_explicit 1 (fun i => ((rkfHigher i : ℚ) : ℝ)) (cast_order rkf_order)
    F t0 x (by exact_mod_cast hF) hx
  refine this.congr_left fun h => ?_
  obtain ⟨h1, h2, h3⟩ := hs h
  rw [integrateEmbedded_current, h1, h2, h3, one_mul]

/-- `DormandPrince5`: one step is wrong by `O(h⁶)`. -/
theorem C81_dp5_order (F : ℝ → Vec n → Vec n) (t0 : ℝ) (x : ℝ → Vec n)
    (hF : ContDiffAt ℝ 5 (fun z : ℝ × Vec n => F z.1 z.2) (t0, x t0))
    (hx : ∀ᶠ t in 𝓝 t0, HasDerivAt x (F t (x t)) t)
    (s : ℝ → Integrator n) (hs : ∀ h, (s h).stepWidth = h ∧ (s h).time = t0 ∧ (s h).current = x t0) :
    (fun h : ℝ => x (t0 + h) - (integrateEmbedded dp5 dp5Higher F (s h)).current) =O[𝓝 0] fun h : ℝ => h ^ 6 := by
  have := local_error_model (p := 5) dp5 dp5_explicit 1 (fun i => ((dp5Higher i : ℚ) : ℝ)) (cast_order dp5_order)
    F t0 x (by exact_mod_cast hF) hx
  refine this.congr_left fun h => ?_
  obtain ⟨h1, h2, h3⟩ := hs h
  rw [integrateEmbedded_current, h1, h2, h3, one_mul]

/-- A step keeps the step width, advances the independent variable by it and remembers the old state. -/
theorem C81_bookkeeping (T : Tableau) (w : ℕ → ℚ) (f : ℝ → Vec n → Vec n) (s : Integrator n) :
    (integrate T f s).time = s.time + s.stepWidth ∧ (integrate T f s).previous = s.current ∧
    (integrate T f s).stepWidth = s.stepWidth ∧
    (integrateEmbedded T w f s).time = s.time + s.stepWidth ∧ (integrateEmbedded T w f s).previous = s.current ∧
    (integrateEmbedded T w f s).stepWidth = s.stepWidth := by
  simp [integrate, integrateEmbedded, calcSlope]

/-- After `k` steps the independent variable has advanced by `k` step widths, from any starting point. -/
theorem C81_time_after (T : Tableau) (w : ℕ → ℚ) (f : ℝ → Vec n → Vec n) (s : Integrator n) (k : ℕ) :
    ((integrate T f)^[k] s).time = s.time + k * s.stepWidth ∧ ((integrate T f)^[k] s).stepWidth = s.stepWidth ∧
    ((integrateEmbedded T w f)^[k] s).time = s.time + k * s.stepWidth ∧
    ((integrateEmbedded T w f)^[k] s).stepWidth = s.stepWidth := by
  induction k with
  | zero => simp
  | succ k ih =>
    obtain ⟨h1, h2, h3, h4⟩ := ih
    have b := C81_bookkeeping T w f ((integrate T f)^[k] s)
    have b' := C81_bookkeeping T w f ((integrateEmbedded T w f)^[k] s)
    simp only [Function.iterate_succ', Function.comp]
    refine ⟨?_, ?_, ?_, ?_⟩
    · rw [b.1, h1, h2]; push_cast; ring
    · rw [b.2.2.1, h2]
    · rw [b'.2.2.2.1, h3, h4]; push_cast; ring
    · rw [b'.2.2.2.2.2, h4]

/-- `OrdinaryDifferentialEquation::Update` (the integrator of the orbit and attitude propagators) takes exactly the step of
`RungeKutta4`, so the order theorem applies to it as well. -/
theorem C81_ode_update (f : ℝ → Vec n → Vec n) (s : Integrator n) :
    odeUpdate f s.stepWidth s.time s.current = ((integrate rk4 f s).time, (integrate rk4 f s).current) := by
  have h0 := slopes_eq rk4 f s.stepWidth s.time s.current (m := 4) (i := 0) (by omega)
  have h1 := slopes_eq rk4 f s.stepWidth s.time s.current (m := 4) (i := 1) (by omega)
  have h2 := slopes_eq rk4 f s.stepWidth s.time s.current (m := 4) (i := 2) (by omega)
  have h3 := slopes_eq rk4 f s.stepWidth s.time s.current (m := 4) (i := 3) (by omega)
  refine Prod.ext rfl ?_
  rw [integrate_current]
  have e4 : rk4.stages = 4 := rfl
  rw [e4]
  generalize hk0 : (slopes rk4 f s.stepWidth s.time s.current 4).getD 0 0 = k0 at *
  generalize hk1 : (slopes rk4 f s.stepWidth s.time s.current 4).getD 1 0 = k1 at *
  generalize hk2 : (slopes rk4 f s.stepWidth s.time s.current 4).getD 2 0 = k2 at *
  generalize hk3 : (slopes rk4 f s.stepWidth s.time s.current 4).getD 3 0 = k3 at *
  simp only [sum_range_succ, range_zero, sum_empty, hk0, hk1, hk2, hk3] at h0 h1 h2 h3 ⊢
  simp only [rk4, Rat.cast_zero, zero_mul, zero_smul, add_zero, zero_add, Rat.cast_div, Rat.cast_one, Rat.cast_ofNat, one_mul]
    at h0 h1 h2 h3 ⊢
  simp only [odeUpdate, smul_smul]
  rw [← h0, ← h1, ← h2, ← h3]
  funext i
  simp only [Pi.add_apply, Pi.smul_apply, smul_eq_mul]
  ring

/-- Non-vacuity: the harmonic oscillator with its solution `(sin t, cos t)` meets the hypotheses at every `t0`, and the integrator with
`SetState` called on a new object gives the family `s`. -/
theorem oscillator_meets (t0 : ℝ) (p : ℕ) :
    ContDiffAt ℝ p (fun z : ℝ × Vec 2 => (![z.2 1, -z.2 0] : Vec 2)) (t0, ![Real.sin t0, Real.cos t0]) ∧
    (∀ᶠ t in 𝓝 t0, HasDerivAt (fun t => (![Real.sin t, Real.cos t] : Vec 2)) ![Real.cos t, -Real.sin t] t) := by
  constructor
  · refine ContDiff.contDiffAt (contDiff_pi.2 fun i => ?_)
    fin_cases i
    · show ContDiff ℝ p fun z : ℝ × Vec 2 => z.2 1
      fun_prop
    · show ContDiff ℝ p fun z : ℝ × Vec 2 => -z.2 0
      fun_prop
  · refine Eventually.of_forall fun t => hasDerivAt_pi.2 fun i => ?_
    fin_cases i
    · exact Real.hasDerivAt_sin t
    · exact Real.hasDerivAt_cos t

example (t0 : ℝ) :
    (fun h : ℝ => ![Real.sin (t0 + h), Real.cos (t0 + h)] -
      (integrateEmbedded dp5 dp5Higher (fun _ x => ![x 1, -x 0])
        (setState (new dp5 (fun _ x => ![x 1, -x 0]) h) t0 ![Real.sin t0, Real.cos t0])).current) =O[𝓝 0] fun h : ℝ => h ^ 6 :=
  C81_dp5_order (fun _ x => ![x 1, -x 0]) t0 (fun t => ![Real.sin t, Real.cos t])
    (oscillator_meets t0 5).1 (oscillator_meets t0 5).2 _ fun h => ⟨rfl, rfl, rfl⟩

/-! ## C82: dense output -/

/-- Coefficients of `sigma * w_i(sigma)` for `RungeKuttaFehlberg`: the factor of `sigma^(k+1)`. -/
def rkfDense : ℕ → ℕ → ℚ
  | 0, 0 => 1
  | 0, 1 => -301 / 120
  | 0, 2 => 269 / 108
  | 0, 3 => -311 / 360
  | 2, 1 => 7168 / 1425
  | 2, 2 => -4096 / 513
  | 2, 3 => 14848 / 4275
  | 3, 1 => -28561 / 8360
  | 3, 2 => 199927 / 22572
  | 3, 3 => -371293 / 75240
  | 4, 1 => 57 / 50
  | 4, 2 => -3
  | 4, 3 => 42 / 25
  | 5, 1 => -96 / 55
  | 5, 2 => 40 / 11
  | 5, 3 => -102 / 55
  | 6, 1 => 3 / 2
  | 6, 2 => -4
  | 6, 3 => 5 / 2
  | _, _ => 0

/-- The Fehlberg tableau extended by the stage that `CalcInterpolationState` adds. -/
def rkf7 : Tableau where
  stages := 7
  order := 4
  nodes := fun i => if i = 6 then 1 else rkf.nodes i
  weights := rkf.weights
  matrix := fun i j => if i = 6 then (if j = 0 then 1 / 6 else if j = 4 then 1 / 6 else if j = 5 then 2 / 3 else 0) else rkf.matrix i j

theorem rkf7_explicit : Explicit rkf7 where
  lower i j h := by
    simp only [rkf7]
    by_cases hi : i = 6
    · subst hi
      rw [if_pos rfl, if_neg (by omega), if_neg (by omega), if_neg (by omega)]
    · rw [if_neg hi]; exact rkf_explicit.lower i j h
  row := by decide +kernel

theorem rkf_dense_check : denseCheck 7 rkf7.matrix rkfDense 4 4 = true := by decide +kernel

theorem rkf_dense_weights (σ : ℝ) (i : ℕ) (hi : i < 7) :
    ∑ k ∈ range 4, ((rkfDense i k : ℚ) : ℝ) * σ ^ (k + 1) = σ * rkfInterpolationWeights σ i := by
  have : i = 0 ∨ i = 1 ∨ i = 2 ∨ i = 3 ∨ i = 4 ∨ i = 5 ∨ i = 6 := by omega
  rcases this with rfl | rfl | rfl | rfl | rfl | rfl | rfl <;>
    simp [sum_range_succ, rkfDense, rkfInterpolationWeights] <;> ring

theorem slopes_rkf7 (f : ℝ → Vec n → Vec n) (h t : ℝ) (x : Vec n) :
    slopes rkf7 f h t x 6 = slopes rkf f h t x 6 := by
  simp only [slopes]
  refine List.foldl_ext _ _ _ fun ks i hi => ?_
  have hi' : i ≠ 6 := by have := List.mem_range.1 hi; omega
  simp only [stageState, rkf7, if_neg hi']

/-- The interpolated state of `RungeKuttaFehlberg` after a step, as one sum over seven slopes. -/
theorem interpolateRkf_eq (f : ℝ → Vec n → Vec n) (s : Integrator n) (σ : ℝ) :
    interpolateRkf f (integrateEmbedded rkf rkfHigher f s) σ = s.current + s.stepWidth • ∑ i ∈ range 7,
      (∑ k ∈ range 4, ((rkfDense i k : ℚ) : ℝ) * σ ^ (k + 1)) •
        (slopes rkf7 f s.stepWidth s.time s.current 7).getD i 0 := by
  have hget : ∀ i < 6, (slopes rkf7 f s.stepWidth s.time s.current 7).getD i 0 =
      (slopes rkf f s.stepWidth s.time s.current 6).getD i 0 := fun i hi => by
    rw [slopes_getD _ _ _ _ _ (by omega : i < 7), ← slopes_getD _ _ _ _ _ hi, slopes_rkf7]
  have h6 := slopes_eq rkf7 f s.stepWidth s.time s.current (m := 7) (i := 6) (by omega)
  rw [sum_congr rfl (fun j hj => by rw [hget j (mem_range.1 hj)])] at h6
  rw [sum_range_succ _ 6, sum_congr rfl (fun i hi => by
    rw [hget i (mem_range.1 hi), rkf_dense_weights σ i (by have := mem_range.1 hi; omega)]), rkf_dense_weights σ 6 (by omega), h6]
  simp only [interpolateRkf, integrateEmbedded, calcSlope, foldl_add]
  have e6 : rkf.stages = 6 := rfl
  rw [e6]
  generalize slopes rkf f s.stepWidth s.time s.current 6 = ks
  have e1 : s.time + ((rkf7.nodes 6 : ℚ) : ℝ) * s.stepWidth = s.time + s.stepWidth := by
    simp [rkf7]
  have e2 : s.current + ∑ j ∈ range 6, (((rkf7.matrix 6 j : ℚ) : ℝ) * s.stepWidth) • ks.getD j 0 =
      s.current + s.stepWidth • ((1 / 6 : ℝ) • ks.getD 0 0 + (1 / 6 : ℝ) • ks.getD 4 0 + (2 / 3 : ℝ) • ks.getD 5 0) := by
    simp only [sum_range_succ, range_zero, sum_empty, rkf7]
    norm_num
    funext i
    simp only [Pi.add_apply, Pi.smul_apply, smul_eq_mul]
    ring
  rw [e1, e2]
  generalize f (s.time + s.stepWidth) _ = k7
  rw [add_assoc]
  congr 1
  rw [smul_add, smul_sum]
  congr 1
  · refine sum_congr rfl fun i _ => ?_
    rw [smul_smul]; congr 1; ring
  · rw [smul_smul, smul_smul]; congr 1; ring

/-- Coefficients of `sigma * w_i(sigma)` for `DormandPrince5`. -/
def dp5Dense : ℕ → ℕ → ℚ
  | 6, 1 => 44764047 / 29380423
  | 6, 2 => (-82437520 - 44764047) / 29380423
  | 6, 3 => (8293050 + 82437520) / 29380423
  | 6, 4 => -8293050 / 29380423
  | i, k => dp5Coefficients i k

theorem dp5_dense_check : denseCheck 7 dp5.matrix dp5Dense 5 4 = true := by decide +kernel

theorem dp5_dense_weights (σ : ℝ) (i : ℕ) (hi : i < 7) :
    ∑ k ∈ range 5, ((dp5Dense i k : ℚ) : ℝ) * σ ^ (k + 1) = σ * dp5InterpolationWeights σ i := by
  have hs : dp5.stages = 7 := rfl
  rcases Nat.lt_or_ge i 6 with h | h
  · rw [dp5InterpolationWeights, if_pos (by rw [hs]; omega), foldl_add, zero_add, mul_sum]
    refine sum_congr rfl fun k _ => ?_
    have : dp5Dense i k = dp5Coefficients i k := by
      unfold dp5Dense; split <;> first | omega | rfl
    rw [this]; ring
  · obtain rfl : i = 6 := by omega
    rw [dp5InterpolationWeights, if_neg (by rw [hs]; omega), if_pos (by rw [hs])]
    simp [sum_range_succ, dp5Dense, dp5Coefficients]
    ring

theorem interpolateDp5_eq (f : ℝ → Vec n → Vec n) (s : Integrator n) (σ : ℝ) :
    interpolateDp5 (integrateEmbedded dp5 dp5Higher f s) σ = s.current + s.stepWidth • ∑ i ∈ range 7,
      (∑ k ∈ range 5, ((dp5Dense i k : ℚ) : ℝ) * σ ^ (k + 1)) •
        (slopes dp5 f s.stepWidth s.time s.current 7).getD i 0 := by
  have hs : dp5.stages = 7 := rfl
  simp only [interpolateDp5, integrateEmbedded, calcSlope, foldl_add, hs]
  congr 1
  rw [smul_sum]
  refine sum_congr rfl fun i hi => ?_
  rw [dp5_dense_weights σ i (mem_range.1 hi), smul_smul]
  congr 1; ring

/-- Interpolation in the step just taken by `RungeKuttaFehlberg` approximates the solution at the requested fraction `sigma` of the
step (any real `sigma`) to `O(h⁵)`. -/
theorem C82_rkf_dense (F : ℝ → Vec n → Vec n) (t0 : ℝ) (x : ℝ → Vec n)
    (hF : ContDiffAt ℝ 4 (fun z : ℝ × Vec n => F z.1 z.2) (t0, x t0))
    (hx : ∀ᶠ t in 𝓝 t0, HasDerivAt x (F t (x t)) t) (σ : ℝ)
    (s : ℝ → Integrator n) (hs : ∀ h, (s h).stepWidth = h ∧ (s h).time = t0 ∧ (s h).current = x t0) :
    (fun h : ℝ => x (t0 + σ * h) - interpolateRkf F (integrateEmbedded rkf rkfHigher F (s h)) σ) =O[𝓝 0]
      fun h : ℝ => h ^ 5 := by
  have := local_error_model (p := 4) rkf7 rkf7_explicit σ
    (fun i => ∑ k ∈ range 4, ((rkfDense i k : ℚ) : ℝ) * σ ^ (k + 1)) (dense_of_check rkf_dense_check σ)
    F t0 x (by exact_mod_cast hF) hx
  refine this.congr_left fun h => ?_
  obtain ⟨h1, h2, h3⟩ := hs h
  rw [interpolateRkf_eq, h1, h2, h3]
  rfl

/-- The same for `DormandPrince5`. -/
theorem C82_dp5_dense (F : ℝ → Vec n → Vec n) (t0 : ℝ) (x : ℝ → Vec n)
    (hF : ContDiffAt ℝ 4 (fun z : ℝ × Vec n => F z.1 z.2) (t0, x t0))
    (hx : ∀ᶠ t in 𝓝 t0, HasDerivAt x (F t (x t)) t) (σ : ℝ)
    (s : ℝ → Integrator n) (hs : ∀ h, (s h).stepWidth = h ∧ (s h).time = t0 ∧ (s h).current = x t0) :
    (fun h : ℝ => x (t0 + σ * h) - interpolateDp5 (integrateEmbedded dp5 dp5Higher F (s h)) σ) =O[𝓝 0]
      fun h : ℝ => h ^ 5 := by
  have := local_error_model (p := 4) dp5 dp5_explicit σ
    (fun i => ∑ k ∈ range 5, ((dp5Dense i k : ℚ) : ℝ) * σ ^ (k + 1)) (dense_of_check dp5_dense_check σ)
    F t0 x (by exact_mod_cast hF) hx
  refine this.congr_left fun h => ?_
  obtain ⟨h1, h2, h3⟩ := hs h
  rw [interpolateDp5_eq, h1, h2, h3]
  rfl

/-- The interpolation joins the two ends of the step: `sigma = 0` is the state before it and `sigma = 1` the state after it, for every
right-hand side (smooth or not). -/
theorem C82_endpoints (f : ℝ → Vec n → Vec n) (s : Integrator n) :
    interpolateRkf f (integrateEmbedded rkf rkfHigher f s) 0 = s.current ∧
    interpolateRkf f (integrateEmbedded rkf rkfHigher f s) 1 = (integrateEmbedded rkf rkfHigher f s).current ∧
    interpolateDp5 (integrateEmbedded dp5 dp5Higher f s) 0 = s.current ∧
    interpolateDp5 (integrateEmbedded dp5 dp5Higher f s) 1 = (integrateEmbedded dp5 dp5Higher f s).current := by
  refine ⟨?_, ?_, ?_, ?_⟩
  · rw [interpolateRkf_eq]; simp
  · have hw : ∀ i < 7, ∑ k ∈ range 4, rkfDense i k = rkfHigher i := by decide +kernel
    rw [interpolateRkf_eq, integrateEmbedded_current, show rkf.stages = 6 from rfl, sum_range_succ _ 6]
    congr 2
    have hlast : (∑ k ∈ range 4, ((rkfDense 6 k : ℚ) : ℝ) * 1 ^ (k + 1)) = 0 := by
      have := congrArg (fun q : ℚ => (q : ℝ)) (hw 6 (by omega))
      simpa [rkfHigher] using this
    rw [hlast, zero_smul, add_zero]
    refine sum_congr rfl fun i hi => ?_
    have hi' := mem_range.1 hi
    have := congrArg (fun q : ℚ => (q : ℝ)) (hw i (by omega))
    push_cast at this
    simp only [one_pow, mul_one, this]
    rw [slopes_getD _ _ _ _ _ (by omega : i < 7), ← slopes_getD _ _ _ _ _ hi', slopes_rkf7]
  · rw [interpolateDp5_eq]; simp
  · have hw : ∀ i < 7, ∑ k ∈ range 5, dp5Dense i k = dp5Higher i := by decide +kernel
    rw [interpolateDp5_eq, integrateEmbedded_current, show dp5.stages = 7 from rfl]
    congr 2
    refine sum_congr rfl fun i hi => ?_
    have hi' := mem_range.1 hi
    have := congrArg (fun q : ℚ => (q : ℝ)) (hw i (by omega))
    push_cast at this
    simp only [one_pow, mul_one, this]

end S2E.Integ
