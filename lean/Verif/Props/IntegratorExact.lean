import Verif.Props.Integrator

/-! # C82 (use of the interpolation out of step), C85: what the integrators reproduce exactly -/

namespace S2E.Integ

open Finset

variable {n : ℕ}

/-- `RungeKutta4` has no interpolation: whatever fraction is asked for, the answer is the state at the end of the step. -/
theorem C82_rk4_ignores_sigma (f : ℝ → Vec n → Vec n) (s : Integrator n) (σ : ℝ) :
    interpolateRk4 (integrate rk4 f s) σ = (integrate rk4 f s).current := rfl

example : interpolateRk4 (integrate rk4 (fun _ _ => fun _ : Fin 1 => (1 : ℝ)) (new rk4 (fun _ _ => fun _ => 1) 1)) 0 ≠
    (integrate rk4 (fun _ _ => fun _ : Fin 1 => (1 : ℝ)) (new rk4 (fun _ _ => fun _ => 1) 1)).previous := by
  intro h
  rw [C82_rk4_ignores_sigma, integrate_current] at h
  have h0 := congrFun h 0
  have hsl : ∀ i ∈ range rk4.stages, (slopes rk4 (fun _ _ => fun _ : Fin 1 => (1 : ℝ)) 1 0 0 rk4.stages).getD i 0 = fun _ => 1 :=
    fun i hi => by rw [slopes_eq _ _ _ _ _ (mem_range.1 hi)]
  simp only [new, calcSlope, integrate] at h0
  rw [sum_congr rfl (fun i hi => by rw [hsl i hi])] at h0
  simp [sum_range_succ, rk4] at h0
  norm_num at h0

/-- After `ControlStepWidth` has changed the step width, interpolating in the step that was just taken no longer reaches its end: at
`sigma = 1` the answer is off by the ratio of the step widths. -/
theorem C82_after_control (f : ℝ → Vec n → Vec n) (s : Integrator n) (hs : s.stepWidth ≠ 0) (h' : ℝ) :
    (let s1 := integrateEmbedded dp5 dp5Higher f s
     interpolateDp5 { s1 with stepWidth := h' } 1 = s1.previous + (h' / s.stepWidth) • (s1.current - s1.previous)) ∧
    (let s1 := integrateEmbedded rkf rkfHigher f s
     interpolateRkf f { s1 with stepWidth := h' } 1 = s1.previous + (h' / s.stepWidth) • (s1.current - s1.previous)) := by
  constructor
  · have hw : ∀ i < 7, ((dp5Higher i : ℚ) : ℝ) = dp5InterpolationWeights 1 i := by
      intro i hi
      have h1 := dp5_dense_weights 1 i hi
      have h2 : ∀ i < 7, ∑ k ∈ range 5, dp5Dense i k = dp5Higher i := by decide +kernel
      rw [one_mul] at h1
      rw [← h1, ← h2 i hi]; push_cast; simp
    intro s1
    have hcur := integrateEmbedded_current dp5 dp5Higher f s
    have hprev : s1.previous = s.current := rfl
    have hslope : s1.slope = slopes dp5 f s.stepWidth s.time s.current dp5.stages := rfl
    rw [hprev, hcur, add_sub_cancel_left, smul_smul, div_mul_cancel₀ _ hs]
    simp only [interpolateDp5, foldl_add, hslope, hprev]
    congr 1
    rw [smul_sum]
    refine sum_congr rfl fun i hi => ?_
    rw [hw i (mem_range.1 hi), smul_smul, one_mul]
  · have hw : ∀ i < 7, ((rkfHigher i : ℚ) : ℝ) = rkfInterpolationWeights 1 i := by
      intro i hi
      have h1 := rkf_dense_weights 1 i hi
      have h2 : ∀ i < 7, ∑ k ∈ range 4, rkfDense i k = rkfHigher i := by decide +kernel
      rw [one_mul] at h1
      rw [← h1, ← h2 i hi]; push_cast; simp
    intro s1
    have hcur := integrateEmbedded_current rkf rkfHigher f s
    have hprev : s1.previous = s.current := rfl
    have hslope : s1.slope = slopes rkf f s.stepWidth s.time s.current rkf.stages := rfl
    rw [hprev, hcur, add_sub_cancel_left, smul_smul, div_mul_cancel₀ _ hs]
    have h6 : rkfInterpolationWeights 1 6 = 0 := by rw [← hw 6 (by omega)]; simp [rkfHigher]
    simp only [interpolateRkf, foldl_add, hslope, hprev, h6, zero_smul, smul_zero, add_zero]
    congr 1
    rw [smul_sum]
    refine sum_congr rfl fun i hi => ?_
    have hi' : i < 6 := mem_range.1 hi
    rw [hw i (by omega), smul_smul, one_mul]

/-- `SetState` does not refresh the slopes: interpolation right after it, before the next `Integrate`, still uses the slopes of the last
step (here: constant slope `1`, step width `1`, state set to `5`, and the answer at `sigma = 1` is `6`). -/
theorem C82_stale_after_setState :
    interpolateDp5 (setState (integrateEmbedded dp5 dp5Higher (fun _ _ => fun _ : Fin 1 => (1 : ℝ))
      (new dp5 (fun _ _ => fun _ => 1) 1)) 0 (fun _ => 5)) 1 = fun _ => 6 := by
  have hw : ∀ i < 7, ((dp5Higher i : ℚ) : ℝ) = dp5InterpolationWeights 1 i := by
    intro i hi
    have h1 := dp5_dense_weights 1 i hi
    have h2 : ∀ i < 7, ∑ k ∈ range 5, dp5Dense i k = dp5Higher i := by decide +kernel
    rw [one_mul] at h1
    rw [← h1, ← h2 i hi]; push_cast; simp
  have hsl : ∀ i ∈ range dp5.stages, (slopes dp5 (fun _ _ => fun _ : Fin 1 => (1 : ℝ)) 1 0 0 dp5.stages).getD i 0 = fun _ => 1 :=
    fun i hi => by rw [slopes_eq _ _ _ _ _ (mem_range.1 hi)]
  simp only [interpolateDp5, foldl_add, setState, integrateEmbedded, calcSlope, new]
  rw [sum_congr rfl (fun i hi => by rw [hsl i hi, ← hw i (mem_range.1 hi)])]
  funext j
  simp [sum_range_succ, dp5, dp5Higher]
  norm_num

/-! ## C85 -/

theorem functional_slopes (T : Tableau) (f : ℝ → Vec n → Vec n) (c : Vec n) (hc : ∀ t x, ∑ i, c i * f t x i = 0)
    (h t : ℝ) (x : Vec n) (m i : ℕ) : ∑ k, c k * (slopes T f h t x m).getD i 0 k = 0 := by
  rcases Nat.lt_or_ge i m with hi | hi
  · rw [slopes_eq T f h t x hi]; exact hc _ _
  · rw [List.getD_eq_getElem?_getD, List.getElem?_eq_none (by rw [slopes_length]; exact hi)]; simp

theorem functional_sum (c : Vec n) (x : Vec n) (h : ℝ) (m : ℕ) (w : ℕ → ℝ) (K : ℕ → Vec n) (hK : ∀ i, ∑ k, c k * K i k = 0) :
    ∑ k, c k * (x + h • ∑ i ∈ range m, w i • K i) k = ∑ k, c k * x k := by
  simp only [Pi.add_apply, Pi.smul_apply, Finset.sum_apply, smul_eq_mul, mul_add, sum_add_distrib]
  have : ∑ k, c k * (h * ∑ i ∈ range m, w i * K i k) = h * ∑ i ∈ range m, w i * ∑ k, c k * K i k := by
    simp only [mul_sum]
    rw [sum_comm]
    refine sum_congr rfl fun i _ => sum_congr rfl fun k _ => by ring
  rw [this]
  simp [hK]

/-- Linear conserved quantities are conserved exactly by every method, for every step width and number of steps. -/
theorem C85_linear_invariant (T : Tableau) (w : ℕ → ℚ) (f : ℝ → Vec n → Vec n) (c : Vec n)
    (hc : ∀ t x, ∑ i, c i * f t x i = 0) (s : Integrator n) (k : ℕ) :
    ∑ i, c i * ((integrate T f)^[k] s).current i = ∑ i, c i * s.current i ∧
    ∑ i, c i * ((integrateEmbedded T w f)^[k] s).current i = ∑ i, c i * s.current i := by
  induction k with
  | zero => simp
  | succ k ih =>
    simp only [Function.iterate_succ', Function.comp]
    constructor
    · rw [← ih.1, integrate_current]
      exact functional_sum c _ _ _ _ _ fun i => functional_slopes T f c hc _ _ _ _ i
    · rw [← ih.2, integrateEmbedded_current]
      exact functional_sum c _ _ _ _ _ fun i => functional_slopes T f c hc _ _ _ _ i

example : ∀ (_t : ℝ) (x : Vec 2), ∑ i, (![1, 1] : Vec 2) i * (![x 1, -x 1] : Vec 2) i = 0 := by
  intro _ x; simp [Fin.sum_univ_two]

/-- The quadrature rule inside a method integrates `t^k` exactly for `k < p`. -/
def Quadrature (T : Tableau) (w : ℕ → ℚ) (p : ℕ) : Prop :=
  ∀ k < p, ∀ t h : ℝ, h * ∑ i ∈ range T.stages, ((w i : ℚ) : ℝ) * (t + ((T.nodes i : ℚ) : ℝ) * h) ^ k =
    ((t + h) ^ (k + 1) - t ^ (k + 1)) / (k + 1)

theorem rk4_quadrature : Quadrature rk4 rk4.weights 4 := by
  intro k hk t h
  have : k = 0 ∨ k = 1 ∨ k = 2 ∨ k = 3 := by omega
  rcases this with rfl | rfl | rfl | rfl <;> simp [sum_range_succ, rk4] <;> ring

theorem rkf_quadrature : Quadrature rkf rkfHigher 5 := by
  intro k hk t h
  have : k = 0 ∨ k = 1 ∨ k = 2 ∨ k = 3 ∨ k = 4 := by omega
  rcases this with rfl | rfl | rfl | rfl | rfl <;> simp [sum_range_succ, rkf, rkfHigher] <;> ring

theorem dp5_quadrature : Quadrature dp5 dp5Higher 5 := by
  intro k hk t h
  have : k = 0 ∨ k = 1 ∨ k = 2 ∨ k = 3 ∨ k = 4 := by omega
  rcases this with rfl | rfl | rfl | rfl | rfl <;> simp [sum_range_succ, dp5, dp5Higher] <;> ring

theorem quadrature_step (T : Tableau) (w : ℕ → ℚ) (p : ℕ) (hq : Quadrature T w p) (A : ℕ → Vec n) (h t : ℝ) (x : Vec n) :
    x + h • ∑ i ∈ range T.stages, ((w i : ℚ) : ℝ) •
      (slopes T (fun t _ => ∑ k ∈ range p, t ^ k • A k) h t x T.stages).getD i 0 =
    x + ∑ k ∈ range p, (((t + h) ^ (k + 1) - t ^ (k + 1)) / (k + 1)) • A k := by
  have hsl : ∀ i ∈ range T.stages, (slopes T (fun t _ => ∑ k ∈ range p, t ^ k • A k) h t x T.stages).getD i 0 =
      ∑ k ∈ range p, (t + ((T.nodes i : ℚ) : ℝ) * h) ^ k • A k := fun i hi => by
    rw [slopes_eq _ _ _ _ _ (mem_range.1 hi)]
  rw [sum_congr rfl (fun i hi => by rw [hsl i hi])]
  congr 1
  simp only [smul_sum, smul_smul]
  rw [sum_comm]
  refine sum_congr rfl fun k hk => ?_
  rw [← hq k (mem_range.1 hk) t h, ← sum_smul, mul_sum]

/-- A right-hand side that is a polynomial in the independent variable (degree at most 3 for `RungeKutta4`, at most 4 for the other two)
is integrated without any error, for every step width (of either sign) and any number of steps. -/
theorem C85_polynomial_exact (A : ℕ → Vec n) (s : Integrator n) (k : ℕ) :
    ((integrate rk4 (fun t _ => ∑ j ∈ range 4, t ^ j • A j))^[k] s).current =
      s.current + ∑ j ∈ range 4, (((s.time + k * s.stepWidth) ^ (j + 1) - s.time ^ (j + 1)) / (j + 1)) • A j ∧
    ((integrateEmbedded rkf rkfHigher (fun t _ => ∑ j ∈ range 5, t ^ j • A j))^[k] s).current =
      s.current + ∑ j ∈ range 5, (((s.time + k * s.stepWidth) ^ (j + 1) - s.time ^ (j + 1)) / (j + 1)) • A j ∧
    ((integrateEmbedded dp5 dp5Higher (fun t _ => ∑ j ∈ range 5, t ^ j • A j))^[k] s).current =
      s.current + ∑ j ∈ range 5, (((s.time + k * s.stepWidth) ^ (j + 1) - s.time ^ (j + 1)) / (j + 1)) • A j := by
  have join : ∀ (p : ℕ) (a b c : ℝ), (∑ j ∈ range p, ((b ^ (j + 1) - a ^ (j + 1)) / ((j : ℝ) + 1)) • A j) +
      ∑ j ∈ range p, ((c ^ (j + 1) - b ^ (j + 1)) / ((j : ℝ) + 1)) • A j =
      ∑ j ∈ range p, ((c ^ (j + 1) - a ^ (j + 1)) / ((j : ℝ) + 1)) • A j := by
    intro p a b c
    rw [← sum_add_distrib]
    refine sum_congr rfl fun j _ => ?_
    rw [← add_smul]; congr 1; ring
  induction k with
  | zero => simp
  | succ k ih =>
    obtain ⟨i1, i2, i3⟩ := ih
    simp only [Function.iterate_succ', Function.comp]
    have e : s.time + (k + 1 : ℕ) * s.stepWidth = s.time + k * s.stepWidth + s.stepWidth := by push_cast; ring
    refine ⟨?_, ?_, ?_⟩
    · have ht := C81_time_after rk4 rk4.weights (fun t _ => ∑ j ∈ range 4, t ^ j • A j) s k
      rw [integrate_current, quadrature_step rk4 rk4.weights 4 rk4_quadrature, i1, ht.1, ht.2.1, add_assoc, join, e]
    · have ht := C81_time_after rkf rkfHigher (fun t _ => ∑ j ∈ range 5, t ^ j • A j) s k
      rw [integrateEmbedded_current, quadrature_step rkf rkfHigher 5 rkf_quadrature, i2, ht.2.2.1, ht.2.2.2, add_assoc, join, e]
    · have ht := C81_time_after dp5 dp5Higher (fun t _ => ∑ j ∈ range 5, t ^ j • A j) s k
      rw [integrateEmbedded_current, quadrature_step dp5 dp5Higher 5 dp5_quadrature, i3, ht.2.2.1, ht.2.2.2, add_assoc, join, e]

end S2E.Integ
