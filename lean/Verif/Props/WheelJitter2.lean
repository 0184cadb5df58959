import Verif.Props.WheelJitter
import Mathlib.Analysis.SpecialFunctions.Trigonometric.Arctan
import Mathlib.Analysis.Real.Pi.Bounds
/-!
# C121: structural resonance of the jitter; C122: wheels share one jitter
-/
namespace S2E.Wheel
open WheelSpec Filter Topology

/-! ## Free motion of the filter dies out -/

/-- The free motion of the discretised resonance decays: a discrete energy falls by a fixed factor every two steps. -/
theorem free_decay (β γ : ℝ) (hβ : 0 < β) (hγ : 0 < γ) (e : ℕ → ℝ)
    (h : ∀ n, (4 + 4 * β + γ) * e (n + 2) + (-8 + 2 * γ) * e (n + 1) + (4 - 4 * β + γ) * e n = 0) : Tendsto e atTop (𝓝 0) := by
  set c := 4 + 4 * β + γ with hc
  have hc0 : 0 < c := by positivity
  set V : ℕ → ℝ := fun n => 4 * (e (n + 1) - e n) ^ 2 + γ * (e (n + 1) + e n) ^ 2 with hV
  have hV0 : ∀ n, 0 ≤ V n := fun n => by simp only [hV]; positivity
  have hfall : ∀ n, V (n + 1) = V n - 4 * β * (e (n + 2) - e n) ^ 2 := by
    intro n
    simp only [hV]
    have := h n
    linear_combination (e (n + 2) - e n) * this
  have hanti : Antitone V := antitone_nat_of_succ_le fun n => by
    rw [hfall]; have : 0 ≤ 4 * β * (e (n + 2) - e n) ^ 2 := by positivity
    linarith
  set A := c + 8 + 2 * γ with hA
  set K := A ^ 2 / 32 + A ^ 2 / (8 * γ) with hK
  have hA0 : 0 < A := by positivity
  have hK0 : 0 < K := by positivity
  have hbound : ∀ n, V n ≤ K * ((e (n + 2) - e n) ^ 2 + (e (n + 3) - e (n + 1)) ^ 2) := by
    intro n
    have h0 := h n
    have h1 := h (n + 1)
    set s := e (n + 2) - e n with hs
    set s' := e (n + 3) - e (n + 1) with hs'
    have hp : 16 * (e (n + 1) - e n) = (c + 8 - 2 * γ) * s - c * s' := by
      rw [hs, hs', hc]
      rw [show n + 1 + 2 = n + 3 from rfl, show n + 1 + 1 = n + 2 from rfl] at h1
      linear_combination h1 - h0
    have hm : 4 * γ * (e (n + 1) + e n) = (8 - 2 * γ - c) * s - c * s' := by
      rw [hs, hs', hc]
      rw [show n + 1 + 2 = n + 3 from rfl, show n + 1 + 1 = n + 2 from rfl] at h1
      linear_combination h1 + h0
    have hsq : ∀ x : ℝ, |x| ≤ A → (x * s - c * s') ^ 2 ≤ 2 * A ^ 2 * (s ^ 2 + s' ^ 2) := by
      intro x hx
      have hx2 : x ^ 2 ≤ A ^ 2 := sq_le_sq' (abs_le.1 hx).1 (abs_le.1 hx).2
      have hcA : c ^ 2 ≤ A ^ 2 := by
        apply pow_le_pow_left₀ hc0.le; rw [hA]; linarith
      have : (x * s - c * s') ^ 2 ≤ 2 * (x ^ 2 * s ^ 2 + c ^ 2 * s' ^ 2) := by nlinarith [sq_nonneg (x * s + c * s')]
      nlinarith [sq_nonneg s, sq_nonneg s', mul_le_mul_of_nonneg_right hx2 (sq_nonneg s), mul_le_mul_of_nonneg_right hcA (sq_nonneg s')]
    have b1 := hsq (c + 8 - 2 * γ) (by rw [abs_le, hA]; constructor <;> linarith)
    have b2 := hsq (8 - 2 * γ - c) (by rw [abs_le, hA]; constructor <;> linarith)
    rw [← hp] at b1
    rw [← hm] at b2
    have e1 : 4 * (e (n + 1) - e n) ^ 2 ≤ A ^ 2 / 32 * (s ^ 2 + s' ^ 2) := by linarith
    have e2 : γ * (e (n + 1) + e n) ^ 2 ≤ A ^ 2 / (8 * γ) * (s ^ 2 + s' ^ 2) := by
      rw [div_mul_eq_mul_div, le_div_iff₀ (by positivity)]
      linarith
    simp only [hV, hK]
    linarith
  set ρ := max (1 - 4 * β / K) 0 with hρ
  have hρ0 : 0 ≤ ρ := le_max_right _ _
  have hρ1 : ρ < 1 := by
    rw [hρ, max_lt_iff]
    exact ⟨by have : 0 < 4 * β / K := by positivity
              linarith, one_pos⟩
  have htwo : ∀ n, V (n + 2) ≤ ρ * V n := by
    intro n
    have e1 : V (n + 2) = V n - 4 * β * ((e (n + 2) - e n) ^ 2 + (e (n + 3) - e (n + 1)) ^ 2) := by
      rw [show n + 2 = n + 1 + 1 from rfl, hfall (n + 1), hfall n]; ring_nf
    have e2 : 4 * β / K * V n ≤ 4 * β * ((e (n + 2) - e n) ^ 2 + (e (n + 3) - e (n + 1)) ^ 2) := by
      rw [div_mul_eq_mul_div, div_le_iff₀ hK0]
      have := mul_le_mul_of_nonneg_left (hbound n) (by positivity : 0 ≤ 4 * β)
      linarith
    have e3 : (1 - 4 * β / K) * V n ≤ ρ * V n := mul_le_mul_of_nonneg_right (le_max_left _ _) (hV0 n)
    linarith
  have hgeo : ∀ n, V (2 * n) ≤ ρ ^ n * V 0 := by
    intro n
    induction n with
    | zero => simp
    | succ n ih =>
      calc V (2 * (n + 1)) ≤ ρ * V (2 * n) := htwo (2 * n)
        _ ≤ ρ * (ρ ^ n * V 0) := mul_le_mul_of_nonneg_left ih hρ0
        _ = ρ ^ (n + 1) * V 0 := by ring
  have hdiv : Tendsto (fun n : ℕ => n / 2) atTop atTop := Nat.tendsto_div_const_atTop (by norm_num)
  have hlim : Tendsto (fun n : ℕ => ρ ^ (n / 2) * V 0) atTop (𝓝 0) := by
    have := ((tendsto_pow_atTop_nhds_zero_of_lt_one hρ0 hρ1).comp hdiv).mul_const (V 0)
    simpa using this
  have hVlim : Tendsto V atTop (𝓝 0) := by
    refine squeeze_zero hV0 (fun n => ?_) hlim
    exact (hanti (Nat.mul_div_le n 2)).trans (hgeo _)
  have hp : Tendsto (fun n => (e (n + 1) - e n) ^ 2) atTop (𝓝 0) := by
    refine squeeze_zero (fun n => sq_nonneg _) (fun n => ?_) hVlim
    simp only [hV]
    have : 0 ≤ γ * (e (n + 1) + e n) ^ 2 := by positivity
    have := sq_nonneg (e (n + 1) - e n)
    linarith
  have hm : Tendsto (fun n => (e (n + 1) + e n) ^ 2) atTop (𝓝 0) := by
    refine squeeze_zero (fun n => sq_nonneg _) (fun n => ?_) (by simpa using hVlim.const_mul (1 / γ))
    simp only [hV]
    have : 0 ≤ γ⁻¹ * (4 * (e (n + 1) - e n) ^ 2) := by positivity
    have h2 : γ⁻¹ * (γ * (e (n + 1) + e n) ^ 2) = (e (n + 1) + e n) ^ 2 := by field_simp
    rw [mul_add, h2]
    linarith
  have hsqrt : ∀ f : ℕ → ℝ, Tendsto (fun n => f n ^ 2) atTop (𝓝 0) → Tendsto f atTop (𝓝 0) := by
    intro f hf
    have := (Real.continuous_sqrt.tendsto 0).comp hf
    simp only [Real.sqrt_zero, Function.comp_def, Real.sqrt_sq_eq_abs] at this
    exact (tendsto_zero_iff_abs_tendsto_zero f).2 this
  have := ((hsqrt _ hm).sub (hsqrt _ hp)).div_const 2
  simp only [sub_zero, zero_div] at this
  exact this.congr fun n => by ring

/-! ## The gain -/

theorem half_angle (θ : ℝ) (hc : Real.cos (θ / 2) ≠ 0) :
    Complex.exp (θ * Complex.I) - 1 = (Complex.exp (θ * Complex.I) + 1) * (Complex.I * (Real.tan (θ / 2) : ℝ)) ∧
      Complex.exp (θ * Complex.I) + 1 ≠ 0 := by
  have h1 : Complex.exp (θ * Complex.I) = (Real.cos (θ / 2) + Real.sin (θ / 2) * Complex.I) ^ 2 := by
    rw [show (θ : ℂ) * Complex.I = (2 : ℕ) * (((θ / 2 : ℝ) : ℂ) * Complex.I) by push_cast; ring, Complex.exp_nat_mul, Complex.exp_mul_I,
      ← Complex.ofReal_cos, ← Complex.ofReal_sin]
  have h2 : ((Real.cos (θ / 2) : ℝ) : ℂ) ^ 2 + ((Real.sin (θ / 2) : ℝ) : ℂ) ^ 2 = 1 := by
    have := Real.cos_sq_add_sin_sq (θ / 2); exact_mod_cast this
  have hc' : ((Real.cos (θ / 2) : ℝ) : ℂ) ≠ 0 := by exact_mod_cast hc
  have hI : Complex.I ^ 2 = -1 := Complex.I_sq
  rw [Real.tan_eq_sin_div_cos, h1]
  push_cast [Complex.ofReal_div]
  rw [← Complex.ofReal_ofNat, ← Complex.ofReal_div, ← Complex.ofReal_cos, ← Complex.ofReal_sin]
  generalize ((Real.cos (θ / 2) : ℝ) : ℂ) = c at *
  generalize ((Real.sin (θ / 2) : ℝ) : ℂ) = s at *
  generalize Complex.I = i at *
  constructor
  · field_simp
    grind
  · have : (c + s * i) ^ 2 + 1 = 2 * c * (c + s * i) := by grind
    rw [this]
    have hne : c + s * i ≠ 0 := by
      intro h0
      have : (c + s * i) * (c - s * i) = 1 := by grind
      rw [h0, zero_mul] at this
      exact zero_ne_one this
    exact mul_ne_zero (mul_ne_zero two_ne_zero hc') hne

/-- The gain of the filter at the frequency with `θ = Ω T`: the transfer function at the warped frequency. -/
theorem gain_spec (T w ζ b θ : ℝ) (hT : 0 < T) (hw : 0 < w) (hb : 0 < b * ζ) (hc : Real.cos (θ / 2) ≠ 0) (z : ℂ)
    (hz : z = Complex.exp (θ * Complex.I)) :
    transfer w ζ b (Complex.I * (2 / T * Real.tan (θ / 2) : ℝ)) *
        ((4 + 4 * b * ζ * T * w + T ^ 2 * w ^ 2 : ℝ) * z ^ 2 + (-8 + 2 * T ^ 2 * w ^ 2 : ℝ) * z + (4 - 4 * b * ζ * T * w + T ^ 2 * w ^ 2 : ℝ)) =
      (4 + 4 * ζ * T * w + T ^ 2 * w ^ 2 : ℝ) * z ^ 2 + (-8 + 2 * T ^ 2 * w ^ 2 : ℝ) * z + (4 - 4 * ζ * T * w + T ^ 2 * w ^ 2 : ℝ) := by
  obtain ⟨h1, h2⟩ := half_angle θ hc
  rw [← hz] at h1 h2
  generalize Real.tan (θ / 2) = t at *
  have hden : (Complex.I * (2 / T * t : ℝ)) ^ 2 + 2 * b * ζ * w * (Complex.I * (2 / T * t : ℝ)) + w ^ 2 ≠ 0 := by
    intro h0
    generalize 2 / T * t = x at h0 ⊢
    have e : (Complex.I * (x : ℝ)) ^ 2 + 2 * b * ζ * w * (Complex.I * (x : ℝ)) + w ^ 2 =
        ((-x ^ 2 + w ^ 2 : ℝ) : ℂ) + ((2 * b * ζ * w * x : ℝ) : ℂ) * Complex.I := by
      rw [mul_pow, Complex.I_sq]; push_cast; ring
    rw [e, Complex.ext_iff] at h0
    simp only [Complex.add_re, Complex.ofReal_re, Complex.re_ofReal_mul, Complex.I_re, mul_zero, add_zero, Complex.zero_re, Complex.add_im,
      Complex.ofReal_im, Complex.im_ofReal_mul, Complex.I_im, mul_one, zero_add, Complex.zero_im] at h0
    obtain ⟨i2, i1⟩ := h0
    have ht : x = 0 := by
      rcases mul_eq_zero.1 i1 with h | h
      · exfalso
        have : 0 < 2 * b * ζ * w := by
          have := mul_pos hb hw
          linarith
        linarith
      · exact h
    rw [ht] at i2
    nlinarith
  unfold transfer
  rw [div_mul_eq_mul_div, div_eq_iff hden]
  have hT' : (T : ℂ) ≠ 0 := by exact_mod_cast hT.ne'
  have hS : Complex.I * ((2 / T * t : ℝ) : ℂ) * (T * (z + 1)) = 2 * (z - 1) := by
    rw [h1]; push_cast; field_simp
  generalize Complex.I * ((2 / T * t : ℝ) : ℂ) = S at hS hden
  have hne : (T : ℂ) * (z + 1) ≠ 0 := mul_ne_zero hT' h2
  push_cast
  have e1 : (4 + 4 * b * ζ * T * w + T ^ 2 * w ^ 2 : ℂ) * z ^ 2 + (-8 + 2 * T ^ 2 * w ^ 2) * z + (4 - 4 * b * ζ * T * w + T ^ 2 * w ^ 2) =
      (T * (z + 1)) ^ 2 * (S ^ 2 + 2 * b * ζ * w * S + w ^ 2) := by
    linear_combination (-(S * (T * (z + 1))) - 2 * (z - 1) - 2 * b * ζ * w * (T * (z + 1))) * hS
  have e2 : (4 + 4 * ζ * T * w + T ^ 2 * w ^ 2 : ℂ) * z ^ 2 + (-8 + 2 * T ^ 2 * w ^ 2) * z + (4 - 4 * ζ * T * w + T ^ 2 * w ^ 2) =
      (T * (z + 1)) ^ 2 * (S ^ 2 + 2 * ζ * w * S + w ^ 2) := by
    linear_combination (-(S * (T * (z + 1))) - 2 * (z - 1) - 2 * ζ * w * (T * (z + 1))) * hS
  rw [e1, e2]
  ring

/-- The sums of the harmonics with and without gain are related by the difference equation of the filter. -/
theorem sum_recurrence (T w ζ b ω : ℝ) (hT : 0 < T) (hw : 0 < w) (hb : 0 < b * ζ) (n : ℕ) :
    ∀ (rows : List (List ℝ)) (phases : List ℝ), (∀ r ∈ rows, Real.cos (r.getD 0 0 * ω * T / 2) ≠ 0) →
    (4 + 4 * b * ζ * T * w + T ^ 2 * w ^ 2 : ℝ) * harmonicSum (fun r => transfer w ζ b (Complex.I * (2 / T * Real.tan (r.getD 0 0 * ω * T / 2) : ℝ))) ω
          rows (advanced ((n + 2 : ℕ) * (ω * T)) rows phases) +
        (-8 + 2 * T ^ 2 * w ^ 2 : ℝ) * harmonicSum (fun r => transfer w ζ b (Complex.I * (2 / T * Real.tan (r.getD 0 0 * ω * T / 2) : ℝ))) ω
          rows (advanced ((n + 1 : ℕ) * (ω * T)) rows phases) +
        (4 - 4 * b * ζ * T * w + T ^ 2 * w ^ 2 : ℝ) * harmonicSum (fun r => transfer w ζ b (Complex.I * (2 / T * Real.tan (r.getD 0 0 * ω * T / 2) : ℝ))) ω
          rows (advanced ((n : ℕ) * (ω * T)) rows phases) =
      (4 + 4 * ζ * T * w + T ^ 2 * w ^ 2 : ℝ) * harmonicSum (fun _ => 1) ω rows (advanced ((n + 2 : ℕ) * (ω * T)) rows phases) +
        (-8 + 2 * T ^ 2 * w ^ 2 : ℝ) * harmonicSum (fun _ => 1) ω rows (advanced ((n + 1 : ℕ) * (ω * T)) rows phases) +
        (4 - 4 * ζ * T * w + T ^ 2 * w ^ 2 : ℝ) * harmonicSum (fun _ => 1) ω rows (advanced ((n : ℕ) * (ω * T)) rows phases)
  | [], _, _ => by simp [advanced, harmonicSum]
  | _ :: _, [], _ => by simp [advanced, harmonicSum]
  | row :: rows, phase :: phases, hc => by
    have ih := sum_recurrence T w ζ b ω hT hw hb n rows phases fun r hr => hc r (List.mem_cons_of_mem _ hr)
    have hg := gain_spec T w ζ b (row.getD 0 0 * ω * T) hT hw hb (hc row (List.mem_cons_self ..)) _ rfl
    simp only [advanced, harmonicSum]
    have ex : ∀ m : ℕ, Complex.exp (((phase + row.getD 0 0 * ((m : ℕ) * (ω * T)) : ℝ) : ℂ) * Complex.I) =
        Complex.exp (phase * Complex.I) * Complex.exp (((row.getD 0 0 * ω * T : ℝ) : ℂ) * Complex.I) ^ m := by
      intro m
      rw [← Complex.exp_nat_mul, ← Complex.exp_add]
      congr 1
      push_cast; ring
    rw [ex (n + 2), ex (n + 1), ex n]
    generalize Complex.exp (((row.getD 0 0 * ω * T : ℝ) : ℂ) * Complex.I) = z at hg
    generalize transfer w ζ b (Complex.I * (2 / T * Real.tan (row.getD 0 0 * ω * T / 2) : ℝ)) = g at hg
    generalize Complex.exp (phase * Complex.I) = E
    generalize ((row.getD 1 0 * ω ^ 2 : ℝ) : ℂ) = a
    rw [pow_add, pow_add]
    linear_combination ih + a * E * z ^ n * hg

/-! ## C121 the filter -/

/-- The harmonics at call `m` at constant speed; before the first call nothing. -/
noncomputable def input (T ω : ℝ) (rows : List (List ℝ)) (phases : List ℝ) (m : ℕ) : Vec 3 :=
  if m = 0 then fun _ => 0 else planar (harmonicSum (fun _ => 1) ω rows (advanced (m * (ω * T)) rows phases))

/-- The output of the filter at calls `m` and `m - 1`. -/
noncomputable def output (c : Fin 6 → ℝ) (u : ℕ → Vec 3) : ℕ → Vec 3 × Vec 3
  | 0 => (fun _ => 0, fun _ => 0)
  | n + 1 => (fun k => (-(c 1) * (output c u n).1 k - c 2 * (output c u n).2 k + c 3 * u (n + 1) k + c 4 * u n k + c 5 * u (n - 1) k) / c 0, (output c u n).1)

theorem run_replicate_succ (ω : ℝ) (n : ℕ) (j : Jitter) :
    Jitter.run (List.replicate (n + 1) ω) j = (Jitter.run (List.replicate n ω) j).bind fun x => x.calcJitter ω := by
  induction n generalizing j with
  | zero =>
    simp only [List.replicate, Jitter.run, Res.bind]
    rcases j.calcJitter ω with x | _ | _ | _ <;> rfl
  | succ n ih =>
    rw [List.replicate_succ, Jitter.run]
    conv_rhs => rw [List.replicate_succ, Jitter.run]
    rcases j.calcJitter ω with x | _ | _ | _
    · simp only [Res.bind, ih]
    all_goals rfl

/-- The state after `n` calls at constant speed. -/
theorem resonant_state (j : Jitter) (hf : Fits j) (hc : Complete j) (hr : j.considers = true) (h1 : j.forceIn = .zero) (h2 : j.torqueIn = .zero)
    (h3 : j.forceOut = .zero) (h4 : j.torqueOut = .zero) (h5 : j.forceB = fun _ => 0) (h6 : j.torqueB = fun _ => 0) (ω : ℝ) (n : ℕ) :
    ∃ x, Jitter.run (List.replicate n ω) j = .ok x ∧ x.considers = true ∧ x.forceRows = j.forceRows ∧ x.torqueRows = j.torqueRows ∧
      x.interval = j.interval ∧ x.coef = j.coef ∧ x.b2c = j.b2c ∧
      x.forcePhase = advanced (n * (ω * j.interval)) j.forceRows j.forcePhase ∧
      x.torquePhase = advanced (n * (ω * j.interval)) j.torqueRows j.torquePhase ∧
      x.forceIn = ⟨input j.interval ω j.forceRows j.forcePhase n, input j.interval ω j.forceRows j.forcePhase n,
        input j.interval ω j.forceRows j.forcePhase (n - 1)⟩ ∧
      x.torqueIn = ⟨input j.interval ω j.torqueRows j.torquePhase n, input j.interval ω j.torqueRows j.torquePhase n,
        input j.interval ω j.torqueRows j.torquePhase (n - 1)⟩ ∧
      x.forceOut = ⟨(output j.coef (input j.interval ω j.forceRows j.forcePhase) n).1, (output j.coef (input j.interval ω j.forceRows j.forcePhase) n).1,
        (output j.coef (input j.interval ω j.forceRows j.forcePhase) n).2⟩ ∧
      x.torqueOut = ⟨(output j.coef (input j.interval ω j.torqueRows j.torquePhase) n).1, (output j.coef (input j.interval ω j.torqueRows j.torquePhase) n).1,
        (output j.coef (input j.interval ω j.torqueRows j.torquePhase) n).2⟩ ∧
      x.forceB = j.b2c.inverseFrameConversion x.forceC ∧ x.torqueB = j.b2c.inverseFrameConversion x.torqueC := by
  induction n with
  | zero =>
    have hz : j.b2c.inverseFrameConversion (fun _ => 0) = fun _ => 0 := by
      rw [inverse_explicit]; apply vec3_ext <;> simp
    refine ⟨j, rfl, hr, rfl, rfl, rfl, rfl, rfl, ?_, ?_, ?_, ?_, ?_, ?_, ?_, ?_⟩
    · simp [advanced_zero _ _ hf.force]
    · simp [advanced_zero _ _ hf.torque]
    · rw [h1]; simp [input, Window.zero]
    · rw [h2]; simp [input, Window.zero]
    · rw [h3]; simp [output, Window.zero]
    · rw [h4]; simp [output, Window.zero]
    · rw [h5, Jitter.forceC, hr, if_pos rfl, h3]; exact hz.symm
    · rw [h6, Jitter.torqueC, hr, if_pos rfl, h4]; exact hz.symm
  | succ n ih =>
    obtain ⟨x, g0, g1, g2, g3, g4, g5, g6, g7, g8, g9, g10, g11, g12, -⟩ := ih
    have l1 : j.forceRows.length = x.forcePhase.length := by rw [g7, advanced_length _ _ _ hf.force]
    have l2 : j.torqueRows.length = x.torquePhase.length := by rw [g8, advanced_length _ _ _ hf.torque]
    have p1 : advanced (ω * j.interval) j.forceRows x.forcePhase = advanced ((n + 1 : ℕ) * (ω * j.interval)) j.forceRows j.forcePhase := by
      rw [g7, advanced_add]; congr 1; push_cast; ring
    have p2 : advanced (ω * j.interval) j.torqueRows x.torquePhase = advanced ((n + 1 : ℕ) * (ω * j.interval)) j.torqueRows j.torquePhase := by
      rw [g8, advanced_add]; congr 1; push_cast; ring
    have q1 : ∀ rows phases, (![(harmonicSum (fun _ => 1) ω rows (advanced ((n + 1 : ℕ) * (ω * j.interval)) rows phases)).im,
        (harmonicSum (fun _ => 1) ω rows (advanced ((n + 1 : ℕ) * (ω * j.interval)) rows phases)).re, 0] : Vec 3) =
        input j.interval ω rows phases (n + 1) := by
      intro rows phases
      rw [input, if_neg (by omega)]; rfl
    rw [run_replicate_succ, g0]
    simp only [Res.bind, Jitter.calcJitter, g2, g3, g4, harmonics_spec _ _ _ _ _ _ l1 hc.1, harmonics_spec _ _ _ _ _ _ l2 hc.2, g1, if_true, zero_add, p1, p2, q1]
    refine ⟨_, rfl, rfl, rfl, rfl, rfl, g5, g6, rfl, rfl, ?_, ?_, ?_, ?_, ?_, ?_⟩
    · simp only [Window.shift, g9]; rfl
    · simp only [Window.shift, g10]; rfl
    · simp only [Window.shift, g11, g9, g5, output]; rfl
    · simp only [Window.shift, g12, g10, g5, output]; rfl
    · simp only [Jitter.forceC, if_true, Window.shift, g6]
    · simp only [Jitter.torqueC, if_true, Window.shift, g6]

/-- The output of the filter tends to the sum of the harmonics with their gains. -/
theorem output_steady (T w ζ b ω : ℝ) (hT : 0 < T) (hw : 0 < w) (hb : 0 < b * ζ) (rows : List (List ℝ)) (phases : List ℝ)
    (hc : ∀ r ∈ rows, Real.cos (r.getD 0 0 * ω * T / 2) ≠ 0) (c : Fin 6 → ℝ)
    (hcoef : c = ![4 + 4 * b * ζ * T * w + T ^ 2 * w ^ 2, -8 + 2 * T ^ 2 * w ^ 2, 4 - 4 * b * ζ * T * w + T ^ 2 * w ^ 2,
      4 + 4 * ζ * T * w + T ^ 2 * w ^ 2, -8 + 2 * T ^ 2 * w ^ 2, 4 - 4 * ζ * T * w + T ^ 2 * w ^ 2]) (k : Fin 3) :
    Tendsto (fun n : ℕ => (output c (input T ω rows phases) n).1 k -
      planar (harmonicSum (fun r => transfer w ζ b (Complex.I * (2 / T * Real.tan (r.getD 0 0 * ω * T / 2) : ℝ))) ω rows
        (advanced (n * (ω * T)) rows phases)) k) atTop (𝓝 0) := by
  set S : ℕ → ℂ := fun n => harmonicSum (fun r => transfer w ζ b (Complex.I * (2 / T * Real.tan (r.getD 0 0 * ω * T / 2) : ℝ))) ω rows
    (advanced (n * (ω * T)) rows phases) with hS
  set U : ℕ → ℂ := fun n => harmonicSum (fun _ => 1) ω rows (advanced (n * (ω * T)) rows phases) with hU
  have hrec : ∀ n : ℕ, (c 0 : ℂ) * S (n + 2) + c 1 * S (n + 1) + c 2 * S n = c 3 * U (n + 2) + c 4 * U (n + 1) + c 5 * U n := by
    intro n
    have := sum_recurrence T w ζ b ω hT hw hb n rows phases hc
    rw [hcoef]
    exact this
  have hplan : ∀ (a0 a1 a2 b0 b1 b2 : ℝ) (s2 s1 s0 u2 u1 u0 : ℂ), (a0 : ℂ) * s2 + a1 * s1 + a2 * s0 = b0 * u2 + b1 * u1 + b2 * u0 →
      a0 * planar s2 k + a1 * planar s1 k + a2 * planar s0 k = b0 * planar u2 k + b1 * planar u1 k + b2 * planar u0 k := by
    intro a0 a1 a2 b0 b1 b2 s2 s1 s0 u2 u1 u0 h
    have hre := congrArg Complex.re h
    have him := congrArg Complex.im h
    simp only [Complex.add_re, Complex.add_im, Complex.re_ofReal_mul, Complex.im_ofReal_mul] at hre him
    fin_cases k
    · simpa [planar] using him
    · simpa [planar] using hre
    · simp [planar]
  have hβ : 0 < b * ζ * T * w := by positivity
  have hγ : 0 < T ^ 2 * w ^ 2 := by positivity
  have c0 : c 0 = 4 + 4 * (b * ζ * T * w) + T ^ 2 * w ^ 2 := by rw [hcoef]; simp; ring
  have c1 : c 1 = -8 + 2 * (T ^ 2 * w ^ 2) := by rw [hcoef]; simp; ring
  have c2 : c 2 = 4 - 4 * (b * ζ * T * w) + T ^ 2 * w ^ 2 := by rw [hcoef]; simp; ring
  have hc0 : c 0 ≠ 0 := by rw [c0]; positivity
  have hout : ∀ n : ℕ, c 0 * (output c (input T ω rows phases) (n + 3)).1 k + c 1 * (output c (input T ω rows phases) (n + 2)).1 k +
      c 2 * (output c (input T ω rows phases) (n + 1)).1 k = c 3 * planar (U (n + 3)) k + c 4 * planar (U (n + 2)) k + c 5 * planar (U (n + 1)) k := by
    intro n
    have e : (output c (input T ω rows phases) (n + 3)).1 k =
        (-(c 1) * (output c (input T ω rows phases) (n + 2)).1 k - c 2 * (output c (input T ω rows phases) (n + 1)).1 k +
          c 3 * planar (U (n + 3)) k + c 4 * planar (U (n + 2)) k + c 5 * planar (U (n + 1)) k) / c 0 := rfl
    rw [e]
    field_simp
    ring
  set e : ℕ → ℝ := fun n => (output c (input T ω rows phases) (n + 1)).1 k - planar (S (n + 1)) k with he
  have hfree : Tendsto e atTop (𝓝 0) := by
    refine free_decay (b * ζ * T * w) (T ^ 2 * w ^ 2) hβ hγ e fun n => ?_
    rw [← c0, ← c1, ← c2]
    have h1 := hout n
    have h2 := hplan _ _ _ _ _ _ _ _ _ _ _ _ (hrec (n + 1))
    simp only [he]
    rw [show n + 2 + 1 = n + 3 from rfl, show n + 1 + 1 = n + 2 from rfl]
    rw [show n + 1 + 2 = n + 3 from rfl, show n + 1 + 1 = n + 2 from rfl] at h2
    linear_combination h1 - h2
  exact (tendsto_add_atTop_iff_nat 1).1 hfree

/-- **C121.** With structural resonance at the frequency `f` below half the update rate and positive damping, let the wheel turn at any constant speed:
force and torque tend to the sums of the harmonics, each multiplied by the transfer function `(s² + 2ζws + w²) / (s² + 2bζws + w²)` at
`s = i (2/T) tan(Ω T/2)`, where `Ω` is the frequency of the harmonic and `w = (2/T) tan(2πf T/2)`. Nothing is undefined, whatever the coefficient array
contained before. -/
theorem C121_steady (rows trows : List (List ℝ)) (T : ℝ) (q : Quat) (f ζ b : ℝ) (phases tphases : List ℝ) (garbage : Fin 6 → ℝ) (ω : ℝ) (hT : 0 < T)
    (hf : 0 < f) (hny : 2 * f * T < 1) (hb : 0 < b * ζ) (l1 : rows.length = phases.length) (l2 : trows.length = tphases.length)
    (c1 : ∀ r ∈ rows, 2 ≤ r.length) (c2 : ∀ r ∈ trows, 2 ≤ r.length)
    (n1 : ∀ r ∈ rows, Real.cos (r.getD 0 0 * ω * T / 2) ≠ 0) (n2 : ∀ r ∈ trows, Real.cos (r.getD 0 0 * ω * T / 2) ≠ 0) :
    let w := 2 / T * Real.tan (2 * Real.pi * f * T / 2)
    let g : List ℝ → ℂ := fun r => transfer w ζ b (Complex.I * (2 / T * Real.tan (r.getD 0 0 * ω * T / 2) : ℝ))
    ∃ J : ℕ → Jitter, (∀ n, Jitter.run (List.replicate n ω) (Jitter.new rows trows T q f ζ b true phases tphases garbage) = .ok (J n)) ∧
      (∀ n : ℕ, (J n).forcePhase = advanced (n * (ω * T)) rows phases ∧ (J n).torquePhase = advanced (n * (ω * T)) trows tphases ∧
        (J n).forceB = q.inverseFrameConversion (J n).forceC ∧ (J n).torqueB = q.inverseFrameConversion (J n).torqueC) ∧
      (∀ k, Tendsto (fun n => (J n).forceC k - planar (harmonicSum g ω rows (J n).forcePhase) k) atTop (𝓝 0)) ∧
      ∀ k, Tendsto (fun n => (J n).torqueC k - planar (harmonicSum g ω trows (J n).torquePhase) k) atTop (𝓝 0) := by
  intro w g
  have hw : 0 < w := by
    have hpi := Real.pi_pos
    refine mul_pos (by positivity) (Real.tan_pos_of_pos_of_lt_pi_div_two (by positivity) ?_)
    have := mul_lt_mul_of_pos_left hny (by positivity : 0 < Real.pi / 2)
    linarith
  set j := Jitter.new rows trows T q f ζ b true phases tphases garbage with hj
  have hst := resonant_state j ⟨l1, l2⟩ ⟨c1, c2⟩ rfl rfl rfl rfl rfl rfl rfl ω
  choose J h0 h1 h2 h3 h4 h5 h6 h7 h8 h9 h10 h11 h12 h13 h14 using hst
  have hcoef : j.coef = ![4 + 4 * b * ζ * T * w + T ^ 2 * w ^ 2, -8 + 2 * T ^ 2 * w ^ 2, 4 - 4 * b * ζ * T * w + T ^ 2 * w ^ 2,
      4 + 4 * ζ * T * w + T ^ 2 * w ^ 2, -8 + 2 * T ^ 2 * w ^ 2, 4 - 4 * ζ * T * w + T ^ 2 * w ^ 2] := rfl
  refine ⟨J, h0, fun n => ⟨h7 n, h8 n, h13 n, h14 n⟩, fun k => ?_, fun k => ?_⟩
  · refine (output_steady T w ζ b ω hT hw hb rows phases n1 j.coef hcoef k).congr fun n => ?_
    rw [Jitter.forceC, h1, if_pos rfl, h11, h7]
    rfl
  · refine (output_steady T w ζ b ω hT hw hb trows tphases n2 j.coef hcoef k).congr fun n => ?_
    rw [Jitter.torqueC, h1, if_pos rfl, h12, h8]
    rfl

/-- The gain is one at frequency zero, and `1 / b` for the harmonic whose frequency is the structural resonance. -/
theorem C121_gain (T f ζ b : ℝ) (hT : 0 < T) (hf : 0 < f) (hny : 2 * f * T < 1) (hb : 0 < b * ζ) (r : List ℝ) (ω : ℝ) :
    let w := 2 / T * Real.tan (2 * Real.pi * f * T / 2)
    let g : ℂ := transfer w ζ b (Complex.I * (2 / T * Real.tan (r.getD 0 0 * ω * T / 2) : ℝ))
    (r.getD 0 0 * ω = 0 → g = 1) ∧ (r.getD 0 0 * ω = 2 * Real.pi * f → g = 1 / b) := by
  intro w g
  have hw : 0 < w := by
    have hpi := Real.pi_pos
    refine mul_pos (by positivity) (Real.tan_pos_of_pos_of_lt_pi_div_two (by positivity) ?_)
    have := mul_lt_mul_of_pos_left hny (by positivity : 0 < Real.pi / 2)
    linarith
  have hw' : (w : ℂ) ≠ 0 := by exact_mod_cast hw.ne'
  constructor
  · intro h
    simp only [g, h, zero_mul, zero_div, Real.tan_zero, mul_zero, Complex.ofReal_zero, transfer]
    simp [hw']
  · intro h
    have e : (2 / T * Real.tan (r.getD 0 0 * ω * T / 2) : ℝ) = w := by rw [h]
    have hbz : (b : ℂ) ≠ 0 ∧ (ζ : ℂ) ≠ 0 := by
      constructor
      · intro h0; have : b = 0 := by exact_mod_cast h0
        rw [this] at hb; simp at hb
      · intro h0; have : ζ = 0 := by exact_mod_cast h0
        rw [this] at hb; simp at hb
    simp only [g, e, transfer, mul_pow, Complex.I_sq]
    have hI := Complex.I_ne_zero
    rw [show (-1 * (w : ℂ) ^ 2 + 2 * ζ * w * (Complex.I * w) + w ^ 2) = 2 * ζ * w ^ 2 * Complex.I by ring,
      show (-1 * (w : ℂ) ^ 2 + 2 * b * ζ * w * (Complex.I * w) + w ^ 2) = b * (2 * ζ * w ^ 2 * Complex.I) by ring]
    have hn : (2 : ℂ) * ζ * w ^ 2 * Complex.I ≠ 0 := mul_ne_zero (mul_ne_zero (mul_ne_zero two_ne_zero hbz.2) (pow_ne_zero _ hw')) hI
    rw [div_eq_div_iff (mul_ne_zero hbz.1 hn) hbz.1]
    ring

/-- A wheel at 10 rad/s with one harmonic, resonance at 2 Hz, updated every 10 ms meets the hypotheses of `C121_steady`. -/
example : ∃ J : ℕ → Jitter, (∀ n, Jitter.run (List.replicate n 10) (Jitter.new [[1, 2]] [] (1 / 100) ⟨0, 0, 0, 1⟩ 2 (1 / 10) (1 / 10) true [0] [] 0) =
    .ok (J n)) := by
  have hcos : Real.cos (([1, 2] : List ℝ).getD 0 0 * 10 * (1 / 100) / 2) ≠ 0 := by
    apply ne_of_gt
    apply Real.cos_pos_of_mem_Ioo
    have := Real.pi_gt_three
    constructor <;> norm_num <;> linarith
  obtain ⟨J, h, -⟩ := C121_steady [[1, 2]] [] (1 / 100) ⟨0, 0, 0, 1⟩ 2 (1 / 10) (1 / 10) [0] [] 0 10 (by norm_num) (by norm_num) (by norm_num) (by norm_num) rfl rfl
    (by simp) (by simp) (by intro r hr; rw [List.mem_singleton.1 hr]; exact hcos) (by simp)
  exact ⟨J, h⟩

/-! ## C122 one jitter for all wheels -/

/-- **C122.** All wheels made by `InitReactionWheel` report the jitter of one and the same object: after creating one more wheel, the jitter of every wheel is
that of the new one, and at every moment all wheels with jitter report the same force. -/
theorem C122_last_jitter (f f' : Fleet) (p : WheelParams) (j : Jitter) (e : Bool) (h : f.init p j e = .ok f') (enabled : Bool) :
    f'.jitter = j ∧ f'.wheels.length = f.wheels.length + 1 ∧ f'.jitterForce enabled = if enabled then j.forceB else fun _ => 0 := by
  unfold Fleet.init at h
  rcases hw : Wheel.new p with w | _ | _ | _ <;> simp only [hw, Res.bind, reduceCtorEq] at h
  obtain rfl := Res.ok.inj h
  exact ⟨rfl, by simp, rfl⟩

/-- The torque a wheel with jitter reports is its rotor torque plus the moment, about the origin of the body frame, of the *opposite* of the force it
reports, plus the opposite of the jitter torque: force and torque have different signs. -/
theorem C122_torque_sign (f : Fleet) (w : Wheel) :
    f.outputTorque w true = vadd w.torque (vadd (outerProduct w.position (vneg (f.jitterForce true))) (vneg f.jitter.torqueB)) ∧
      f.outputTorque w false = w.torque := by
  refine ⟨?_, rfl⟩
  simp only [Fleet.outputTorque, Fleet.jitterForce, if_true]
  apply vec3_ext <;> simp [vsub, vadd, vneg, scale, outerProduct] <;> ring

/-- A round of fast updates of all wheels, all with jitter: `FastUpdate` of wheel `k` up to the last. -/
noncomputable def Fleet.rounds : List ℕ → Fleet → Res Fleet
  | [], f => .ok f
  | k :: ks, f => (f.fastUpdate k).bind (Fleet.rounds ks)

theorem rounds_eq (f : Fleet) : ∀ (ks : List ℕ) (j : Jitter), (∀ k ∈ ks, ∃ w, f.wheels[k]? = some (w, true)) →
    ∃ speeds : List ℝ, speeds.map some = ks.map (fun k => f.wheels[k]?.map fun w => w.1.omega) ∧
      Fleet.rounds ks ⟨j, f.wheels⟩ = (Jitter.run speeds j).bind fun j' => .ok ⟨j', f.wheels⟩
  | [], j, _ => ⟨[], rfl, rfl⟩
  | k :: ks, j, h => by
    obtain ⟨w, hw⟩ := h k (List.mem_cons_self ..)
    rcases hj : j.calcJitter w.omega with j1 | _ | _ | _
    · obtain ⟨sp, h1, h2⟩ := rounds_eq f ks j1 fun k' hk => h k' (List.mem_cons_of_mem _ hk)
      refine ⟨w.omega :: sp, by simp [hw, h1], ?_⟩
      simp only [Fleet.rounds, Fleet.fastUpdate, hw, if_true, hj, Res.bind, Jitter.run] at h2 ⊢
      exact h2
    all_goals
      obtain ⟨sp, h1, -⟩ := rounds_eq f ks j fun k' hk => h k' (List.mem_cons_of_mem _ hk)
      refine ⟨w.omega :: sp, by simp [hw, h1], ?_⟩
      simp only [Fleet.rounds, Fleet.fastUpdate, hw, if_true, hj, Res.bind, Jitter.run]

/-- In one round of fast updates of the wheels `ks` (all with jitter, in any order) the phases of the shared harmonics advance by the sum of the
angles of all the wheels, not by that of one. -/
theorem C122_shared_phase (f : Fleet) (hf : Fits f.jitter) (hc : Complete f.jitter) (hr : f.jitter.considers = false) (ks : List ℕ) (hne : ks ≠ [])
    (hk : ∀ k ∈ ks, ∃ w, f.wheels[k]? = some (w, true)) :
    ∃ (f' : Fleet) (speeds : List ℝ), speeds.map some = ks.map (fun k => f.wheels[k]?.map fun w => w.1.omega) ∧ Fleet.rounds ks f = .ok f' ∧
      f'.wheels = f.wheels ∧ f'.jitter.forcePhase = advanced (speeds.sum * f.jitter.interval) f.jitter.forceRows f.jitter.forcePhase := by
  obtain ⟨sp, h1, h2⟩ := rounds_eq f ks f.jitter hk
  have hsp : sp ≠ [] := by
    intro h; rw [h] at h1; apply hne; simpa using h1.symm
  obtain ⟨init, last, rfl⟩ : ∃ init last, sp = init ++ [last] := ⟨_, _, (List.dropLast_append_getLast hsp).symm⟩
  obtain ⟨j', g0, g1, -⟩ := C120_harmonics f.jitter hf hc hr init last
  exact ⟨⟨j', f.wheels⟩, _, h1, by rw [h2, g0]; rfl, rfl, g1⟩

/-- Two wheels: at the end of a round both report the same force, and the phase of a harmonic of order one is the sum of both angles. -/
example (w1 w2 : Wheel) (j : Jitter) (hj : j = Jitter.new [[1, 2]] [] 1 ⟨0, 0, 0, 1⟩ 0 0 0 false [0] [] 0) :
    ∃ f', Fleet.rounds [0, 1] ⟨j, [(w1, true), (w2, true)]⟩ = .ok f' ∧ f'.jitter.forcePhase = [w1.omega + w2.omega] := by
  obtain ⟨f', sp, h1, h2, -, h4⟩ := C122_shared_phase ⟨j, [(w1, true), (w2, true)]⟩ (by rw [hj]; exact ⟨rfl, rfl⟩) (by rw [hj]; simp [Complete, Jitter.new])
    (by rw [hj]; rfl) [0, 1] (by simp) (by simp)
  refine ⟨f', h2, ?_⟩
  have : sp = [w1.omega, w2.omega] := by
    apply List.map_injective_iff.2 (Option.some_injective ℝ)
    rw [h1]; rfl
  rw [h4, this, hj]
  simp [Jitter.new, advanced]

end S2E.Wheel
