import Verif.Model.GaussianBeam
import Mathlib.Analysis.SpecialFunctions.Gaussian.GaussianIntegral
import Mathlib.Analysis.SpecialFunctions.PolarCoord
import Mathlib.Analysis.SpecialFunctions.ExpDeriv
import Mathlib.Analysis.Complex.RealDeriv
import Mathlib.MeasureTheory.Integral.IntervalIntegral.FundThmCalculus
/-!
# C161: the Gaussian beam
-/
namespace S2E.Beam
open MeasureTheory

/-- Positive wavelength and waist. -/
structure Beam.Valid (b : Beam) : Prop where
  wavelength : 0 < b.wavelength
  waist : 0 < b.waist

/-- A call of a setter. -/
inductive Call where
  | wavelength (x : ℝ)
  | waist (x : ℝ)
  | power (x : ℝ)

/-- The calls in order. -/
noncomputable def Beam.calls (b : Beam) : List Call → Res Beam
  | [] => .ok b
  | .wavelength x :: l => (b.setWavelength x).bind fun b => b.calls l
  | .waist x :: l => (b.setWaist x).bind fun b => b.calls l
  | .power x :: l => (b.setPower x).bind fun b => b.calls l

/-- Every call has an admissible value. -/
def Admissible (l : List Call) : Prop := ∀ c ∈ l, match c with
  | .wavelength x => 0 < x
  | .waist x => 0 < x
  | .power x => 0 ≤ x

/-- The last value among those selected by `f`, `x` if there is none. -/
def last (f : Call → Option ℝ) (x : ℝ) (l : List Call) : ℝ := ((l.filterMap f).getLast?).getD x

theorem last_cons (f : Call → Option ℝ) (x : ℝ) (c : Call) (l : List Call) : last f x (c :: l) = last f ((f c).getD x) l := by
  unfold last
  rw [List.filterMap_cons]
  rcases h : f c with _ | y
  · rfl
  · simp [List.getLast?_cons]

/-- **C161 (settings).** A history of setter calls ends the program exactly if one of the values is not admissible (wavelength and waist positive, power not
negative); otherwise each setting has its last value, or that of the constructor. -/
theorem C161_settings (b : Beam) (l : List Call) :
    (¬ Admissible l → b.calls l = .throws) ∧
    (Admissible l → b.calls l = .ok
      ⟨last (fun | .wavelength x => some x | _ => none) b.wavelength l, last (fun | .waist x => some x | _ => none) b.waist l,
        last (fun | .power x => some x | _ => none) b.power l⟩) := by
  induction l generalizing b with
  | nil => exact ⟨fun h => absurd (fun c hc => by simp at hc) h, fun _ => rfl⟩
  | cons c l ih =>
    have hadm : Admissible (c :: l) ↔ Admissible [c] ∧ Admissible l := by simp [Admissible]
    simp only [last_cons]
    rw [hadm]
    cases c with
    | wavelength x =>
      have h1 : Admissible [.wavelength x] ↔ 0 < x := by simp [Admissible]
      rw [h1]
      by_cases hx : 0 < x
      · simpa only [Beam.calls, Beam.setWavelength, gt_iff_lt, hx, if_true, Res.bind, true_and, Option.getD_some, Option.getD_none] using ih { b with wavelength := x }
      · simp only [Beam.calls, Beam.setWavelength, gt_iff_lt, hx, if_false, Res.bind, false_and, not_false_eq_true, forall_const, false_imp_iff, and_true]
    | waist x =>
      have h1 : Admissible [.waist x] ↔ 0 < x := by simp [Admissible]
      rw [h1]
      by_cases hx : 0 < x
      · simpa only [Beam.calls, Beam.setWaist, gt_iff_lt, hx, if_true, Res.bind, true_and, Option.getD_some, Option.getD_none] using ih { b with waist := x }
      · simp only [Beam.calls, Beam.setWaist, gt_iff_lt, hx, if_false, Res.bind, false_and, not_false_eq_true, forall_const, false_imp_iff, and_true]
    | power x =>
      have h1 : Admissible [.power x] ↔ 0 ≤ x := by simp [Admissible]
      rw [h1]
      by_cases hx : 0 ≤ x
      · simpa only [Beam.calls, Beam.setPower, ge_iff_le, hx, if_true, Res.bind, true_and, Option.getD_some, Option.getD_none] using ih { b with power := x }
      · simp only [Beam.calls, Beam.setPower, ge_iff_le, hx, if_false, Res.bind, false_and, not_false_eq_true, forall_const, false_imp_iff, and_true]

/-- The length over which the beam spreads. -/
noncomputable def Beam.rayleigh (b : Beam) : ℝ := Real.pi * b.waist ^ 2 / b.wavelength

theorem Beam.Valid.rayleigh_pos {b : Beam} (h : b.Valid) : 0 < b.rayleigh := by
  have := h.wavelength
  have := h.waist
  unfold Beam.rayleigh
  have := Real.pi_pos
  positivity

theorem width_eq {b : Beam} (z : ℝ) : b.width z = b.waist * Real.sqrt (1 + (z / b.rayleigh) ^ 2) := by
  unfold Beam.width Beam.rayleigh
  simp only
  rw [pow_two b.waist, mul_assoc]

theorem width_pos {b : Beam} (h : b.Valid) (z : ℝ) : 0 < b.width z := by
  rw [width_eq]
  have := h.waist
  positivity

theorem width_sq {b : Beam} (z : ℝ) : b.width z ^ 2 = b.waist ^ 2 * (1 + (z / b.rayleigh) ^ 2) := by
  rw [width_eq, mul_pow, Real.sq_sqrt (by positivity)]

/-- **C161 (width).** The radius of the beam is a hyperbola: its smallest value, taken only at the waist, is the waist radius; it is the same on both sides, grows
strictly with the distance, is √2 waists one Rayleigh length away, and exceeds its asymptote with the half angle λ/(π w₀) by an amount that is at most
w₀ z_R/(2 |z|) and so tends to 0. -/
theorem C161_width (b : Beam) (h : b.Valid) :
    (∀ z, (b.width z / b.waist) ^ 2 - (z / b.rayleigh) ^ 2 = 1 ∧ 0 < b.width z) ∧ b.width 0 = b.waist ∧ (∀ z, b.width (-z) = b.width z) ∧
    (∀ z z', |z| < |z'| → b.width z < b.width z') ∧ b.width b.rayleigh = Real.sqrt 2 * b.waist ∧
    ∀ z, z ≠ 0 → 0 < b.width z - b.wavelength / (Real.pi * b.waist) * |z| ∧
      b.width z - b.wavelength / (Real.pi * b.waist) * |z| ≤ b.waist * b.rayleigh / (2 * |z|) := by
  have hR := h.rayleigh_pos
  have hw := h.waist
  have hl := h.wavelength
  have hmono : ∀ z z', |z| < |z'| → b.width z < b.width z' := by
    intro z z' hz
    rw [width_eq, width_eq]
    apply mul_lt_mul_of_pos_left _ hw
    apply Real.sqrt_lt_sqrt (by positivity)
    have : (z / b.rayleigh) ^ 2 < (z' / b.rayleigh) ^ 2 := by
      rw [sq_lt_sq, abs_div, abs_div, abs_of_pos hR]
      exact div_lt_div_of_pos_right hz hR
    linarith
  refine ⟨fun z => ⟨?_, width_pos h z⟩, ?_, fun z => ?_, hmono, ?_, fun z hz => ?_⟩
  · rw [div_pow, width_sq]
    field_simp
    ring
  · rw [width_eq]; simp
  · rw [width_eq, width_eq, neg_div, neg_sq]
  · rw [width_eq, div_self hR.ne', one_pow, mul_comm]
    norm_num
  · have hslope : b.wavelength / (Real.pi * b.waist) = b.waist / b.rayleigh := by
      unfold Beam.rayleigh
      have := Real.pi_pos
      field_simp
    rw [hslope]
    have hz' : 0 < |z| := abs_pos.mpr hz
    have hs := width_sq (b := b) z
    have hp := width_pos h z
    set t : ℝ := b.waist / b.rayleigh * |z| with ht
    have htp : 0 < t := by positivity
    have ht2 : t ^ 2 = b.waist ^ 2 * (z / b.rayleigh) ^ 2 := by
      rw [ht, mul_pow, sq_abs, div_pow, div_pow]; ring
    have hlt : t < b.width z := by
      apply lt_of_pow_lt_pow_left₀ 2 hp.le
      rw [hs, ht2]
      nlinarith [pow_pos hw 2]
    refine ⟨by linarith, ?_⟩
    have hgoal : b.waist * b.rayleigh / (2 * |z|) = b.waist ^ 2 / (2 * t) := by
      rw [ht]; field_simp
    rw [hgoal, le_div_iff₀ (by positivity)]
    have : (b.width z - t) * (b.width z + t) = b.waist ^ 2 := by
      have : (b.width z - t) * (b.width z + t) = b.width z ^ 2 - t ^ 2 := by ring
      rw [this, hs, ht2]; ring
    nlinarith

theorem intensity_eq {b : Beam} (z r : ℝ) :
    b.intensity z r = 2 * b.power / (Real.pi * b.width z ^ 2) * Real.exp (-(2 / b.width z ^ 2) * r ^ 2) := by
  unfold Beam.intensity
  simp only
  congr 2
  · ring
  · ring

/-- **C161 (power).** The power through the whole plane at any distance from the waist is the total power. -/
theorem C161_total (b : Beam) (h : b.Valid) (z : ℝ) :
    ∫ p : ℝ × ℝ, b.intensity z (Real.sqrt (p.1 ^ 2 + p.2 ^ 2)) = b.power := by
  have hp := width_pos h z
  have e : ∀ p : ℝ × ℝ, b.intensity z (Real.sqrt (p.1 ^ 2 + p.2 ^ 2)) =
      2 * b.power / (Real.pi * b.width z ^ 2) * (Real.exp (-(2 / b.width z ^ 2) * p.1 ^ 2) * Real.exp (-(2 / b.width z ^ 2) * p.2 ^ 2)) := by
    intro p
    rw [intensity_eq, Real.sq_sqrt (by positivity), ← Real.exp_add]
    congr 2
    ring
  simp only [e]
  rw [integral_const_mul]
  have := integral_prod_mul (μ := (volume : Measure ℝ)) (ν := (volume : Measure ℝ)) (fun x : ℝ => Real.exp (-(2 / b.width z ^ 2) * x ^ 2)) (fun x : ℝ => Real.exp (-(2 / b.width z ^ 2) * x ^ 2))
  rw [← Measure.volume_eq_prod] at this
  rw [this, integral_gaussian, Real.mul_self_sqrt (by have := Real.pi_pos; positivity)]
  have := Real.pi_pos
  field_simp

/-- **C161 (encircled power).** The power through a disc of radius R about the axis is the total power times 1 - exp(-2 R²/w²): in the radius of the beam
itself 1 - e⁻², about 86 percent. -/
theorem C161_encircled (b : Beam) (h : b.Valid) (z R : ℝ) (hR : 0 ≤ R) :
    ∫ p : ℝ × ℝ in {p | p.1 ^ 2 + p.2 ^ 2 ≤ R ^ 2}, b.intensity z (Real.sqrt (p.1 ^ 2 + p.2 ^ 2)) =
      b.power * (1 - Real.exp (-2 * (R / b.width z) ^ 2)) := by
  have hp := width_pos h z
  have hms : MeasurableSet {p : ℝ × ℝ | p.1 ^ 2 + p.2 ^ 2 ≤ R ^ 2} := by
    apply measurableSet_le <;> fun_prop
  rw [← integral_indicator hms, ← integral_comp_polarCoord_symm]
  have hin : ∀ p ∈ polarCoord.target, p.1 • ({p : ℝ × ℝ | p.1 ^ 2 + p.2 ^ 2 ≤ R ^ 2}.indicator
      (fun p => b.intensity z (Real.sqrt (p.1 ^ 2 + p.2 ^ 2)))) (polarCoord.symm p) =
      ((Set.Iic R).indicator (fun r => r * b.intensity z r) p.1) * (fun _ : ℝ => (1 : ℝ)) p.2 := by
    intro p hp
    have hp1 : 0 < p.1 := hp.1
    have hsq : (p.1 * Real.cos p.2) ^ 2 + (p.1 * Real.sin p.2) ^ 2 = p.1 ^ 2 := by
      have := Real.cos_sq_add_sin_sq p.2
      calc _ = p.1 ^ 2 * (Real.cos p.2 ^ 2 + Real.sin p.2 ^ 2) := by ring
        _ = _ := by rw [this, mul_one]
    simp only [polarCoord_symm_apply, Set.indicator, Set.mem_setOf_eq, hsq, Set.mem_Iic, Real.sqrt_sq hp1.le, smul_eq_mul, mul_one]
    by_cases hc : p.1 ≤ R
    · rw [if_pos (by gcongr), if_pos hc]
    · rw [if_neg (by intro hh; exact hc (by nlinarith)), if_neg hc, mul_zero]
  have hT : polarCoord.target = Set.Ioi (0 : ℝ) ×ˢ Set.Ioo (-Real.pi) Real.pi := rfl
  rw [hT] at hin ⊢
  rw [setIntegral_congr_fun (measurableSet_Ioi.prod measurableSet_Ioo) hin]
  rw [Measure.volume_eq_prod, setIntegral_prod_mul ((Set.Iic R).indicator (fun r => r * b.intensity z r)) (fun _ : ℝ => (1 : ℝ))]
  rw [setIntegral_indicator measurableSet_Iic, Set.Ioi_inter_Iic, ← intervalIntegral.integral_of_le hR]
  have hder : ∀ r ∈ Set.uIcc 0 R, HasDerivAt (fun r => -(b.power / (2 * Real.pi)) * Real.exp (-(2 / b.width z ^ 2) * r ^ 2)) (r * b.intensity z r) r := by
    intro r _
    have h1 : HasDerivAt (fun r : ℝ => -(2 / b.width z ^ 2) * r ^ 2) (-(2 / b.width z ^ 2) * (2 * r)) r := by
      simpa using (hasDerivAt_pow 2 r).const_mul (-(2 / b.width z ^ 2))
    have h2 := (h1.exp).const_mul (-(b.power / (2 * Real.pi)))
    refine h2.congr_deriv ?_
    rw [intensity_eq]
    have := Real.pi_pos
    field_simp
  have hcont : Continuous fun r => r * b.intensity z r := by
    simp only [intensity_eq]
    fun_prop
  rw [intervalIntegral.integral_eq_sub_of_hasDerivAt hder (hcont.intervalIntegrable _ _)]
  have hang : ∫ _ in Set.Ioo (-Real.pi) Real.pi, (1 : ℝ) = 2 * Real.pi := by
    simp
    have := Real.pi_pos
    rw [max_eq_left (by linarith)]; ring
  rw [hang]
  have e1 : -(2 / b.width z ^ 2) * R ^ 2 = -2 * (R / b.width z) ^ 2 := by rw [div_pow]; ring
  rw [e1]
  have := Real.pi_pos
  simp
  field_simp
  ring

/-- **C161 (intensity).** The intensity is positive for positive power, falls strictly with the distance from the axis at every distance from the waist, is e⁻² of
that on the axis at the radius of the beam, and is nowhere greater than 2 P/(π w₀²), its value at the centre of the waist. -/
theorem C161_intensity (b : Beam) (h : b.Valid) (hP : 0 < b.power) :
    (∀ z r, 0 < b.intensity z r) ∧ (∀ z r r', |r| < |r'| → b.intensity z r' < b.intensity z r) ∧
    (∀ z, b.intensity z (b.width z) = Real.exp (-2) * b.intensity z 0) ∧
    b.intensity 0 0 = 2 * b.power / (Real.pi * b.waist ^ 2) ∧ ∀ z r, b.intensity z r ≤ b.intensity 0 0 := by
  have hpi := Real.pi_pos
  have hw := h.waist
  have hpos : ∀ z, 0 < 2 * b.power / (Real.pi * b.width z ^ 2) := by
    intro z
    have := width_pos h z
    positivity
  have hax : ∀ z r, b.intensity z r ≤ b.intensity z 0 := by
    intro z r
    rw [intensity_eq, intensity_eq]
    apply mul_le_mul_of_nonneg_left _ (hpos z).le
    rw [Real.exp_le_exp]
    have := width_pos h z
    have : 0 ≤ 2 / b.width z ^ 2 * r ^ 2 := by positivity
    linarith
  have h0 : b.width 0 = b.waist := (C161_width b h).2.1
  have hc : ∀ z, b.intensity z 0 = 2 * b.power / (Real.pi * b.width z ^ 2) := by
    intro z
    rw [intensity_eq]
    simp
  refine ⟨fun z r => ?_, fun z r r' hr => ?_, fun z => ?_, by rw [hc, h0], fun z r => (hax z r).trans ?_⟩
  · rw [intensity_eq]
    exact mul_pos (hpos z) (Real.exp_pos _)
  · rw [intensity_eq, intensity_eq]
    apply mul_lt_mul_of_pos_left _ (hpos z)
    rw [Real.exp_lt_exp]
    have h1 : r ^ 2 < r' ^ 2 := sq_lt_sq.mpr hr
    have := width_pos h z
    have : 2 / b.width z ^ 2 * r ^ 2 < 2 / b.width z ^ 2 * r' ^ 2 := mul_lt_mul_of_pos_left h1 (by positivity)
    linarith
  · rw [hc, intensity_eq, mul_comm]
    congr 2
    have := width_pos h z
    field_simp
  · rw [hc, hc, h0]
    apply div_le_div_of_nonneg_left (by positivity) (by positivity)
    apply mul_le_mul_of_nonneg_left _ hpi.le
    rw [width_sq]
    nlinarith [sq_nonneg (z / b.rayleigh), sq_nonneg (b.waist)]

/-- `u` solves the paraxial wave equation for waves of the given wavelength that run along the third axis: u_xx + u_yy + 2 i k u_z = 0, k = 2π/λ. -/
def Paraxial (wavelength : ℝ) (u : ℝ → ℝ → ℝ → ℂ) : Prop :=
  ∃ ux uxx uy uyy uz : ℝ → ℝ → ℝ → ℂ,
    (∀ x y z, HasDerivAt (fun x => u x y z) (ux x y z) x ∧ HasDerivAt (fun x => ux x y z) (uxx x y z) x) ∧
    (∀ x y z, HasDerivAt (fun y => u x y z) (uy x y z) y ∧ HasDerivAt (fun y => uy x y z) (uyy x y z) y) ∧
    (∀ x y z, HasDerivAt (fun z => u x y z) (uz x y z) z) ∧
    ∀ x y z, uxx x y z + uyy x y z + 2 * Complex.I * ((2 * Real.pi / wavelength : ℝ) : ℂ) * uz x y z = 0

/-- The derivative of an exponential of a square. -/
theorem deriv_gauss (A c : ℂ) (d : ℂ) (x : ℝ) :
    HasDerivAt (fun x : ℝ => A * Complex.exp (c * ((x : ℂ) ^ 2 + d))) (2 * c * x * (A * Complex.exp (c * ((x : ℂ) ^ 2 + d)))) x := by
  have h1 : HasDerivAt (fun w : ℂ => A * Complex.exp (c * (w ^ 2 + d))) (2 * c * x * (A * Complex.exp (c * ((x : ℂ) ^ 2 + d)))) (x : ℂ) := by
    have h2 : HasDerivAt (fun w : ℂ => c * (w ^ 2 + d)) (c * (2 * x)) (x : ℂ) := by
      simpa using ((hasDerivAt_pow 2 (x : ℂ)).add_const d).const_mul c
    exact ((h2.cexp).const_mul A).congr_deriv (by ring)
  exact h1.comp_ofReal

theorem deriv_gauss2 (A c : ℂ) (d : ℂ) (x : ℝ) :
    HasDerivAt (fun x : ℝ => 2 * c * x * (A * Complex.exp (c * ((x : ℂ) ^ 2 + d))))
      ((2 * c + (2 * c * x) ^ 2) * (A * Complex.exp (c * ((x : ℂ) ^ 2 + d)))) x := by
  have h1 : HasDerivAt (fun x : ℝ => 2 * c * (x : ℂ)) (2 * c) x := by
    simpa using (Complex.ofRealCLM.hasDerivAt (x := x)).const_mul (2 * c)
  exact (h1.mul (deriv_gauss A c d x)).congr_deriv (by ring)

/-- **C161 (wave).** The intensity is that of a wave: the square of the modulus of a solution of the paraxial wave equation for the wavelength of the beam. -/
theorem C161_wave (b : Beam) (h : b.Valid) (hP : 0 ≤ b.power) : ∃ u, Paraxial b.wavelength u ∧
    ∀ x y z, b.intensity z (Real.sqrt (x ^ 2 + y ^ 2)) = Complex.normSq (u x y z) := by
  have hR := h.rayleigh_pos
  have hw := h.waist
  have hl := h.wavelength
  have hpi := Real.pi_pos
  set k : ℝ := 2 * Real.pi / b.wavelength with hk
  set A : ℝ := Real.sqrt (2 * b.power * b.rayleigh ^ 2 / (Real.pi * b.waist ^ 2)) with hA
  set q : ℝ → ℂ := fun z => (z : ℂ) - Complex.I * (b.rayleigh : ℂ) with hq
  have hq0 : ∀ z, q z ≠ 0 := by
    intro z hz
    have := congrArg Complex.im hz
    simp [hq] at this
    exact hR.ne' this
  set u : ℝ → ℝ → ℝ → ℂ := fun x y z => ((A : ℂ) / q z) * Complex.exp ((Complex.I * k / (2 * q z)) * ((x : ℂ) ^ 2 + (y : ℂ) ^ 2)) with hu
  have hI : Complex.I ^ 2 = -1 := Complex.I_sq
  refine ⟨u, ⟨fun x y z => 2 * (Complex.I * k / (2 * q z)) * x * u x y z,
    fun x y z => (2 * (Complex.I * k / (2 * q z)) + (2 * (Complex.I * k / (2 * q z)) * x) ^ 2) * u x y z,
    fun x y z => 2 * (Complex.I * k / (2 * q z)) * y * u x y z,
    fun x y z => (2 * (Complex.I * k / (2 * q z)) + (2 * (Complex.I * k / (2 * q z)) * y) ^ 2) * u x y z,
    fun x y z => (-1 / q z - Complex.I * k * ((x : ℂ) ^ 2 + (y : ℂ) ^ 2) / (2 * q z ^ 2)) * u x y z, ?_, ?_, ?_, ?_⟩, ?_⟩
  · exact fun x y z => ⟨deriv_gauss _ _ _ x, deriv_gauss2 _ _ _ x⟩
  · intro x y z
    have h1 := deriv_gauss ((A : ℂ) / q z) (Complex.I * k / (2 * q z)) ((x : ℂ) ^ 2) y
    have h2 := deriv_gauss2 ((A : ℂ) / q z) (Complex.I * k / (2 * q z)) ((x : ℂ) ^ 2) y
    simp only [add_comm _ ((x : ℂ) ^ 2)] at h1 h2
    exact ⟨h1, h2⟩
  · intro x y z
    have hdq : HasDerivAt q 1 z := by
      exact ((Complex.ofRealCLM.hasDerivAt (x := z)).sub_const (Complex.I * (b.rayleigh : ℂ))).congr_deriv (by simp)
    have h1 : HasDerivAt (fun z => (A : ℂ) / q z) (-(A : ℂ) / q z ^ 2) z := by
      have e : (fun z => (A : ℂ) / q z) = fun z => (A : ℂ) * q⁻¹ z := by
        funext z'
        exact div_eq_mul_inv _ _
      rw [e]
      exact ((hdq.inv (hq0 z)).const_mul (A : ℂ)).congr_deriv (by ring)
    have h2 : HasDerivAt (fun z => (Complex.I * k / (2 * q z)) * ((x : ℂ) ^ 2 + (y : ℂ) ^ 2))
        (-(Complex.I * k * ((x : ℂ) ^ 2 + (y : ℂ) ^ 2) / (2 * q z ^ 2))) z := by
      have e : (fun z => (Complex.I * k / (2 * q z)) * ((x : ℂ) ^ 2 + (y : ℂ) ^ 2)) =
          fun z => Complex.I * k / 2 * ((x : ℂ) ^ 2 + (y : ℂ) ^ 2) * q⁻¹ z := by
        funext z'
        have h3 := hq0 z'
        have h4 : q⁻¹ z' = (q z')⁻¹ := rfl
        rw [h4]
        field_simp
      rw [e]
      refine ((hdq.inv (hq0 z)).const_mul (Complex.I * k / 2 * ((x : ℂ) ^ 2 + (y : ℂ) ^ 2))).congr_deriv ?_
      have h3 := hq0 z
      field_simp
    refine (h1.mul h2.cexp).congr_deriv ?_
    change _ = _ * (((A : ℂ) / q z) * Complex.exp ((Complex.I * k / (2 * q z)) * ((x : ℂ) ^ 2 + (y : ℂ) ^ 2)))
    have h3 := hq0 z
    field_simp
    ring
  · intro x y z
    have h1 := hq0 z
    simp only
    generalize u x y z = U
    have : (2 * (Complex.I * k / (2 * q z)) + (2 * (Complex.I * k / (2 * q z)) * x) ^ 2) * U +
        (2 * (Complex.I * k / (2 * q z)) + (2 * (Complex.I * k / (2 * q z)) * y) ^ 2) * U +
        2 * Complex.I * (k : ℂ) * ((-1 / q z - Complex.I * k * ((x : ℂ) ^ 2 + (y : ℂ) ^ 2) / (2 * q z ^ 2)) * U) = 0 := by
      field_simp
      ring
    exact this
  · intro x y z
    have hn : Complex.normSq (q z) = z ^ 2 + b.rayleigh ^ 2 := by
      simp [hq, Complex.normSq_apply]
      ring
    have hw2 := width_sq (b := b) z
    have hre : ((Complex.I * k / (2 * q z)) * ((x : ℂ) ^ 2 + (y : ℂ) ^ 2)).re = -(1 / b.width z ^ 2) * (x ^ 2 + y ^ 2) := by
      have e1 : (Complex.I * k / (2 * q z)) * ((x : ℂ) ^ 2 + (y : ℂ) ^ 2) = ((k * (x ^ 2 + y ^ 2) / 2 : ℝ) : ℂ) * (Complex.I / q z) := by
        push_cast
        have := hq0 z
        field_simp
      rw [e1, Complex.re_ofReal_mul, Complex.div_re, hn]
      have e2 : (q z).im = -b.rayleigh := by simp [hq]
      rw [e2, hw2, hk]
      simp only [Complex.I_re, Complex.I_im, zero_mul, zero_div, zero_add, one_mul]
      have e3 : b.rayleigh * b.wavelength = Real.pi * b.waist ^ 2 := by
        unfold Beam.rayleigh
        field_simp
      have hpos : 0 < z ^ 2 + b.rayleigh ^ 2 := by positivity
      have e4 : b.waist ^ 2 * (1 + (z / b.rayleigh) ^ 2) = b.waist ^ 2 * (z ^ 2 + b.rayleigh ^ 2) / b.rayleigh ^ 2 := by
        field_simp
        ring
      rw [e4]
      field_simp
      linear_combination (x ^ 2 + y ^ 2) * e3
    rw [intensity_eq, Real.sq_sqrt (by positivity)]
    simp only [hu]
    rw [Complex.normSq_mul, Complex.normSq_div, hn, Complex.normSq_ofReal, Complex.normSq_eq_norm_sq, Complex.norm_exp, hre, ← Real.exp_nat_mul]
    congr 1
    · rw [hA, Real.mul_self_sqrt (by positivity), hw2]
      field_simp
      ring
    · congr 1
      push_cast
      ring

/-- Non-vacuity: a beam of 1 µm, 1 mm, 1 W. -/
example : (⟨1 / 1000000, 1 / 1000, 1⟩ : Beam).Valid ∧ 0 < (⟨1 / 1000000, 1 / 1000, 1⟩ : Beam).power ∧
    Admissible [.wavelength 1, .power 0, .waist 2] ∧ ¬ Admissible [.power 1, .waist 0] :=
  ⟨⟨by norm_num, by norm_num⟩, by norm_num, by simp [Admissible], by simp [Admissible]⟩

end S2E.Beam
