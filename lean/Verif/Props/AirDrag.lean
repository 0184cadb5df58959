import Verif.Props.SurfaceForce
import Mathlib.Analysis.SpecialFunctions.Gaussian.GaussianIntegral
import Mathlib.MeasureTheory.Integral.IntegralEqImproper
/-!
# C105: air drag is the momentum exchange with a free-molecular Maxwellian stream
-/
namespace S2E.Dist
open S2E.TwoBody S2E.Surf S2E.Kepler S2E.OrbitProp
open MeasureTheory Filter Set

theorem gauss_integrable : Integrable fun x : ℝ => Real.exp (-(x ^ 2)) := by
  have := integrable_exp_neg_mul_sq (b := 1) one_pos
  simpa using this

theorem gauss_integral_Ioi : ∫ x in Ioi (0:ℝ), Real.exp (-(x ^ 2)) = Real.sqrt Real.pi / 2 := by
  have := integral_gaussian_Ioi 1
  simpa using this

theorem erf_deriv (x : ℝ) : HasDerivAt erf (2 / Real.sqrt Real.pi * Real.exp (-(x ^ 2))) x := by
  have hc : Continuous fun t : ℝ => Real.exp (-(t ^ 2)) := by fun_prop
  exact (intervalIntegral.integral_hasDerivAt_right (hc.intervalIntegrable _ _) hc.aestronglyMeasurable.stronglyMeasurableAtFilter
    hc.continuousAt).const_mul _

theorem erf_tendsto : Tendsto erf atTop (nhds 1) := by
  have h := intervalIntegral_tendsto_integral_Ioi (f := fun t : ℝ => Real.exp (-(t ^ 2))) (μ := volume) (0:ℝ) gauss_integrable.integrableOn tendsto_id
  rw [gauss_integral_Ioi] at h
  have h2 := h.const_mul (2 / Real.sqrt Real.pi)
  have hp : 0 < Real.sqrt Real.pi := Real.sqrt_pos.mpr Real.pi_pos
  have e : 2 / Real.sqrt Real.pi * (Real.sqrt Real.pi / 2) = 1 := by field_simp
  rw [e] at h2
  exact h2

theorem erf_zero : erf 0 = 0 := by simp [erf]

theorem erf_neg (x : ℝ) : erf (-x) = -erf x := by
  have h : ∫ t in (0)..(-x), Real.exp (-(t ^ 2)) = -∫ t in (0)..x, Real.exp (-(t ^ 2)) := by
    have := intervalIntegral.integral_comp_neg (a := 0) (b := x) (f := fun t : ℝ => Real.exp (-(t ^ 2)))
    simp only [neg_sq, neg_zero] at this
    rw [this, ← intervalIntegral.integral_symm]
  rw [erf, erf, h]; ring

theorem erf_nonneg {x : ℝ} (h : 0 ≤ x) : 0 ≤ erf x := by
  rw [erf]
  exact mul_nonneg (by positivity) (intervalIntegral.integral_nonneg h fun t _ => (Real.exp_pos _).le)

theorem linear_atTop {beta : ℝ} (hb : 0 < beta) (u : ℝ) : Tendsto (fun c : ℝ => beta * (c - u)) atTop atTop :=
  (tendsto_atTop_add_const_right _ (-u) tendsto_id).const_mul_atTop hb

/-- The Gaussian factor. -/
theorem gauss_shift_deriv (beta u c : ℝ) :
    HasDerivAt (fun c => Real.exp (-(beta * (c - u)) ^ 2)) (-2 * beta ^ 2 * (c - u) * Real.exp (-(beta * (c - u)) ^ 2)) c := by
  have h : HasDerivAt (fun c => -(beta * (c - u)) ^ 2) (-2 * beta ^ 2 * (c - u)) c := by
    have h1 : HasDerivAt (fun c => beta * (c - u)) beta c := by
      simpa using ((hasDerivAt_id c).sub_const u).const_mul beta
    exact (h1.pow 2).neg.congr_deriv (by simp; ring)
  exact h.exp.congr_deriv (by ring)

theorem shift_eq (beta u c : ℝ) : Real.exp (-(beta * (c - u)) ^ 2) = Real.exp (-(beta ^ 2) * (c - u) ^ 2) := by
  congr 1; ring

theorem int0 {beta : ℝ} (hb : 0 < beta) (u : ℝ) : Integrable fun c : ℝ => Real.exp (-(beta * (c - u)) ^ 2) := by
  simp only [shift_eq]
  exact (integrable_exp_neg_mul_sq (b := beta ^ 2) (by positivity)).comp_sub_right u

theorem int1 {beta : ℝ} (hb : 0 < beta) (u : ℝ) : Integrable fun c : ℝ => (c - u) * Real.exp (-(beta * (c - u)) ^ 2) := by
  simp only [shift_eq]
  exact (integrable_mul_exp_neg_mul_sq (b := beta ^ 2) (by positivity)).comp_sub_right u

theorem int2 {beta : ℝ} (hb : 0 < beta) (u : ℝ) : Integrable fun c : ℝ => (c - u) ^ 2 * Real.exp (-(beta * (c - u)) ^ 2) := by
  simp only [shift_eq]
  have := (integrable_rpow_mul_exp_neg_mul_sq (b := beta ^ 2) (by positivity) (s := 2) (by norm_num)).comp_sub_right u
  simpa using this

theorem decay0 {beta : ℝ} (hb : 0 < beta) (u : ℝ) : Tendsto (fun c : ℝ => Real.exp (-(beta * (c - u)) ^ 2)) atTop (nhds 0) := by
  refine Real.tendsto_exp_atBot.comp ?_
  exact tendsto_neg_atTop_atBot.comp ((tendsto_pow_atTop (by norm_num)).comp (linear_atTop hb u))

theorem decay1 {beta : ℝ} (hb : 0 < beta) (u : ℝ) : Tendsto (fun c : ℝ => (c + u) * Real.exp (-(beta * (c - u)) ^ 2)) atTop (nhds 0) := by
  have h1 : Tendsto (fun x : ℝ => x * Real.exp (-x ^ 2)) atTop (nhds 0) := by
    have h := Real.tendsto_pow_mul_exp_neg_atTop_nhds_zero 1
    refine squeeze_zero' (Filter.eventually_atTop.mpr ⟨0, fun x hx => by positivity⟩)
      (Filter.eventually_atTop.mpr ⟨1, fun x hx => ?_⟩) h
    simp only [pow_one]
    have : Real.exp (-x ^ 2) ≤ Real.exp (-x) := Real.exp_le_exp.mpr (by nlinarith)
    exact mul_le_mul_of_nonneg_left this (by linarith)
  have h2 := (h1.comp (linear_atTop hb u)).const_mul (1 / beta)
  have h3 := (decay0 hb u).const_mul (2 * u)
  have h4 := h2.add h3
  simp only [mul_zero, add_zero, Function.comp] at h4
  refine h4.congr fun c => ?_
  field_simp
  ring

/-- The zeroth moment over the incoming molecules. -/
theorem moment0 {beta : ℝ} (hb : 0 < beta) (u : ℝ) :
    ∫ c in Ioi (0:ℝ), Real.exp (-(beta * (c - u)) ^ 2) = Real.sqrt Real.pi / (2 * beta) * (1 + erf (beta * u)) := by
  have hp : 0 < Real.sqrt Real.pi := Real.sqrt_pos.mpr Real.pi_pos
  have hd : ∀ c ∈ Ici (0:ℝ), HasDerivAt (fun c => Real.sqrt Real.pi / (2 * beta) * erf (beta * (c - u))) (Real.exp (-(beta * (c - u)) ^ 2)) c := by
    intro c _
    have h1 : HasDerivAt (fun c => beta * (c - u)) beta c := by
      simpa using ((hasDerivAt_id c).sub_const u).const_mul beta
    have h2 : HasDerivAt (fun c => erf (beta * (c - u))) (2 / Real.sqrt Real.pi * Real.exp (-((beta * (c - u)) ^ 2)) * beta) c :=
      HasDerivAt.comp (h₂ := erf) (h := fun c => beta * (c - u)) c (erf_deriv (beta * (c - u))) h1
    exact (h2.const_mul (Real.sqrt Real.pi / (2 * beta))).congr_deriv (by field_simp)
  have ht : Tendsto (fun c => Real.sqrt Real.pi / (2 * beta) * erf (beta * (c - u))) atTop (nhds (Real.sqrt Real.pi / (2 * beta) * 1)) :=
    (erf_tendsto.comp (linear_atTop hb u)).const_mul _
  rw [integral_Ioi_of_hasDerivAt_of_tendsto' hd (int0 hb u).integrableOn ht]
  have : erf (beta * (0 - u)) = -erf (beta * u) := by rw [← erf_neg]; congr 1; ring
  rw [this]
  ring

/-- The first moment. -/
theorem moment1 {beta : ℝ} (hb : 0 < beta) (u : ℝ) :
    ∫ c in Ioi (0:ℝ), c * Real.exp (-(beta * (c - u)) ^ 2) = 1 / (2 * beta ^ 2) * functionChi (beta * u) := by
  have hd : ∀ c ∈ Ici (0:ℝ), HasDerivAt (fun c => -(1 / (2 * beta ^ 2)) * Real.exp (-(beta * (c - u)) ^ 2))
      ((c - u) * Real.exp (-(beta * (c - u)) ^ 2)) c := by
    intro c _
    exact ((gauss_shift_deriv beta u c).const_mul _).congr_deriv (by field_simp)
  have h1 := integral_Ioi_of_hasDerivAt_of_tendsto' hd (int1 hb u).integrableOn ((decay0 hb u).const_mul _)
  have hsplit : ∀ c : ℝ, c * Real.exp (-(beta * (c - u)) ^ 2) = (c - u) * Real.exp (-(beta * (c - u)) ^ 2) + u * Real.exp (-(beta * (c - u)) ^ 2) := by
    intro c; ring
  simp only [hsplit]
  rw [integral_add (int1 hb u).integrableOn ((int0 hb u).const_mul u).integrableOn, h1, integral_const_mul, moment0 hb u, functionChi]
  have he : -(beta * (0 - u)) ^ 2 = -(beta * u) * (beta * u) := by ring
  rw [he]
  field_simp
  ring

/-- The second moment. -/
theorem moment2 {beta : ℝ} (hb : 0 < beta) (u : ℝ) :
    ∫ c in Ioi (0:ℝ), c ^ 2 * Real.exp (-(beta * (c - u)) ^ 2) = 1 / (2 * beta ^ 3) * functionPi (beta * u) := by
  have hd : ∀ c ∈ Ici (0:ℝ), HasDerivAt (fun c => -(1 / (2 * beta ^ 2)) * ((c + u) * Real.exp (-(beta * (c - u)) ^ 2)))
      ((c - u) ^ 2 * Real.exp (-(beta * (c - u)) ^ 2) + 2 * u * ((c - u) * Real.exp (-(beta * (c - u)) ^ 2))
        - 1 / (2 * beta ^ 2) * Real.exp (-(beta * (c - u)) ^ 2)) c := by
    intro c _
    exact ((((hasDerivAt_id c).add_const u).mul (gauss_shift_deriv beta u c)).const_mul _).congr_deriv (by simp only [id]; field_simp; ring)
  have hint : IntegrableOn (fun c => (c - u) ^ 2 * Real.exp (-(beta * (c - u)) ^ 2) + 2 * u * ((c - u) * Real.exp (-(beta * (c - u)) ^ 2))
        - 1 / (2 * beta ^ 2) * Real.exp (-(beta * (c - u)) ^ 2)) (Ioi 0) :=
    (((int2 hb u).add ((int1 hb u).const_mul _)).sub ((int0 hb u).const_mul _)).integrableOn
  have h1 := integral_Ioi_of_hasDerivAt_of_tendsto' hd hint ((decay1 hb u).const_mul _)
  have hsplit : ∀ c : ℝ, c ^ 2 * Real.exp (-(beta * (c - u)) ^ 2) =
      ((c - u) ^ 2 * Real.exp (-(beta * (c - u)) ^ 2) + 2 * u * ((c - u) * Real.exp (-(beta * (c - u)) ^ 2))
        - 1 / (2 * beta ^ 2) * Real.exp (-(beta * (c - u)) ^ 2)) + (u ^ 2 + 1 / (2 * beta ^ 2)) * Real.exp (-(beta * (c - u)) ^ 2) := by
    intro c; ring
  simp only [hsplit]
  rw [integral_add hint ((int0 hb u).const_mul _).integrableOn, h1, integral_const_mul, moment0 hb u, functionPi]
  have he : -(beta * (0 - u)) ^ 2 = -(beta * u) * (beta * u) := by ring
  rw [he]
  field_simp
  ring

/-- The closed forms of the fluxes. -/
theorem massFlux_eq (rho : ℝ) {beta : ℝ} (hb : 0 < beta) (u : ℝ) :
    massFlux rho beta u = rho / (2 * beta * Real.sqrt Real.pi) * functionChi (beta * u) := by
  have hp : 0 < Real.sqrt Real.pi := Real.sqrt_pos.mpr Real.pi_pos
  have h : ∀ c : ℝ, c * maxwell beta u c = beta / Real.sqrt Real.pi * (c * Real.exp (-(beta * (c - u)) ^ 2)) := by
    intro c; rw [maxwell]; ring
  simp only [massFlux, h]
  rw [integral_const_mul, moment1 hb u]
  field_simp

theorem normalFlux_eq (rho : ℝ) {beta : ℝ} (hb : 0 < beta) (u : ℝ) :
    normalFlux rho beta u = rho / (2 * beta ^ 2 * Real.sqrt Real.pi) * functionPi (beta * u) := by
  have hp : 0 < Real.sqrt Real.pi := Real.sqrt_pos.mpr Real.pi_pos
  have h : ∀ c : ℝ, c ^ 2 * maxwell beta u c = beta / Real.sqrt Real.pi * (c ^ 2 * Real.exp (-(beta * (c - u)) ^ 2)) := by
    intro c; rw [maxwell]; ring
  simp only [normalFlux, h]
  rw [integral_const_mul, moment2 hb u]
  field_simp

theorem emissionSpeed_eq {beta : ℝ} (hb : 0 < beta) : emissionSpeed beta = Real.sqrt Real.pi / (2 * beta) := by
  have h1 := massFlux_eq 1 hb 0
  have h2 := normalFlux_eq 1 hb 0
  simp only [massFlux, normalFlux, one_mul] at h1 h2
  have hp : 0 < Real.sqrt Real.pi := Real.sqrt_pos.mpr Real.pi_pos
  rw [emissionSpeed, h1, h2]
  simp only [functionPi, functionChi, mul_zero, erf_zero, Real.exp_zero]
  field_simp
  norm_num
  ring

/-- Inverse thermal speed the program works with: molecular weight over twice Boltzmann constant times *wall* temperature. -/
noncomputable def AirDrag.beta (a : AirDrag) : ℝ := Real.sqrt (a.molecularWeight / (2 * boltzmann * a.wallTemperature))

/-- Its inverse thermal speed of the emitted molecules. -/
noncomputable def AirDrag.betaWall (a : AirDrag) : ℝ := a.beta * Real.sqrt (a.molecularTemperature / a.wallTemperature)

/-- Physically meaningful parameters. -/
structure AirDrag.Valid (a : AirDrag) : Prop where
  wall : 0 < a.wallTemperature
  molecular : 0 < a.molecularTemperature
  weight : 0 < a.molecularWeight

theorem boltzmann_pos : 0 < boltzmann := by norm_num [boltzmann]

theorem AirDrag.Valid.beta_pos {a : AirDrag} (h : a.Valid) : 0 < a.beta := by
  have := h.wall; have := h.weight; have := boltzmann_pos
  exact Real.sqrt_pos.mpr (by positivity)

theorem AirDrag.Valid.speed_eq {a : AirDrag} (_h : a.Valid) (v : Vec 3) : a.speed v = a.beta * len v := by
  have hl := len_nonneg v
  rw [AirDrag.speed, AirDrag.beta, calcNorm_len, ← Real.sqrt_sq hl, ← Real.sqrt_mul' _ (sq_nonneg _)]
  congr 1
  rw [Real.sqrt_sq hl]
  ring

/-- C105 (free molecular flow): for a facet with unit normal facing the stream, the force is area times the momentum exchange per area with
a Maxwellian gas of the given density, integrated over the velocity distribution of the incoming molecules, the diffuse share being
emitted with the distribution of the wall. -/
theorem C105_free_molecular (a : AirDrag) (ha : a.Valid) (v : Vec 3) (density : ℝ) (s : Surface) (hn : len s.normal = 1)
    (hlit : 0 < dot s.normal v) :
    surfaceForce v s (a.coefficients v density s).1 (a.coefficients v density s).2 =
      s.area • gasPressure density a.beta a.betaWall (1 - s.airSpecularity) s.normal v := by
  have hv : v ≠ 0 := by
    rintro rfl
    simp [dot] at hlit
  obtain ⟨-, h2⟩ := normalized_len hv
  have hl := len_pos hv
  have hb := ha.beta_pos
  have hp : 0 < Real.sqrt Real.pi := Real.sqrt_pos.mpr Real.pi_pos
  have htt : 0 < Real.sqrt (a.molecularTemperature / a.wallTemperature) := Real.sqrt_pos.mpr (div_pos ha.molecular ha.wall)
  have hinv : Real.sqrt (a.wallTemperature / a.molecularTemperature) = 1 / Real.sqrt (a.molecularTemperature / a.wallTemperature) := by
    rw [one_div, ← Real.sqrt_inv]; congr 1; rw [inv_div]
  have hbw : 0 < a.betaWall := mul_pos hb htt
  have hdot : dot s.normal v = len v * dot s.normal (calcNormalizedVector v) := by
    conv_lhs => rw [← h2]
    simp [dot]; ring
  have hlit' : 0 < dot s.normal (calcNormalizedVector v) := by
    rw [hdot] at hlit
    exact (mul_pos_iff_of_pos_left hl).mp hlit
  have hsymm : dot v s.normal = dot s.normal v := by simp [dot]; ring
  have hcos : cosTheta v s = dot s.normal (calcNormalizedVector v) := by rw [cosTheta, innerProduct_dot]
  have hct : (a.coefficients v density s).2 = (1 / 2 * density * len v ^ 2 * s.area * (1 - s.airSpecularity) *
      functionChi (a.beta * dot s.normal v) / (Real.sqrt Real.pi * (a.beta * len v))) * sinTheta v s := by
    simp only [AirDrag.coefficients, AirDrag.cnct, ha.speed_eq, calcNorm_len, hcos]
    have : a.beta * len v * dot s.normal (calcNormalizedVector v) = a.beta * dot s.normal v := by rw [hdot]; ring
    rw [this]
    field_simp
    ring
  have hcn : (a.coefficients v density s).1 = 1 / 2 * density * s.area / a.beta ^ 2 * ((1 + s.airSpecularity) / Real.sqrt Real.pi *
      functionPi (a.beta * dot s.normal v) + (1 - s.airSpecularity) / 2 * functionChi (a.beta * dot s.normal v) *
        (1 / Real.sqrt (a.molecularTemperature / a.wallTemperature))) := by
    simp only [AirDrag.coefficients, AirDrag.cnct, ha.speed_eq, calcNorm_len, hcos, hinv]
    have : a.beta * len v * dot s.normal (calcNormalizedVector v) = a.beta * dot s.normal v := by rw [hdot]; ring
    rw [this]
    field_simp
    ring
  rw [surfaceForce_eq v hv s hn _ _ _ hct hlit', hcn]
  simp only [gasPressure, hsymm]
  rw [massFlux_eq _ hb, normalFlux_eq _ hb, emissionSpeed_eq hbw, AirDrag.betaWall]
  generalize functionChi (a.beta * dot s.normal v) = chi
  generalize functionPi (a.beta * dot s.normal v) = PI
  generalize Real.sqrt (a.molecularTemperature / a.wallTemperature) = T at *
  generalize a.beta = b at *
  generalize Real.sqrt Real.pi = p at *
  have hw : ∀ i, v i = len v * calcNormalizedVector v i := fun i => by
    have := congrFun h2 i
    simp only [Pi.smul_apply, smul_eq_mul] at this
    exact this.symm
  funext i
  simp only [Pi.add_apply, Pi.sub_apply, Pi.smul_apply, smul_eq_mul, Pi.neg_apply, hdot, hw i]
  generalize calcNormalizedVector v i = wi
  generalize dot s.normal (calcNormalizedVector v) = c
  generalize len v = L at *
  field_simp
  ring

theorem chi_nonneg {s : ℝ} (h : 0 ≤ s) : 0 ≤ functionChi s := by
  have := erf_nonneg h
  have := Real.exp_pos (-s * s)
  rw [functionChi]; positivity

theorem pi_nonneg {s : ℝ} (h : 0 ≤ s) : 0 ≤ functionPi s := by
  have := erf_nonneg h
  have := Real.exp_pos (-s * s)
  rw [functionPi]; positivity

/-- C105: the air only ever brakes. For any surfaces with unit normals, non-negative areas and accommodation between 0 and 1, the total force
has no component along the velocity relative to the air, for every density and velocity. -/
theorem C105_brakes (a : AirDrag) (ha : a.Valid) (v : Vec 3) (density : ℝ) (hd : 0 ≤ density) (surfaces : List Surface) (cog : Vec 3)
    (h : ∀ s ∈ surfaces, len s.normal = 1 ∧ 0 ≤ s.area ∧ 0 ≤ s.airSpecularity ∧ s.airSpecularity ≤ 1) :
    dot (a.forceTorque surfaces cog v density).1 v ≤ 0 := by
  have hone : ∀ s ∈ surfaces, dot (surfaceForce v s (a.coefficients v density s).1 (a.coefficients v density s).2) v ≤ 0 := by
    intro s hmem
    obtain ⟨hn, hA, h0, h1⟩ := h s hmem
    by_cases hlit : 0 < dot s.normal v
    · have hb := ha.beta_pos
      have htt : 0 < Real.sqrt (a.molecularTemperature / a.wallTemperature) := Real.sqrt_pos.mpr (div_pos ha.molecular ha.wall)
      have hbw : 0 < a.betaWall := mul_pos hb htt
      have hp : 0 < Real.sqrt Real.pi := Real.sqrt_pos.mpr Real.pi_pos
      have hsymm : dot v s.normal = dot s.normal v := by simp [dot]; ring
      have harg : 0 ≤ a.beta * dot s.normal v := by positivity
      rw [C105_free_molecular a ha v density s hn hlit]
      simp only [gasPressure, hsymm]
      have hchi : 0 ≤ massFlux density a.beta (dot s.normal v) := by
        rw [massFlux_eq _ hb]; have := chi_nonneg harg; positivity
      have hpi : 0 ≤ normalFlux density a.beta (dot s.normal v) := by
        rw [normalFlux_eq _ hb]; have := pi_nonneg harg; positivity
      have he : 0 ≤ emissionSpeed a.betaWall := by rw [emissionSpeed_eq hbw]; positivity
      generalize massFlux density a.beta (dot s.normal v) = m at *
      generalize normalFlux density a.beta (dot s.normal v) = p at *
      generalize emissionSpeed a.betaWall = e at *
      have hnn : dot s.normal s.normal = 1 := by rw [← len_sq, hn]; norm_num
      have hcs : (dot s.normal v) ^ 2 ≤ dot v v := by
        have := len_cross_sq s.normal v
        rw [hn, len_sq v] at this
        nlinarith [sq_nonneg (len (cross s.normal v))]
      have key : dot (s.area • (-p • s.normal - m • (v - (dot s.normal v) • s.normal) - (1 - (1 - s.airSpecularity)) • (p • s.normal - m • (v - (dot s.normal v) • s.normal))
          - (1 - s.airSpecularity) • (m * e) • s.normal)) v =
          s.area * (-(1 + s.airSpecularity) * p * dot s.normal v - (1 - s.airSpecularity) * m * (dot v v - (dot s.normal v) ^ 2)
            - (1 - s.airSpecularity) * (m * e) * dot s.normal v) := by
        simp only [dot, Pi.smul_apply, Pi.sub_apply, smul_eq_mul]
        ring
      rw [key]
      apply mul_nonpos_of_nonneg_of_nonpos hA
      have k1 : 0 ≤ (1 + s.airSpecularity) * p * dot s.normal v := by positivity
      have k0 : 0 ≤ 1 - s.airSpecularity := by linarith
      have k2 : 0 ≤ (1 - s.airSpecularity) * m * (dot v v - (dot s.normal v) ^ 2) := mul_nonneg (by positivity) (by linarith)
      have k3 : 0 ≤ (1 - s.airSpecularity) * (m * e) * dot s.normal v := by positivity
      linarith
    · have hz := (C104_sums (a.coefficients v density) surfaces cog v).2.2 s (not_lt.mp hlit)
      simp only at hz
      rw [hz]
      simp [dot]
  rw [AirDrag.forceTorque, (C104_sums _ _ _ _).1]
  have hsum : ∀ l : List Surface, (∀ s ∈ l, s ∈ surfaces) →
      dot (l.map fun s => surfaceForce v s (a.coefficients v density s).1 (a.coefficients v density s).2).sum v ≤ 0 := by
    intro l
    induction l with
    | nil => intro _; simp [dot]
    | cons s l ih =>
      intro hl
      have a1 := hone s (hl s (by simp))
      have b := ih fun x hx => hl x (by simp [hx])
      have e : ∀ x y : Vec 3, dot (x + y) v = dot x v + dot y v := by intro x y; simp [dot]; ring
      rw [List.map_cons, List.sum_cons, e]
      linarith
  exact hsum surfaces fun _ => id

/-- Avogadro's number (exact SI value). -/
noncomputable def avogadro : ℝ := 6.02214076e23

/-- Specification: inverse most probable speed of a gas of molar weight `M` g/mol at temperature `T`: the mass of one molecule is `M / 1000`
kg divided by Avogadro's number. -/
noncomputable def gasBeta (M T : ℝ) : ℝ := Real.sqrt ((M / 1000 / avogadro) / (2 * boltzmann * T))

/-- C105 (what is wrong): the thermal speed of the gas. The molar weight in g/mol is used as the mass of one molecule in kg, and the wall
temperature in place of the gas temperature: the speed ratio is too large by the square root of `1000 N_A T_gas / T_wall`, more than
`10^13` whenever the wall is not hotter than the gas. So the air is treated as a cold beam. -/
theorem C105_thermal_speed (a : AirDrag) (ha : a.Valid) :
    a.beta = Real.sqrt (1000 * avogadro * (a.molecularTemperature / a.wallTemperature)) * gasBeta a.molecularWeight a.molecularTemperature ∧
    (a.wallTemperature ≤ a.molecularTemperature → 10 ^ 13 * gasBeta a.molecularWeight a.molecularTemperature ≤ a.beta) := by
  have hN : (0:ℝ) < avogadro := by norm_num [avogadro]
  have hk := boltzmann_pos
  have hw := ha.wall
  have hm := ha.molecular
  have hM := ha.weight
  have e : a.beta = Real.sqrt (1000 * avogadro * (a.molecularTemperature / a.wallTemperature)) * gasBeta a.molecularWeight a.molecularTemperature := by
    rw [AirDrag.beta, gasBeta, ← Real.sqrt_mul (by positivity)]
    congr 1
    field_simp
  refine ⟨e, fun hle => ?_⟩
  rw [e]
  apply mul_le_mul_of_nonneg_right _ (Real.sqrt_nonneg _)
  rw [show (10:ℝ) ^ 13 = Real.sqrt ((10 ^ 13) ^ 2) by rw [Real.sqrt_sq (by positivity)]]
  apply Real.sqrt_le_sqrt
  have : 1 ≤ a.molecularTemperature / a.wallTemperature := (one_le_div hw).mpr hle
  calc ((10:ℝ) ^ 13) ^ 2 ≤ 1000 * avogadro * 1 := by norm_num [avogadro]
    _ ≤ _ := by gcongr

/-- C105: the velocity used is the one relative to an atmosphere turning with the Earth, expressed in the body frame: turning it back through
the attitude and into the Earth-fixed frame gives the Earth-fixed velocity (for a rotation matrix and a unit quaternion). -/
theorem C105_velocity (dcm : Mat 3 3) (hr : dcm * dcm.transpose = 1) (q : Quat) (hq : q.x * q.x + q.y * q.y + q.z * q.z + q.w * q.w = 1)
    (vEcef : Vec 3) :
    matVec dcm (q.inverseFrameConversion (airVelocity dcm vEcef q)) = vEcef := by
  have h1 : ∀ x : Vec 3, q.inverseFrameConversion (q.frameConversion x) = x := by
    intro x
    funext i
    fin_cases i <;> simp [Quat.inverseFrameConversion, Quat.frameConversion, Quat.mulVec, Quat.mul, Quat.conjugate] <;> grind
  rw [airVelocity, h1]
  have h2 : matVec dcm (matVec (matTranspose dcm) vEcef) = Matrix.mulVec (dcm * dcm.transpose) vEcef := by
    rw [← Matrix.mulVec_mulVec]
    funext i
    simp [matVec, matTranspose, Matrix.mulVec, dotProduct, Matrix.transpose]
  rw [h2, hr, Matrix.one_mulVec]

/-- Non-vacuity: a valid gas, a plate facing a 7 km/s stream. -/
example : (⟨300, 1000, 18⟩ : AirDrag).Valid ∧ len (![1, 0, 0] : Vec 3) = 1 ∧ 0 < dot (![1, 0, 0] : Vec 3) ![7000, 0, 0] :=
  ⟨⟨by norm_num, by norm_num, by norm_num⟩, by simp [len], by simp [dot]⟩

end S2E.Dist
