import Verif.Proofs.KeplerNewton
import Verif.Props.Sgp4Codes
import Mathlib.Analysis.Real.Pi.Bounds

/-!
# C179: SGP4 solves Kepler's equation
-/
namespace S2E.Sgp4

open S2E.InitOrbit (Wgs)
open Report

/-- C179: for every regular near-Earth set, history and time at which the eccentricity with its long-period periodics is at most 0.55, the position and
velocity are those of the equations of the Report for an `E` within `1.001e-12` of the exact solution of Kepler's equation, which exists and is unique. -/
theorem C179_kepler (fuel fuel' : ℕ) (set : Wgs) (epoch : ℝ) (x : Elements) (hx : Regular (gravity set) x) (old s s' : Elset) (before : List ℝ) (t : ℝ)
    (hs : sgp4init fuel set epoch x.B x.e x.w x.i x.M x.no x.node old = .ok s) (hb : runs fuel set before s = .ok s')
    (ha : 0 < aT (gravity set) x t) (h1 : e (gravity set) x t ≠ 1) (hL : eL (gravity set) x t ≤ 0.55) :
    let g := gravity set
    ∃ F E out, (∀ y, y - axN g x t * Real.sin y + ayN g x t * Real.cos y = U g x t ↔ y = F) ∧ |E - F| ≤ 1.001e-12 ∧
      sgp4 fuel' set s' t = .ok out ∧ out.written = some (position g x t E, velocity g x t E) := by
  intro g
  obtain ⟨E, out, k1, k2, k3, _⟩ := C175_report fuel fuel' set epoch x hx old s s' before t hs hb
  have hL0 : 0 ≤ eL g x t := Real.sqrt_nonneg _
  have hsq : eL g x t ^ 2 = axN g x t ^ 2 + ayN g x t ^ 2 := Real.sq_sqrt (by positivity)
  have h : axN g x t ^ 2 + ayN g x t ^ 2 ≤ 0.55 ^ 2 := by rw [← hsq]; exact pow_le_pow_left₀ hL0 hL 2
  have hp : 0 < pL g x t := mul_pos ha (by rw [hsq]; norm_num at h ⊢; linarith)
  obtain ⟨F, hF⟩ := kep_exists h (by norm_num) (U g x t)
  refine ⟨F, E, out, fun y => ⟨fun hy => kep_unique h (by norm_num) (by norm_num) ((show kep _ _ y = _ from hy).trans hF.symm), fun hy => hy ▸ hF⟩, solved_close h k2 hF, k1,
    (k3 ha h1 hp).2⟩

/-- The bounds that all three sets of constants have. -/
theorem gravity_bounds (set : Wgs) : let g := gravity set
    0 < g.ke ∧ g.ke ≤ 0.07437 ∧ 0.001 ≤ k2 g * 2 ∧ 0 ≤ A30 g ∧ A30 g ≤ 0.000003 := by
  have key : ∀ m r : ℝ, 0 < m → 0 < r → 3600 * (m / r ^ 3) ≤ 0.07437 ^ 2 → 0 < 60 * Real.sqrt (m / r ^ 3) ∧ 60 * Real.sqrt (m / r ^ 3) ≤ 0.07437 := fun m r hm hr h => by
    have h1 : 0 < m / r ^ 3 := by positivity
    refine ⟨by positivity, ?_⟩
    apply abs_le_of_sq_le_sq' _ (by norm_num) |>.2
    rw [mul_pow, Real.sq_sqrt h1.le]; linarith
  cases set
  · refine ⟨?_, ?_, ?_, ?_, ?_⟩ <;> norm_num [gravity, k2, A30]
  · exact ⟨(key 398600.8 6378.135 (by norm_num) (by norm_num) (by norm_num)).1, (key 398600.8 6378.135 (by norm_num) (by norm_num) (by norm_num)).2, by norm_num [gravity, k2],
      by norm_num [gravity, A30], by norm_num [gravity, A30]⟩
  · exact ⟨(key 398600.5 6378.137 (by norm_num) (by norm_num) (by norm_num)).1, (key 398600.5 6378.137 (by norm_num) (by norm_num) (by norm_num)).2, by norm_num [gravity, k2],
      by norm_num [gravity, A30], by norm_num [gravity, A30]⟩

theorem ecc_bound {e s d : ℝ} (h0 : 0 ≤ e) (h1 : e ≤ 0.481) (hs : |s| ≤ 1) (hd : |d| ≤ 0.002) : e ^ 2 + 2 * e * (s * d) + d ^ 2 ≤ 0.5 ^ 2 := by
  have e2 : |s * d| ≤ 0.002 := by
    rw [abs_mul]
    calc |s| * |d| ≤ 1 * 0.002 := mul_le_mul hs hd (abs_nonneg _) (by norm_num)
      _ = 0.002 := by norm_num
  have e3 := (abs_le.1 e2).2
  have e4 : e ^ 2 ≤ 0.481 ^ 2 := pow_le_pow_left₀ h0 h1 2
  have e5 : d ^ 2 ≤ 0.002 ^ 2 := by rw [← sq_abs d]; exact pow_le_pow_left₀ (abs_nonneg _) hd 2
  have e6 : e * (s * d) ≤ 0.481 * 0.002 := (mul_le_mul_of_nonneg_left e3 h0).trans (mul_le_mul_of_nonneg_right h1 (by norm_num))
  linarith

/-- C179: a regular near-Earth set without drag whose perigee is not below the surface has such an eccentricity at all times. -/
theorem C179_near (set : Wgs) (x : Elements) (hx : Regular (gravity set) x) (hB : x.B = 0) (hper : 1 ≤ perigee (gravity set) x) (t : ℝ) :
    let g := gravity set
    0 < aT g x t ∧ e g x t ≠ 1 ∧ eL g x t ≤ 0.5 := by
  intro g
  obtain ⟨b1, b2, b3, b4, b5⟩ := gravity_bounds set
  obtain ⟨_, _, _, h4, h5, _⟩ := noDrag (g := g) (x := x) hB t
  have he : e g x t = x.e := by unfold Report.e; rw [h4, if_neg (not_lt.2 hx.e0)]
  have hn := hx.n_pos
  have hq0 : 0 < g.ke / n g x := div_pos b1 hn
  have ha0 : 0 < a g x := Real.rpow_pos_of_pos hq0 _
  have hq : g.ke / n g x ≤ 2.664 := by
    have h1 := hx.near
    rw [div_lt_iff₀ hn] at h1
    rw [div_le_iff₀ hn]
    have := Real.pi_gt_d4
    have : g.ke ≤ 0.07437 := b2
    have h2 : 2 * Real.pi < 225 * n g x := h1
    nlinarith
  have ha3 : a g x ^ 3 = (g.ke / n g x) ^ 2 := by
    unfold Report.a
    rw [← Real.rpow_natCast, ← Real.rpow_mul hq0.le, ← Real.rpow_natCast]; norm_num
  have ha : a g x ≤ 1.925 := by
    by_contra h
    have h1 := pow_lt_pow_left₀ (not_le.1 h) (by norm_num) (by norm_num : (3 : ℕ) ≠ 0)
    rw [ha3] at h1
    have h2 : (g.ke / n g x) ^ 2 ≤ 2.664 ^ 2 := pow_le_pow_left₀ hq0.le hq 2
    norm_num at h1 h2
    linarith
  have hp : 1 ≤ a g x * (1 - x.e) := hper
  have hx1 := hx.e1
  have hx0 := hx.e0
  have he1 : x.e ≤ 0.481 := by nlinarith
  refine ⟨by rw [h5]; exact ha0, by rw [he]; linarith, ?_⟩
  have hden : 1 ≤ aT g x t * (1 - e g x t ^ 2) := by rw [h5, he]; nlinarith
  have hk : 0.001 ≤ k2 g * 2 := b3
  have hA0 : 0 ≤ A30 g := b4
  have hA : A30 g ≤ 0.000003 := b5
  set δ := A30 g * Real.sin x.i / (4 * k2 g * aT g x t * (1 - e g x t ^ 2)) with hδ
  have hδ1 : |δ| ≤ 0.002 := by
    have hd : 0.002 ≤ 4 * k2 g * aT g x t * (1 - e g x t ^ 2) := by rw [mul_assoc]; nlinarith
    rw [hδ, abs_div, abs_mul, abs_of_nonneg hA0, abs_of_pos (by linarith : 0 < 4 * k2 g * aT g x t * (1 - e g x t ^ 2)), div_le_iff₀ (by linarith)]
    have := Real.abs_sin_le_one x.i
    nlinarith [abs_nonneg (Real.sin x.i)]
  have hay : ayN g x t = e g x t * Real.sin (w g x t) + δ := rfl
  have hax : axN g x t = e g x t * Real.cos (w g x t) := rfl
  have hd2 := abs_le.1 hδ1
  unfold eL
  refine Real.sqrt_le_iff.2 ⟨by norm_num, ?_⟩
  rw [hay, hax, he]
  have hsc := Real.sin_sq_add_cos_sq (w g x t)
  have hs := Real.abs_sin_le_one (w g x t)
  have e1 : (x.e * Real.cos (w g x t)) ^ 2 + (x.e * Real.sin (w g x t) + δ) ^ 2 = x.e ^ 2 + 2 * x.e * (Real.sin (w g x t) * δ) + δ ^ 2 := by
    linear_combination x.e ^ 2 * hsc
  rw [e1]
  exact ecc_bound hx0 he1 hs hδ1

/-- The circular set of C175 meets the hypotheses: initialisation returns, and so does every later call. -/
example (old : Elset) (t : ℝ) : ∃ s out F E, sgp4init 1 .wgs72old 0 exSet.B exSet.e exSet.w exSet.i exSet.M exSet.no exSet.node old = .ok s ∧
    (∀ y, y - axN (gravity .wgs72old) exSet t * Real.sin y + ayN (gravity .wgs72old) exSet t * Real.cos y = U (gravity .wgs72old) exSet t ↔ y = F) ∧ |E - F| ≤ 1.001e-12 ∧
    sgp4 1 .wgs72old s t = .ok out ∧ out.written = some (position (gravity .wgs72old) exSet t E, velocity (gravity .wgs72old) exSet t E) := by
  obtain ⟨s, hs, _⟩ := C175_init 1 .wgs72old 0 exSet exSet_regular old
  have hper : 1 ≤ perigee (gravity .wgs72old) exSet := by unfold perigee; rw [exSet_n.2.1]; norm_num [exSet]
  obtain ⟨h1, h2, h3⟩ := C179_near .wgs72old exSet exSet_regular rfl hper t
  obtain ⟨F, E, out, k1, k2, k3, k4⟩ := C179_kepler 1 1 .wgs72old 0 exSet exSet_regular old s s [] t hs rfl h1 h2 (h3.trans (by norm_num))
  exact ⟨s, out, F, E, hs, k1, k2, k3, k4⟩

end S2E.Sgp4
