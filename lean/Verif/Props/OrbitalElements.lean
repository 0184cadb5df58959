import Verif.Props.KeplerOrbit
import Verif.Props.LinAlg
/-!
# Orbital elements from position and velocity (C92)
-/
namespace S2E.Kepler
open S2E.TwoBody

theorem calcNorm_len (a : Vec 3) : calcNorm a = len a := by
  rw [calcNorm, len, Fin.sum_univ_three]

theorem innerProduct_dot (a b : Vec 3) : innerProduct a b = dot a b := by
  rw [innerProduct, dot, Fin.sum_univ_three]

theorem outerProduct_cross (a b : Vec 3) : outerProduct a b = cross a b := rfl

/-- The ascending node is in the half plane the code can represent (right ascension between -90 and 90 degrees), or the orbit is
equatorial. `h` is the angular momentum. -/
def NodeAhead (h : Fin 3 → ℝ) : Prop := (1 / 2 ^ 52 ≤ Real.sqrt (h 0 * h 0 + h 1 * h 1) ∧ h 1 ≤ 0) ∨ (h 0 = 0 ∧ h 1 = 0)

/-- With the node ahead, inclination and right ascension describe the direction of the angular momentum. -/
theorem normal_of_elements (h : Fin 3 → ℝ) (hne : h ≠ 0) (hn : NodeAhead h) :
    Real.cos (Real.arccos (calcNormalizedVector h 2)) = h 2 / len h ∧
    Real.sin (Real.arccos (calcNormalizedVector h 2)) * Real.sin (raanOf h) = h 0 / len h ∧
    Real.sin (Real.arccos (calcNormalizedVector h 2)) * Real.cos (raanOf h) = -h 1 / len h := by
  have hl := len_pos hne
  have hl2 := len_sq h
  rw [dot] at hl2
  have hz : calcNormalizedVector h 2 = h 2 / len h := by
    rw [calcNormalizedVector, calcNorm_len, if_neg hl.ne', vdiv, scale]
    ring
  rw [hz]
  have habs : -1 ≤ h 2 / len h ∧ h 2 / len h ≤ 1 := by
    rw [← abs_le, abs_div, abs_of_pos hl, div_le_one hl]
    exact abs_le_of_sq_le_sq (by nlinarith [mul_self_nonneg (h 0), mul_self_nonneg (h 1)]) hl.le
  have hsin : Real.sin (Real.arccos (h 2 / len h)) = Real.sqrt (h 0 * h 0 + h 1 * h 1) / len h := by
    rw [Real.sin_arccos]
    have : 1 - (h 2 / len h) ^ 2 = (h 0 * h 0 + h 1 * h 1) / len h ^ 2 := by
      field_simp
      linarith
    rw [this, Real.sqrt_div (add_nonneg (mul_self_nonneg _) (mul_self_nonneg _)), Real.sqrt_sq hl.le]
  rw [hsin]
  refine ⟨Real.cos_arccos habs.1 habs.2, ?_⟩
  rcases hn with ⟨h1, h2⟩ | ⟨h1, h2⟩
  · have hr : raanOf h = Real.arcsin (h 0 / Real.sqrt (h 0 * h 0 + h 1 * h 1)) := by
      rw [raanOf, if_neg (by rw [zero_add]; exact not_lt.mpr h1)]
    have hrho : 0 < Real.sqrt (h 0 * h 0 + h 1 * h 1) := lt_of_lt_of_le (by positivity) h1
    have hrho2 : Real.sqrt (h 0 * h 0 + h 1 * h 1) ^ 2 = h 0 * h 0 + h 1 * h 1 :=
      Real.sq_sqrt (add_nonneg (mul_self_nonneg _) (mul_self_nonneg _))
    rw [hr]
    generalize Real.sqrt (h 0 * h 0 + h 1 * h 1) = rho at *
    have hb : -1 ≤ h 0 / rho ∧ h 0 / rho ≤ 1 := by
      rw [← abs_le, abs_div, abs_of_pos hrho, div_le_one hrho]
      exact abs_le_of_sq_le_sq (by nlinarith [mul_self_nonneg (h 1)]) hrho.le
    constructor
    · rw [Real.sin_arcsin hb.1 hb.2]
      field_simp
    · rw [Real.cos_arcsin]
      have : 1 - (h 0 / rho) ^ 2 = (-h 1 / rho) ^ 2 := by
        field_simp
        linarith
      rw [this, Real.sqrt_sq (div_nonneg (by linarith) hrho.le)]
      field_simp
  · rw [h1, h2]; simp

/-- Frame of node and angular momentum: decomposition of a vector orthogonal to the angular momentum. -/
theorem decompose (ci si cO sO : ℝ) (hi : si ^ 2 + ci ^ 2 = 1) (hO : sO ^ 2 + cO ^ 2 = 1) (p : Fin 3 → ℝ)
    (hp : p 0 * (si * sO) + p 1 * (-(si * cO)) + p 2 * ci = 0) :
    p 0 = (p 0 * cO + p 1 * sO) * cO - ((-p 0 * sO + p 1 * cO) * ci + p 2 * si) * (sO * ci) ∧
    p 1 = (p 0 * cO + p 1 * sO) * sO + ((-p 0 * sO + p 1 * cO) * ci + p 2 * si) * (cO * ci) ∧
    p 2 = ((-p 0 * sO + p 1 * cO) * ci + p 2 * si) * si := by
  generalize p 0 = x at *
  generalize p 1 = y at *
  generalize p 2 = z at *
  refine ⟨?_, ?_, ?_⟩ <;> grind

theorem both_zero (a b : ℝ) (h : a * a + b * b = 0) : a = 0 ∧ b = 0 := by
  constructor <;> nlinarith [mul_self_nonneg a, mul_self_nonneg b]

set_option maxHeartbeats 1600000 in
/-- The scalar part of the argument: everything in the frame of the orbital plane. -/
theorem plane_facts (mu r a H x y dx dy : ℝ) (hmu : 0 < mu) (hr : 0 < r) (hH : 0 < H) (hr2 : x ^ 2 + y ^ 2 = r ^ 2)
    (hHd : x * dy - y * dx = H) (hE : dx ^ 2 + dy ^ 2 < 2 * mu / r) (ha : a = mu / (2 * mu / r - (dx ^ 2 + dy ^ 2)))
    (t1 t2 e w f u : ℝ) (ht1 : t1 = (H / mu) * dy - x / r) (ht2 : t2 = -(H / mu) * dx - y / r) (he : e = Real.sqrt (t1 * t1 + t2 * t2))
    (hw : w = atan2 t2 t1) (hf : f = atan2 y x - w)
    (hu : u = atan2 (r * Real.sin f / Real.sqrt (1 - e * e)) (r * Real.cos f + a * e)) :
    0 < a ∧ 0 ≤ e ∧ e < 1 ∧
    x = a * (Real.cos u - e) * Real.cos w - a * Real.sqrt (1 - e * e) * Real.sin u * Real.sin w ∧
    y = a * (Real.cos u - e) * Real.sin w + a * Real.sqrt (1 - e * e) * Real.sin u * Real.cos w ∧
    dx = (-1 * a * Real.sqrt (mu / a ^ 3) * Real.sin u / (1 - e * Real.cos u)) * Real.cos w -
      (Real.sqrt (mu / a ^ 3) * (a * Real.sqrt (1 - e * e)) * Real.cos u / (1 - e * Real.cos u)) * Real.sin w ∧
    dy = (-1 * a * Real.sqrt (mu / a ^ 3) * Real.sin u / (1 - e * Real.cos u)) * Real.sin w +
      (Real.sqrt (mu / a ^ 3) * (a * Real.sqrt (1 - e * e)) * Real.cos u / (1 - e * Real.cos u)) * Real.cos w := by
  have hden : 0 < 2 * mu / r - (dx ^ 2 + dy ^ 2) := by linarith
  have hapos : 0 < a := by rw [ha]; positivity
  have hmu' := hmu.ne'
  have hr' := hr.ne'
  have hH' := hH.ne'
  have ha' := hapos.ne'
  -- vis-viva
  have hvv : a * (2 * mu - r * (dx ^ 2 + dy ^ 2)) = mu * r := by
    have : 2 * mu / r - (dx ^ 2 + dy ^ 2) = (2 * mu - r * (dx ^ 2 + dy ^ 2)) / r := by field_simp
    rw [this] at ha hden
    have h2 : 2 * mu - r * (dx ^ 2 + dy ^ 2) ≠ 0 := by
      intro h0; rw [h0, zero_div] at hden; exact lt_irrefl _ hden
    rw [ha]
    generalize 2 * mu - r * (dx ^ 2 + dy ^ 2) = D at h2
    field_simp
  -- eccentricity
  have hx1 : mu * r * t1 = H * dy * r - mu * x := by rw [ht1]; field_simp
  have hx2 : mu * r * t2 = -(H * dx * r) - mu * y := by rw [ht2]; field_simp
  have hee : (mu * r) ^ 2 * (t1 * t1 + t2 * t2) = (mu * r) ^ 2 - H ^ 2 * r * (2 * mu - r * (dx ^ 2 + dy ^ 2)) := by
    have : (mu * r) ^ 2 * (t1 * t1 + t2 * t2) = (mu * r * t1) ^ 2 + (mu * r * t2) ^ 2 := by ring
    rw [this, hx1, hx2]
    linear_combination mu ^ 2 * hr2 - 2 * H * r * mu * hHd
  have hpe : mu * a * (1 - (t1 * t1 + t2 * t2)) = H ^ 2 := by
    have h1 : mu * a * ((mu * r) ^ 2 * (1 - (t1 * t1 + t2 * t2))) = (mu * r) ^ 2 * H ^ 2 := by
      linear_combination -(mu * a) * hee + mu * r * H ^ 2 * hvv
    have h2 : (mu * r) ^ 2 ≠ 0 := by positivity
    have h3 : (mu * r) ^ 2 * (mu * a * (1 - (t1 * t1 + t2 * t2))) = (mu * r) ^ 2 * H ^ 2 := by linarith
    exact mul_left_cancel₀ h2 h3
  have he0 : 0 ≤ e := by rw [he]; exact Real.sqrt_nonneg _
  have hes : e ^ 2 = t1 * t1 + t2 * t2 := by rw [he, Real.sq_sqrt (add_nonneg (mul_self_nonneg _) (mul_self_nonneg _))]
  rw [← hes] at hpe
  have h1e : 0 < 1 - e ^ 2 := by
    by_contra hneg
    have := mul_nonneg (mul_nonneg hmu.le hapos.le) (le_of_lt (neg_pos.mpr (lt_of_le_of_ne (not_lt.mp hneg) (fun h0 => by
      rw [h0, mul_zero] at hpe; exact (pow_pos hH 2).ne hpe))))
    nlinarith [pow_pos hH 2]
  have he1 : e < 1 := by nlinarith
  -- argument of perigee
  have hwt : t1 = e * Real.cos w ∧ t2 = e * Real.sin w := by
    rcases he0.lt_or_eq with hp | hp
    · obtain ⟨c, s⟩ := atan2_cos_sin hp (x := t1) (y := t2) (by rw [hes]; ring)
      rw [hw, c, s]
      constructor <;> field_simp
    · rw [← hp] at hes ⊢
      obtain ⟨z1, z2⟩ := both_zero t1 t2 (by rw [← hes]; ring)
      exact ⟨by rw [z1, zero_mul], by rw [z2, zero_mul]⟩
  -- true anomaly
  obtain ⟨hc, hs⟩ := atan2_cos_sin hr (x := x) (y := y) hr2
  have hcf : r * Real.cos f = x * Real.cos w + y * Real.sin w := by
    rw [hf, Real.cos_sub, hc, hs]; field_simp
  have hsf : r * Real.sin f = y * Real.cos w - x * Real.sin w := by
    rw [hf, Real.sin_sub, hc, hs]; field_simp
  have hww := Real.sin_sq_add_cos_sq w
  -- orbit equation
  have horb : mu * (r + e * (r * Real.cos f)) = H ^ 2 := by
    have h1 : e * (r * Real.cos f) = x * t1 + y * t2 := by rw [hcf, hwt.1, hwt.2]; ring
    rw [h1]
    have h2 : mu * r * (x * t1 + y * t2) = x * (mu * r * t1) + y * (mu * r * t2) := by ring
    have h3 : mu * r * (x * t1 + y * t2) = r * (H ^ 2 - mu * r) := by
      rw [h2, hx1, hx2]
      linear_combination H * r * hHd - mu * hr2
    have h4 : mu * (x * t1 + y * t2) = H ^ 2 - mu * r := by
      apply mul_left_cancel₀ hr'
      linarith
    linarith
  have horb' : r = a * (1 - e ^ 2) - e * (r * Real.cos f) := by
    apply mul_left_cancel₀ hmu'
    linear_combination horb - hpe
  have hb2 : Real.sqrt (1 - e * e) ^ 2 = 1 - e ^ 2 := by rw [Real.sq_sqrt (by nlinarith)]; ring
  have hbpos : 0 < Real.sqrt (1 - e * e) := Real.sqrt_pos.mpr (by nlinarith)
  have hcs : (r * Real.cos f) ^ 2 + (r * Real.sin f) ^ 2 = r ^ 2 := by
    linear_combination r ^ 2 * Real.sin_sq_add_cos_sq f
  have hb' := hbpos.ne'
  have hell : (r * Real.cos f + a * e) ^ 2 + (r * Real.sin f / Real.sqrt (1 - e * e)) ^ 2 = a ^ 2 := by
    rw [div_pow, hb2]
    have h1e' := h1e.ne'
    field_simp
    generalize hC : r * Real.cos f = C at *
    generalize hS : r * Real.sin f = S at *
    have hCC : r ^ 2 * Real.cos f ^ 2 = C ^ 2 := by rw [← hC]; ring
    have hSS : r ^ 2 * Real.sin f ^ 2 = S ^ 2 := by rw [← hS]; ring
    first
      | linear_combination hcs + (r + a * (1 - e ^ 2) - e * C) * horb'
      | (rw [hSS]; linear_combination hcs + (r + a * (1 - e ^ 2) - e * C) * horb')
  obtain ⟨hcu, hsu⟩ := atan2_cos_sin hapos (x := r * Real.cos f + a * e) (y := r * Real.sin f / Real.sqrt (1 - e * e)) hell
  rw [← hu] at hcu hsu
  have hX : a * (Real.cos u - e) = r * Real.cos f := by rw [hcu]; field_simp; ring
  have hY : a * Real.sqrt (1 - e * e) * Real.sin u = r * Real.sin f := by rw [hsu]; field_simp
  have hrr : a * (1 - e * Real.cos u) = r := by
    have : a * (1 - e * Real.cos u) = a * (1 - e ^ 2) - e * (a * (Real.cos u - e)) := by ring
    rw [this, hX]; linarith
  refine ⟨hapos, he0, he1, ?_, ?_, ?_⟩
  · rw [hX, hY, hcf, hsf]; linear_combination -x * hww
  · rw [hX, hY, hcf, hsf]; linear_combination -y * hww
  -- velocity
  have hn2 : (Real.sqrt (mu / a ^ 3) * a ^ 2 * Real.sqrt (1 - e * e)) ^ 2 = H ^ 2 := by
    rw [mul_pow, mul_pow, hb2, Real.sq_sqrt (by positivity), ← hpe]
    field_simp
  have hnH : Real.sqrt (mu / a ^ 3) * a ^ 2 * Real.sqrt (1 - e * e) = H := by
    have h0 : 0 ≤ Real.sqrt (mu / a ^ 3) * a ^ 2 * Real.sqrt (1 - e * e) := by positivity
    exact (sq_eq_sq₀ h0 hH.le).mp hn2
  have hdu : 1 - e * Real.cos u = r / a := by rw [eq_div_iff ha']; linarith
  have hvP : -1 * a * Real.sqrt (mu / a ^ 3) * Real.sin u / (1 - e * Real.cos u) = -(mu / H) * Real.sin f := by
    rw [hdu]
    have h1 : Real.sin u = r * Real.sin f / (a * Real.sqrt (1 - e * e)) := by rw [← hY]; field_simp
    rw [h1]
    have h2 : H * (Real.sqrt (mu / a ^ 3) * a) = mu * Real.sqrt (1 - e * e) := by
      apply mul_left_cancel₀ (mul_pos hapos hbpos).ne'
      linear_combination H * hnH - hpe - mu * a * hb2
    generalize Real.sqrt (mu / a ^ 3) = n at *
    generalize Real.sqrt (1 - e * e) = b at *
    field_simp
    linear_combination -Real.sin f * h2
  have hvQ : Real.sqrt (mu / a ^ 3) * (a * Real.sqrt (1 - e * e)) * Real.cos u / (1 - e * Real.cos u) = mu / H * (e + Real.cos f) := by
    rw [hdu, hcu]
    have h3 : H ^ 2 * (r * Real.cos f + a * e) = mu * a * (e * r + r * Real.cos f) := by
      rw [← hpe]
      linear_combination -mu * a * e * horb'
    have h4 : Real.sqrt (mu / a ^ 3) * (a * Real.sqrt (1 - e * e)) = H / a := by
      rw [← hnH]; field_simp
    rw [h4]
    field_simp
    linear_combination h3
  rw [hvP, hvQ]
  have hdx : dx = -(mu / H) * (t2 + y / r) := by rw [ht2]; field_simp; ring
  have hdy : dy = mu / H * (t1 + x / r) := by rw [ht1]; field_simp; ring
  have hcf' : Real.cos f = (x * Real.cos w + y * Real.sin w) / r := by rw [← hcf]; field_simp
  have hsf' : Real.sin f = (y * Real.cos w - x * Real.sin w) / r := by rw [← hsf]; field_simp
  constructor
  · rw [hdx, hcf', hsf', hwt.2]
    field_simp
    linear_combination y * hww
  · rw [hdy, hcf', hsf', hwt.1]
    field_simp
    linear_combination -x * hww

/-- The point of the orbit in terms of node frame coordinates. -/
theorem inplane_components (oe : OrbitalElements) (X Y : ℝ) :
    (X • perigeeDir oe + Y • alongDir oe) 0 = (X * Real.cos oe.argPerigee - Y * Real.sin oe.argPerigee) * Real.cos oe.raan -
      (X * Real.sin oe.argPerigee + Y * Real.cos oe.argPerigee) * (Real.sin oe.raan * Real.cos oe.inclination) ∧
    (X • perigeeDir oe + Y • alongDir oe) 1 = (X * Real.cos oe.argPerigee - Y * Real.sin oe.argPerigee) * Real.sin oe.raan +
      (X * Real.sin oe.argPerigee + Y * Real.cos oe.argPerigee) * (Real.cos oe.raan * Real.cos oe.inclination) ∧
    (X • perigeeDir oe + Y • alongDir oe) 2 = (X * Real.sin oe.argPerigee + Y * Real.cos oe.argPerigee) * Real.sin oe.inclination := by
  simp only [perigeeDir, alongDir, Pi.add_apply, Pi.smul_apply, smul_eq_mul, Matrix.cons_val_zero, Matrix.cons_val_one, Matrix.cons_val]
  refine ⟨?_, ?_, ?_⟩ <;> ring

theorem elements_point (mu t : ℝ) (p v : Fin 3 → ℝ) (hmu : 0 < mu) (hne : cross p v ≠ 0) (hE : dot v v < 2 * mu / len p)
    (hn : NodeAhead (cross p v)) :
    Elliptic mu (calcOeFromPosVel mu t p v) ∧ ∃ u,
      u - (calcOeFromPosVel mu t p v).eccentricity * Real.sin u =
        meanMotion mu (calcOeFromPosVel mu t p v) * secondsSinceEpoch (calcOeFromPosVel mu t p v) t ∧
      pointAt (calcOeFromPosVel mu t p v) u = p ∧ velocityAt mu (calcOeFromPosVel mu t p v) u = v := by
  have hp0 : p ≠ 0 := by
    intro h0
    apply hne
    rw [h0]
    funext k
    fin_cases k <;> simp [cross]
  have hrpos := len_pos hp0
  have hHpos := len_pos hne
  obtain ⟨n1, n2, n3⟩ := normal_of_elements (cross p v) hne hn
  have hii := Real.sin_sq_add_cos_sq (Real.arccos (calcNormalizedVector (cross p v) 2))
  have hOO := Real.sin_sq_add_cos_sq (raanOf (cross p v))
  -- orthogonality to the angular momentum
  have horthp : dot p (cross p v) = 0 := by simp [dot, cross]; ring
  have horthv : dot v (cross p v) = 0 := by simp [dot, cross]; ring
  set oe := calcOeFromPosVel mu t p v with hoe
  set i := Real.arccos (calcNormalizedVector (cross p v) 2) with hi
  set O := raanOf (cross p v) with hO
  set H := len (cross p v) with hH
  have hfp : p 0 * (Real.sin i * Real.sin O) + p 1 * (-(Real.sin i * Real.cos O)) + p 2 * Real.cos i = 0 := by
    rw [n1, n2, n3]
    have : p 0 * (cross p v 0 / H) + p 1 * (-(-cross p v 1 / H)) + p 2 * (cross p v 2 / H) = dot p (cross p v) / H := by
      rw [dot]; ring
    rw [this, horthp, zero_div]
  have hfv : v 0 * (Real.sin i * Real.sin O) + v 1 * (-(Real.sin i * Real.cos O)) + v 2 * Real.cos i = 0 := by
    rw [n1, n2, n3]
    have : v 0 * (cross p v 0 / H) + v 1 * (-(-cross p v 1 / H)) + v 2 * (cross p v 2 / H) = dot v (cross p v) / H := by
      rw [dot]; ring
    rw [this, horthv, zero_div]
  obtain ⟨p0, p1, p2⟩ := decompose _ _ _ _ hii hOO p hfp
  obtain ⟨v0, v1, v2⟩ := decompose _ _ _ _ hii hOO v hfv
  set x := p 0 * Real.cos O + p 1 * Real.sin O with hx
  set y := (-p 0 * Real.sin O + p 1 * Real.cos O) * Real.cos i + p 2 * Real.sin i with hy
  set dx := v 0 * Real.cos O + v 1 * Real.sin O with hdx
  set dy := (-v 0 * Real.sin O + v 1 * Real.cos O) * Real.cos i + v 2 * Real.sin i with hdy
  have hr2 : x ^ 2 + y ^ 2 = len p ^ 2 := by
    rw [len_sq, dot, p0, p1, p2]
    generalize x = x at *
    generalize y = y at *
    clear * - hii hOO
    generalize Real.sin i = si at *
    generalize Real.cos i = ci at *
    generalize Real.sin O = sO at *
    generalize Real.cos O = cO at *
    grind
  have hv2 : dx ^ 2 + dy ^ 2 = dot v v := by
    rw [dot, v0, v1, v2]
    generalize dx = x at *
    generalize dy = y at *
    clear * - hii hOO
    generalize Real.sin i = si at *
    generalize Real.cos i = ci at *
    generalize Real.sin O = sO at *
    generalize Real.cos O = cO at *
    grind
  have hcr : x * dy - y * dx = H := by
    -- the angular momentum along its own direction
    have e0 : cross p v 0 = (x * dy - y * dx) * (Real.sin i * Real.sin O) := by
      simp only [cross, Matrix.cons_val_zero]
      rw [p1, p2, v1, v2]
      generalize x = x at *
      generalize y = y at *
      generalize dx = dx at *
      generalize dy = dy at *
      clear * - hii hOO
      ring
    have e1 : cross p v 1 = (x * dy - y * dx) * (-(Real.sin i * Real.cos O)) := by
      simp only [cross, Matrix.cons_val_one, Matrix.cons_val_zero]
      rw [p0, p2, v0, v2]
      generalize x = x at *
      generalize y = y at *
      generalize dx = dx at *
      generalize dy = dy at *
      clear * - hii hOO
      ring
    have e2 : cross p v 2 = (x * dy - y * dx) * Real.cos i := by
      simp only [cross, Matrix.cons_val]
      rw [p0, p1, v0, v1]
      generalize x = x at *
      generalize y = y at *
      generalize dx = dx at *
      generalize dy = dy at *
      clear * - hii hOO
      linear_combination Real.cos i * (x * dy - y * dx) * hOO
    have hHH : H ^ 2 = (x * dy - y * dx) * H := by
      have h1 : H ^ 2 = dot (cross p v) (cross p v) := len_sq _
      have f0 : cross p v 0 = H * (Real.sin i * Real.sin O) := by rw [n2]; field_simp
      have f1 : cross p v 1 = H * (-(Real.sin i * Real.cos O)) := by rw [n3]; field_simp
      have f2 : cross p v 2 = H * Real.cos i := by rw [n1]; field_simp
      have h2 : dot (cross p v) (cross p v) = (x * dy - y * dx) * (Real.sin i * Real.sin O) * (H * (Real.sin i * Real.sin O)) +
          (x * dy - y * dx) * (-(Real.sin i * Real.cos O)) * (H * (-(Real.sin i * Real.cos O))) +
          (x * dy - y * dx) * Real.cos i * (H * Real.cos i) := by
        rw [dot, ← e0, ← e1, ← e2, ← f0, ← f1, ← f2]
      rw [h1, h2]
      linear_combination (x * dy - y * dx) * H * (Real.sin i ^ 2 * hOO + hii)
    have : H * H = H * (x * dy - y * dx) := by linarith [hHH]
    exact (mul_left_cancel₀ hHpos.ne' this).symm
  have hE' : dx ^ 2 + dy ^ 2 < 2 * mu / len p := by rw [hv2]; exact hE
  set a := mu / (2 * mu / len p - (dx ^ 2 + dy ^ 2)) with ha
  set t1 := (H / mu) * dy - x / len p with ht1
  set t2 := -(H / mu) * dx - y / len p with ht2
  set e := Real.sqrt (t1 * t1 + t2 * t2) with he
  set w := atan2 t2 t1 with hw
  have hcosf := cos_wrap (atan2 y x - w)
  have hsinf := sin_wrap (atan2 y x - w)
  set u := atan2 (len p * Real.sin (atan2 y x - w) / Real.sqrt (1 - e * e)) (len p * Real.cos (atan2 y x - w) + a * e) with hu
  obtain ⟨hapos, he0, he1, fx, fy, fdx, fdy⟩ := plane_facts mu (len p) a H x y dx dy hmu hrpos hHpos hr2 hcr hE' ha t1 t2 e w _ u ht1 ht2
    he hw rfl hu
  have hoe' : oe = ⟨a, e, i, O, w, t - ((wrapTo2Pi u - e * Real.sin (wrapTo2Pi u)) / Real.sqrt (mu / a ^ 3)) / (24 * 60 * 60)⟩ := by
    rw [hoe, calcOeFromPosVel]
    simp only [calcNorm_len, innerProduct_dot, outerProduct_cross, ← hi, ← hO, ← hH, ← hv2, ← hx, ← hy, ← hdx, ← hdy, ← ht1, ← ht2, ← he, ← hw,
      hcosf, hsinf, ← ha, ← hu]
  have hell : Elliptic mu oe := by
    rw [hoe']
    exact ⟨hmu, hapos, he0, he1⟩
  refine ⟨hell, wrapTo2Pi u, ?_, ?_, ?_⟩
  · have hnpos : 0 < Real.sqrt (mu / a ^ 3) := Real.sqrt_pos.mpr (by positivity)
    rw [hoe', meanMotion, secondsSinceEpoch]
    simp only
    generalize Real.sqrt (mu / a ^ 3) = n at *
    field_simp
    ring
  · rw [pointAt, cos_wrap, sin_wrap]
    obtain ⟨c0, c1, c2⟩ := inplane_components oe (oe.semiMajorAxis * (Real.cos u - oe.eccentricity))
      (oe.semiMajorAxis * Real.sqrt (1 - oe.eccentricity * oe.eccentricity) * Real.sin u)
    rw [hoe'] at c0 c1 c2 ⊢
    simp only at c0 c1 c2 ⊢
    rw [← fx, ← fy] at c0 c1
    rw [← fy] at c2
    funext k
    fin_cases k
    · exact c0.trans p0.symm
    · exact c1.trans p1.symm
    · exact c2.trans p2.symm
  · rw [velocityAt, cos_wrap, sin_wrap]
    obtain ⟨c0, c1, c2⟩ := inplane_components oe
      (-1 * oe.semiMajorAxis * meanMotion mu oe * Real.sin u / (1 - oe.eccentricity * Real.cos u))
      (meanMotion mu oe * (oe.semiMajorAxis * Real.sqrt (1 - oe.eccentricity * oe.eccentricity)) * Real.cos u /
        (1 - oe.eccentricity * Real.cos u))
    rw [hoe', meanMotion] at c0 c1 c2 ⊢
    simp only at c0 c1 c2 ⊢
    rw [← fdx, ← fdy] at c0 c1
    rw [← fdy] at c2
    funext k
    fin_cases k
    · exact c0.trans v0.symm
    · exact c1.trans v1.symm
    · exact c2.trans v2.symm

/-- **Elements of a bound orbit whose ascending node lies between -90 and 90 degrees**: the two-body motion through the perigee state
described by the elements passes through exactly the given position and velocity at the given time. -/
theorem C92_elements (mu t : ℝ) (p v : Fin 3 → ℝ) (hmu : 0 < mu) (hne : cross p v ≠ 0) (hE : dot v v < 2 * mu / len p)
    (hn : NodeAhead (cross p v)) :
    Elliptic mu (calcOeFromPosVel mu t p v) ∧
    ∀ R V, Motion mu R V → StartsAtPerigee mu (calcOeFromPosVel mu t p v) R V →
      R (secondsSinceEpoch (calcOeFromPosVel mu t p v) t) = p ∧ V (secondsSinceEpoch (calcOeFromPosVel mu t p v) t) = v := by
  obtain ⟨h, u, hu, hp, hv⟩ := elements_point mu t p v hmu hne hE hn
  refine ⟨h, fun R V hM hS => ?_⟩
  have h3 := exact_starts h
  obtain ⟨rfl, rfl⟩ := hM.unique (exact_motion h) 0 (hS.pos.trans h3.pos.symm) (hS.vel.trans h3.vel.symm)
  have := exactE_unique h.e0 h.e1 _ u hu
  rw [exactR, exactV, ← this]
  exact ⟨hp, hv⟩

/-- Consequently a `KeplerOrbit` built from position and velocity reproduces them at the given time (eccentricity up to 1/4, within the
accuracy of the solver), and follows the two-body motion through them at all times. -/
theorem C92_round_trip (mu t : ℝ) (p v : Fin 3 → ℝ) (hmu : 0 < mu) (hne : cross p v ≠ 0) (hE : dot v v < 2 * mu / len p)
    (hn : NodeAhead (cross p v)) (hq : (calcOeFromPosVel mu t p v).eccentricity ≤ 1 / 4) (R V : ℝ → Fin 3 → ℝ) (hM : Motion mu R V)
    (hR : R 0 = p) (hV : V 0 = v) (s : ℝ) :
    len (position mu (calcOeFromPosVel mu t p v) (t + s / 86400) - R s) ≤ 2 / 100000 * (calcOeFromPosVel mu t p v).semiMajorAxis := by
  obtain ⟨h, hall⟩ := C92_elements mu t p v hmu hne hE hn
  set oe := calcOeFromPosVel mu t p v
  obtain ⟨hp, hv⟩ := hall _ _ (exact_motion h) (exact_starts h)
  have hM' : Motion mu (fun s => exactR mu oe (s + secondsSinceEpoch oe t)) (fun s => exactV mu oe (s + secondsSinceEpoch oe t)) := by
    have hm := exact_motion h
    refine ⟨fun s => hm.away _, fun s => ?_, fun s => ?_⟩
    · exact (hm.vel _).comp_add_const s (secondsSinceEpoch oe t)
    · exact (hm.acc _).comp_add_const s (secondsSinceEpoch oe t)
  have heq := hM.unique hM' 0 (by simp only [zero_add]; rw [hR, hp]) (by simp only [zero_add]; rw [hV, hv])
  have hf := (C91_follows mu oe h hq _ _ (exact_motion h) (exact_starts h) (t + s / 86400)).1
  rw [heq.1]
  have : secondsSinceEpoch oe (t + s / 86400) = s + secondsSinceEpoch oe t := by rw [secondsSinceEpoch, secondsSinceEpoch]; ring
  rw [this] at hf
  exact hf

/-- **If the ascending node lies in the other half (angular momentum with a positive y component) the elements always describe a different
orbital plane**: the right ascension is computed by an arc sine, which cannot return angles beyond 90 degrees, so the y component of the
normal changes sign. -/
theorem C92_wrong_plane (mu t : ℝ) (p v : Fin 3 → ℝ) (h1 : 0 < cross p v 1) (hb : 1 / 2 ^ 52 ≤ cross p v 1) :
    normalDir (calcOeFromPosVel mu t p v) 1 ≤ 0 ∧ normalDir (calcOeFromPosVel mu t p v) ≠ (1 / len (cross p v)) • cross p v := by
  have hne : cross p v ≠ 0 := by
    intro h0; rw [h0] at h1; simp at h1
  have hle : normalDir (calcOeFromPosVel mu t p v) 1 ≤ 0 := by
    have hi : (calcOeFromPosVel mu t p v).inclination = Real.arccos (calcNormalizedVector (cross p v) 2) := rfl
    have hO : (calcOeFromPosVel mu t p v).raan = raanOf (cross p v) := rfl
    simp only [normalDir, Matrix.cons_val_one, Matrix.cons_val_zero, hi, hO]
    have hs := Real.sin_arccos (calcNormalizedVector (cross p v) 2)
    have hc : 0 ≤ Real.cos (raanOf (cross p v)) := by
      unfold raanOf
      split_ifs
      · simp
      · exact Real.cos_arcsin_nonneg _
    rw [hs]
    have := mul_nonneg (Real.sqrt_nonneg (1 - calcNormalizedVector (cross p v) 2 ^ 2)) hc
    linarith
  refine ⟨hle, fun h0 => ?_⟩
  have h2 := congrFun h0 1
  simp only [Pi.smul_apply, smul_eq_mul] at h2
  have := mul_pos (div_pos one_pos (len_pos hne)) h1
  linarith

/-- The circular polar orbit with the ascending node at 180 degrees gets eccentricity 2. -/
theorem C92_circular_gets_two (mu t r : ℝ) (hmu : 0 < mu) (hr : 0 < r) (hb : 1 / 2 ^ 52 ≤ Real.sqrt (mu * r)) :
    (calcOeFromPosVel mu t ![-r, 0, 0] ![0, 0, Real.sqrt (mu / r)]).eccentricity = 2 := by
  set q := Real.sqrt (mu / r) with hq
  have hqpos : 0 < q := Real.sqrt_pos.mpr (by positivity)
  have hq2 : q ^ 2 = mu / r := Real.sq_sqrt (by positivity)
  have hh : cross ![-r, 0, 0] ![0, 0, q] = ![0, r * q, 0] := by
    funext k
    fin_cases k <;> simp [cross]
  have hrq : Real.sqrt (mu * r) = r * q := by
    rw [← Real.sqrt_sq (mul_pos hr hqpos).le]
    congr 1
    rw [mul_pow, hq2]
    field_simp
  have hH : len ![0, r * q, 0] = r * q := by
    simp [len, Real.sqrt_sq (mul_pos hr hqpos).le]
  have hlen : len ![-r, 0, 0] = r := by
    simp [len, Real.sqrt_sq hr.le]
  have hraan : raanOf ![0, r * q, 0] = 0 := by
    unfold raanOf
    simp
  have hi : Real.arccos (calcNormalizedVector ![0, r * q, 0] 2) = Real.pi / 2 := by
    have : calcNormalizedVector (![0, r * q, 0] : Vec 3) 2 = 0 := by
      unfold calcNormalizedVector
      split_ifs
      · simp
      · simp [vdiv, scale]
    rw [this, Real.arccos_zero]
  have : (calcOeFromPosVel mu t ![-r, 0, 0] ![0, 0, q]).eccentricity =
      Real.sqrt (((r * q) / mu * q + 1) * ((r * q) / mu * q + 1)) := by
    simp only [calcOeFromPosVel, calcNorm_len, outerProduct_cross, hh, hH, hlen, hraan, hi]
    have hr' := hr.ne'
    congr 1
    simp
    field_simp
    ring
  rw [this]
  have h1 : (r * q) / mu * q = 1 := by
    have hmu' := hmu.ne'
    have : r * q ^ 2 = mu := by rw [hq2]; field_simp
    field_simp
    linarith
  rw [h1]
  rw [show ((1 : ℝ) + 1) * (1 + 1) = 2 ^ 2 by norm_num, Real.sqrt_sq (by norm_num)]

/-- Concrete states meeting the hypotheses: an inclined bound orbit with the node ahead, and one with the node behind. -/
example : NodeAhead (cross ![1, 0, 0] ![0, 1 / 2, 1]) ∧ cross ![1, 0, 0] ![0, 1 / 2, 1] ≠ 0 ∧
    dot ![0, 1 / 2, 1] ![0, 1 / 2, 1] < 2 * 1 / len ![1, 0, 0] := by
  have hc : cross ![1, 0, 0] ![0, 1 / 2, 1] = ![0, -1, 1 / 2] := by
    funext k
    fin_cases k <;> simp [cross]
  rw [hc]
  refine ⟨Or.inl ⟨?_, by simp⟩, fun h => ?_, ?_⟩
  · simp
    norm_num
  · have := congrFun h 1
    simp at this
  · simp [len, dot]
    norm_num

example : (1 : ℝ) / 2 ^ 52 ≤ cross ![-1, 0, 0] ![0, 1 / 2, 1] 1 := by
  simp [cross]
  norm_num

end S2E.Kepler
