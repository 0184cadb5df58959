import Verif.Model.Thermal
import Verif.Props.Eps
import Mathlib.Analysis.SpecialFunctions.Trigonometric.InverseDeriv
import Mathlib.Analysis.SpecialFunctions.Sqrt
import Mathlib.Analysis.SpecialFunctions.Trigonometric.Bounds
import Mathlib.Analysis.Calculus.Deriv.MeanValue
import Mathlib.Topology.Order.ProjIcc
/-!
# C80: view factor of the earth
-/
namespace S2E.Thermal
open Real S2E.Eps

/-- The formula used between the two limiting angles, with `H` the distance in earth radii. -/
noncomputable def middle (H lam : ℝ) : ℝ :=
  1 / 2 - 1 / π * arcsin (√(H * H - 1) / (H * sin lam)) +
    1 / (π * H ^ 2) * (cos lam * arccos (-√(H * H - 1) / tan lam) - √(H * H - 1) * √(1 - (H * cos lam) ^ 2))

section
variable {H : ℝ} (hH : 1 < H)
include hH

theorem phi_bounds : 0 < arcsin (1 / H) ∧ arcsin (1 / H) < π / 2 := by
  have h0 : (0 : ℝ) < 1 / H := by positivity
  have h1 : 1 / H < 1 := by rw [div_lt_one (by linarith)]; exact hH
  exact ⟨arcsin_pos.2 h0, arcsin_lt_pi_div_two.2 h1⟩

theorem sin_phi : sin (arcsin (1 / H)) = 1 / H := by
  have h0 : (0 : ℝ) < 1 / H := by positivity
  have h1 : 1 / H < 1 := by rw [div_lt_one (by linarith)]; exact hH
  exact sin_arcsin (by linarith) h1.le

theorem bpos : 0 < √(H * H - 1) := sqrt_pos.2 (by nlinarith)

theorem bsq : √(H * H - 1) ^ 2 = H ^ 2 - 1 := by rw [sq_sqrt (by nlinarith)]; ring

theorem cos_phi : cos (arcsin (1 / H)) = √(H * H - 1) / H := by
  have hH0 : 0 < H := by linarith
  have h1 : 0 ≤ cos (arcsin (1 / H)) := cos_arcsin_nonneg _
  have h2 : cos (arcsin (1 / H)) ^ 2 = (√(H * H - 1) / H) ^ 2 := by
    have := sin_sq_add_cos_sq (arcsin (1 / H))
    rw [sin_phi hH] at this
    rw [div_pow, bsq hH]
    field_simp
    field_simp at this
    linarith
  exact (pow_left_inj₀ h1 (div_nonneg (bpos hH).le hH0.le) two_ne_zero).1 h2

/-- On the middle range the sine is positive. -/
theorem sin_pos_mid {lam : ℝ} (h1 : π / 2 - arcsin (1 / H) ≤ lam) (h2 : lam ≤ π / 2 + arcsin (1 / H)) : 0 < sin lam := by
  obtain ⟨p1, p2⟩ := phi_bounds hH
  exact sin_pos_of_pos_of_lt_pi (by linarith) (by linarith)

theorem middle_low : middle H (π / 2 - arcsin (1 / H)) = 1 / H / H / H := by
  have hH0 : H ≠ 0 := by linarith
  have hb := (bpos hH).ne'
  unfold middle
  rw [sin_pi_div_two_sub, cos_pi_div_two_sub, tan_eq_sin_div_cos, sin_pi_div_two_sub, cos_pi_div_two_sub, cos_phi hH, sin_phi hH]
  have e1 : √(H * H - 1) / (H * (√(H * H - 1) / H)) = 1 := by generalize √(H * H - 1) = b at hb ⊢; field_simp
  have e2 : -√(H * H - 1) / (√(H * H - 1) / H / (1 / H)) = -1 := by generalize √(H * H - 1) = b at hb ⊢; field_simp
  have e3 : 1 - (H * (1 / H)) ^ 2 = 0 := by field_simp; ring
  rw [e1, e2, e3, arcsin_one, arccos_neg_one, sqrt_zero]
  field_simp
  ring

theorem middle_high : middle H (π / 2 + arcsin (1 / H)) = 0 := by
  have hH0 : H ≠ 0 := by linarith
  have hb := (bpos hH).ne'
  have hs : sin (π / 2 + arcsin (1 / H)) = √(H * H - 1) / H := by rw [add_comm, sin_add_pi_div_two, cos_phi hH]
  have hc : cos (π / 2 + arcsin (1 / H)) = -(1 / H) := by rw [add_comm, cos_add_pi_div_two, sin_phi hH]
  unfold middle
  rw [tan_eq_sin_div_cos, hs, hc]
  have e1 : √(H * H - 1) / (H * (√(H * H - 1) / H)) = 1 := by generalize √(H * H - 1) = b at hb ⊢; field_simp
  have e2 : -√(H * H - 1) / (√(H * H - 1) / H / -(1 / H)) = 1 := by generalize √(H * H - 1) = b at hb ⊢; field_simp
  have e3 : 1 - (H * -(1 / H)) ^ 2 = 0 := by field_simp; ring
  rw [e1, e2, e3, arcsin_one, arccos_one, sqrt_zero]
  field_simp
  ring

theorem cot_eq (b lam : ℝ) : -b / tan lam = -b * cos lam / sin lam := by
  rw [tan_eq_sin_div_cos, div_div_eq_mul_div]

theorem middle_continuousOn : ContinuousOn (middle H) (Set.Icc (π / 2 - arcsin (1 / H)) (π / 2 + arcsin (1 / H))) := by
  have hH0 : H ≠ 0 := by linarith
  have hs : ∀ x ∈ Set.Icc (π / 2 - arcsin (1 / H)) (π / 2 + arcsin (1 / H)), sin x ≠ 0 := fun x hx => (sin_pos_mid hH hx.1 hx.2).ne'
  unfold middle
  simp only [cot_eq hH]
  have c1 : ContinuousOn (fun x => √(H * H - 1) / (H * sin x)) (Set.Icc (π / 2 - arcsin (1 / H)) (π / 2 + arcsin (1 / H))) :=
    continuousOn_const.div (continuousOn_const.mul continuous_sin.continuousOn) fun x hx => mul_ne_zero hH0 (hs x hx)
  have c2 : ContinuousOn (fun x => -√(H * H - 1) * cos x / sin x) (Set.Icc (π / 2 - arcsin (1 / H)) (π / 2 + arcsin (1 / H))) :=
    (continuousOn_const.mul continuous_cos.continuousOn).div continuous_sin.continuousOn hs
  have c3 : Continuous (fun x => √(H * H - 1) * √(1 - (H * cos x) ^ 2)) := by fun_prop
  have d1 := continuous_arcsin.comp_continuousOn c1
  have d2 := continuous_arccos.comp_continuousOn c2
  exact (continuousOn_const.sub (continuousOn_const.mul d1)).add (continuousOn_const.mul ((continuous_cos.continuousOn.mul d2).sub c3.continuousOn))

theorem cos_mid {lam : ℝ} (h1 : π / 2 - arcsin (1 / H) < lam) (h2 : lam < π / 2 + arcsin (1 / H)) : 0 < 1 - (H * cos lam) ^ 2 := by
  obtain ⟨p1, p2⟩ := phi_bounds hH
  have hH0 : 0 < H := by linarith
  have a1 : sin (π / 2 - lam) < sin (arcsin (1 / H)) := sin_lt_sin_of_lt_of_le_pi_div_two (by linarith) p2.le (by linarith)
  have a2 : sin (-arcsin (1 / H)) < sin (π / 2 - lam) := sin_lt_sin_of_lt_of_le_pi_div_two (by linarith) (by linarith) (by linarith)
  rw [sin_pi_div_two_sub, sin_phi hH] at a1
  rw [sin_pi_div_two_sub, sin_neg, sin_phi hH] at a2
  have b1 : H * cos lam < 1 := by
    have := mul_lt_mul_of_pos_left a1 hH0
    rwa [mul_one_div_cancel hH0.ne'] at this
  have b2 : -1 < H * cos lam := by
    have := mul_lt_mul_of_pos_left a2 hH0
    rwa [mul_neg, mul_one_div_cancel hH0.ne'] at this
  nlinarith

theorem middle_hasDerivAt {lam : ℝ} (h1 : π / 2 - arcsin (1 / H) < lam) (h2 : lam < π / 2 + arcsin (1 / H)) :
    HasDerivAt (middle H) (-(1 / (π * H ^ 2)) * (sin lam * arccos (-√(H * H - 1) * cos lam / sin lam) +
      √(H * H - 1) * cos lam * √(1 - (H * cos lam) ^ 2) / sin lam)) lam := by
  have hH0 : 0 < H := by linarith
  have hs := sin_pos_mid hH h1.le h2.le
  have hq := cos_mid hH h1 h2
  have hb2 := bsq hH
  have hbp := bpos hH
  have hsc := sin_sq_add_cos_sq lam
  have hfun : middle H = fun x => 1 / 2 - 1 / π * arcsin (√(H * H - 1) / (H * sin x)) +
      1 / (π * H ^ 2) * (cos x * arccos (-√(H * H - 1) * cos x / sin x) - √(H * H - 1) * √(1 - (H * cos x) ^ 2)) := by
    funext x; rw [middle, cot_eq hH]
  rw [hfun]
  generalize √(H * H - 1) = b at hb2 hbp ⊢
  -- square roots of the inner functions
  have hqp := sqrt_pos.2 hq
  have hq2 : √(1 - (H * cos lam) ^ 2) ^ 2 = 1 - (H * cos lam) ^ 2 := sq_sqrt hq.le
  have e1 : 1 - (b / (H * sin lam)) ^ 2 = (√(1 - (H * cos lam) ^ 2) / (H * sin lam)) ^ 2 := by
    rw [div_pow, div_pow, hq2]
    field_simp
    linear_combination (-1 : ℝ) * hb2 + H ^ 2 * hsc
  have e2 : 1 - (-b * cos lam / sin lam) ^ 2 = (√(1 - (H * cos lam) ^ 2) / sin lam) ^ 2 := by
    rw [div_pow, div_pow, hq2]
    field_simp
    linear_combination (-cos lam ^ 2) * hb2 + hsc
  have q1 : √(1 - (b / (H * sin lam)) ^ 2) = √(1 - (H * cos lam) ^ 2) / (H * sin lam) := by rw [e1, sqrt_sq (by positivity)]
  have q2 : √(1 - (-b * cos lam / sin lam) ^ 2) = √(1 - (H * cos lam) ^ 2) / sin lam := by rw [e2, sqrt_sq (by positivity)]
  have n1 : ∀ y : ℝ, 0 < 1 - y ^ 2 → y ≠ -1 ∧ y ≠ 1 := fun y hy => ⟨fun h => by rw [h] at hy; norm_num at hy, fun h => by rw [h] at hy; norm_num at hy⟩
  obtain ⟨m1, m2⟩ := n1 (b / (H * sin lam)) (by rw [e1]; positivity)
  obtain ⟨m3, m4⟩ := n1 (-b * cos lam / sin lam) (by rw [e2]; positivity)
  have dsin := hasDerivAt_sin lam
  have dcos := hasDerivAt_cos lam
  have d1 : HasDerivAt (fun x => b / (H * sin x)) (-(b * cos lam) / (H * sin lam ^ 2)) lam := by
    have := (hasDerivAt_const lam b).div (dsin.const_mul H) (mul_ne_zero hH0.ne' hs.ne')
    refine this.congr_deriv ?_
    field_simp
    ring
  have d2 : HasDerivAt (fun x => -b * cos x / sin x) (b / sin lam ^ 2) lam := by
    have := (dcos.const_mul (-b)).div dsin hs.ne'
    refine this.congr_deriv ?_
    field_simp
    linear_combination hsc
  have d3 : HasDerivAt (fun x => √(1 - (H * cos x) ^ 2)) (H ^ 2 * cos lam * sin lam / √(1 - (H * cos lam) ^ 2)) lam := by
    have := (((dcos.const_mul H).pow 2).const_sub 1).sqrt hq.ne'
    refine this.congr_deriv ?_
    simp only [Pi.pow_apply]
    generalize √(1 - (H * cos lam) ^ 2) = q at hqp ⊢
    field_simp
    ring
  have d4 := (hasDerivAt_arcsin m1 m2).comp lam d1
  have d5 := (hasDerivAt_arccos m3 m4).comp lam d2
  rw [q1] at d4
  rw [q2] at d5
  have d := ((d4.const_mul (1 / π)).const_sub (1 / 2)).add (((dcos.mul d5).sub (d3.const_mul b)).const_mul (1 / (π * H ^ 2)))
  refine d.congr_deriv ?_
  simp only [Function.comp]
  generalize arccos (-b * cos lam / sin lam) = A
  generalize √(1 - (H * cos lam) ^ 2) = q at hq2 hqp ⊢
  have hpi := pi_pos
  field_simp
  linear_combination b * cos lam * hq2 - H ^ 2 * b * cos lam * hsc

theorem middle_deriv_nonpos {lam : ℝ} (h1 : π / 2 - arcsin (1 / H) < lam) (h2 : lam < π / 2 + arcsin (1 / H)) : deriv (middle H) lam ≤ 0 := by
  rw [(middle_hasDerivAt hH h1 h2).deriv]
  have hs := sin_pos_mid hH h1.le h2.le
  have hq := cos_mid hH h1 h2
  have hb2 := bsq hH
  have hsc := sin_sq_add_cos_sq lam
  generalize √(H * H - 1) = b at hb2 ⊢
  have hqp := sqrt_pos.2 hq
  have hq2 : √(1 - (H * cos lam) ^ 2) ^ 2 = 1 - (H * cos lam) ^ 2 := sq_sqrt hq.le
  generalize √(1 - (H * cos lam) ^ 2) = q at hq2 hqp ⊢
  have e2 : 1 - (-b * cos lam / sin lam) ^ 2 = (q / sin lam) ^ 2 := by
    rw [div_pow, div_pow, hq2]
    field_simp
    linear_combination (-cos lam ^ 2) * hb2 + hsc
  have hle : (-b * cos lam / sin lam) ^ 2 ≤ 1 := by nlinarith [sq_nonneg (q / sin lam)]
  have hx := abs_le.1 ((sq_le_one_iff_abs_le_one _).1 hle)
  have hcos := cos_arccos hx.1 hx.2
  have hsin : sin (arccos (-b * cos lam / sin lam)) = q / sin lam := by
    rw [sin_arccos, e2, sqrt_sq (by positivity)]
  have h0 := arccos_nonneg (-b * cos lam / sin lam)
  have h3 : sin (arccos (-b * cos lam / sin lam)) ≤ arccos (-b * cos lam / sin lam) := Real.sin_le h0
  have key : 0 ≤ sin lam * arccos (-b * cos lam / sin lam) + b * cos lam * q / sin lam := by
    have : b * cos lam * q / sin lam = -(sin lam * (q / sin lam * (-b * cos lam / sin lam))) := by field_simp
    rw [this]
    have hqs : 0 ≤ q / sin lam := by positivity
    have : q / sin lam * (-b * cos lam / sin lam) ≤ arccos (-b * cos lam / sin lam) := by
      rw [hsin] at h3
      nlinarith [hx.2]
    nlinarith
  have : 0 < 1 / (π * H ^ 2) := by have := pi_pos; have : 0 < H := by linarith
                                   positivity
  nlinarith

theorem middle_antitone : AntitoneOn (middle H) (Set.Icc (π / 2 - arcsin (1 / H)) (π / 2 + arcsin (1 / H))) := by
  refine antitoneOn_of_deriv_nonpos (convex_Icc _ _) (middle_continuousOn hH) ?_ ?_
  · rw [interior_Icc]
    exact fun x hx => (middle_hasDerivAt hH hx.1 hx.2).differentiableAt.differentiableWithinAt
  · rw [interior_Icc]
    exact fun x hx => middle_deriv_nonpos hH hx.1 hx.2

end

/-! ## C80 -/

theorem earthRadius_pos : 0 < earthRadius := by unfold earthRadius; norm_num

/-- The low-altitude formula in terms of `H`. -/
theorem viewFactor_low (lam dist : ℝ) (h : dist - earthRadius < 1732000) :
    viewFactor lam dist = if lam ≤ π / 2 - arcsin (1 / (dist / earthRadius)) then cos lam / (dist / earthRadius) / (dist / earthRadius)
      else if lam ≤ π / 2 + arcsin (1 / (dist / earthRadius)) then middle (dist / earthRadius) lam else 0 := by
  unfold viewFactor middle
  simp only [if_pos h]

/-- **C80.** Below 1732 km altitude the view factor of the earth, as a function of the angle between node normal and earth direction, never increases from 0 to π, runs from
`(R/d)²` at 0 down to 0 when the earth is below the node's horizon, and is continuous: the three formulas agree where they meet. -/
theorem C80_low_altitude (dist : ℝ) (h1 : earthRadius < dist) (h2 : dist - earthRadius < 1732000) :
    AntitoneOn (fun lam => viewFactor lam dist) (Set.Icc 0 π) ∧ Continuous (fun lam => viewFactor lam dist) ∧
    viewFactor 0 dist = (earthRadius / dist) ^ 2 ∧ (∀ lam, π / 2 + arcsin (earthRadius / dist) ≤ lam → viewFactor lam dist = 0) ∧
    (∀ lam ∈ Set.Icc 0 π, 0 ≤ viewFactor lam dist ∧ viewFactor lam dist ≤ (earthRadius / dist) ^ 2) := by
  have hR := earthRadius_pos
  have hd : 0 < dist := hR.trans h1
  have hH : 1 < dist / earthRadius := by rw [lt_div_iff₀ hR]; linarith
  have hinv : earthRadius / dist = 1 / (dist / earthRadius) := by field_simp
  have hv := fun lam => viewFactor_low lam dist h2
  rw [hinv]
  generalize dist / earthRadius = H at *
  have hH0 : 0 < H := by linarith
  obtain ⟨p1, p2⟩ := phi_bounds hH
  have hlow := middle_low hH
  have hhigh := middle_high hH
  have hm := middle_antitone hH
  have hc := middle_continuousOn hH
  have hcosl : cos (π / 2 - arcsin (1 / H)) = 1 / H := by rw [cos_pi_div_two_sub, sin_phi hH]
  generalize arcsin (1 / H) = φ at *
  -- clamp representation
  have hrep : ∀ lam, viewFactor lam dist = cos (min lam (π / 2 - φ)) / H / H - 1 / H / H / H + middle H (max (π / 2 - φ) (min lam (π / 2 + φ))) := by
    intro lam
    rw [hv lam]
    by_cases c1 : lam ≤ π / 2 - φ
    · rw [if_pos c1, min_eq_left c1, min_eq_left (by linarith), max_eq_left c1, hlow]; ring
    · rw [if_neg c1]
      push Not at c1
      rw [min_eq_right c1.le, hcosl]
      by_cases c2 : lam ≤ π / 2 + φ
      · rw [if_pos c2, min_eq_left c2, max_eq_right c1.le]; ring
      · rw [if_neg c2, min_eq_right (not_le.1 c2).le, max_eq_right (by linarith), hhigh]; ring
  have hanti : AntitoneOn (fun lam => viewFactor lam dist) (Set.Icc 0 π) := by
    intro x hx y hy hxy
    simp only [hrep]
    have q1 : cos (min y (π / 2 - φ)) ≤ cos (min x (π / 2 - φ)) :=
      cos_le_cos_of_nonneg_of_le_pi (le_min hx.1 (by linarith)) ((min_le_left _ _).trans hy.2) (min_le_min_right _ hxy)
    have q2 : middle H (max (π / 2 - φ) (min y (π / 2 + φ))) ≤ middle H (max (π / 2 - φ) (min x (π / 2 + φ))) :=
      hm ⟨le_max_left _ _, max_le (by linarith) (min_le_right _ _)⟩ ⟨le_max_left _ _, max_le (by linarith) (min_le_right _ _)⟩
        (max_le_max_left _ (min_le_min_right _ hxy))
    have q3 := div_le_div_of_nonneg_right (div_le_div_of_nonneg_right q1 hH0.le) hH0.le
    linarith
  have h0 : viewFactor 0 dist = (1 / H) ^ 2 := by
    rw [hv 0, if_pos (by linarith), cos_zero, one_div_pow, div_div, sq]
  have hz : ∀ lam, π / 2 + φ ≤ lam → viewFactor lam dist = 0 := by
    intro lam hl
    rw [hv lam, if_neg (by push Not; linarith)]
    by_cases c : lam ≤ π / 2 + φ
    · rw [if_pos c, le_antisymm c hl, hhigh]
    · rw [if_neg c]
  refine ⟨hanti, ?_, h0, hz, fun lam hl => ⟨?_, ?_⟩⟩
  · have e : (fun lam => viewFactor lam dist) = fun lam => cos (min lam (π / 2 - φ)) / H / H - 1 / H / H / H + middle H (max (π / 2 - φ) (min lam (π / 2 + φ))) :=
      funext hrep
    rw [e]
    have c1 : Continuous fun lam : ℝ => max (π / 2 - φ) (min lam (π / 2 + φ)) := by fun_prop
    have c2 : Continuous fun lam => middle H (max (π / 2 - φ) (min lam (π / 2 + φ))) :=
      hc.comp_continuous c1 fun x => ⟨le_max_left _ _, max_le (by linarith) (min_le_right _ _)⟩
    have c3 : Continuous fun lam => cos (min lam (π / 2 - φ)) / H / H - 1 / H / H / H := by fun_prop
    exact c3.add c2
  · rw [← hz π (by linarith)]
    exact hanti hl ⟨pi_pos.le, le_rfl⟩ hl.2
  · rw [← h0]
    exact hanti ⟨le_rfl, pi_pos.le⟩ hl hl.1

/-- **C80.** From 1732 km altitude on a constant is used: a quarter of `(R/d)²` for every node that does not face away, so the value for a node facing the earth drops by a
factor of four there, and jumps to zero at 90°. -/
theorem C80_high_altitude (dist : ℝ) (h : 1732000 ≤ dist - earthRadius) (lam : ℝ) :
    viewFactor lam dist = if lam < π / 2 then (earthRadius / dist) ^ 2 / 4 else 0 := by
  have hR := earthRadius_pos
  have hd : 0 < dist := by linarith
  unfold viewFactor
  simp only [if_neg (not_lt.2 h)]
  by_cases c : lam < π / 2
  · rw [if_pos c, if_pos c]; field_simp; norm_num
  · rw [if_neg c, if_neg c]

theorem viewFactor_bounds (dist : ℝ) (h1 : earthRadius < dist) (lam : ℝ) (hl : lam ∈ Set.Icc 0 π) :
    0 ≤ viewFactor lam dist ∧ viewFactor lam dist ≤ (earthRadius / dist) ^ 2 := by
  by_cases h2 : dist - earthRadius < 1732000
  · exact (C80_low_altitude dist h1 h2).2.2.2.2 lam hl
  · rw [C80_high_altitude dist (not_lt.1 h2)]
    have : 0 ≤ (earthRadius / dist) ^ 2 := sq_nonneg _
    by_cases c : lam < π / 2
    · rw [if_pos c]; constructor <;> linarith
    · rw [if_neg c]; exact ⟨le_rfl, this⟩

/-- **C80.** Absorbed earth infrared and albedo power of a node outside the earth are never negative and at most `(R/d)²` times the full flux. -/
theorem C80_power_bounds (nd : Node) (earth sunDir : Vec 3) (hd : earthRadius < calcNorm earth) (ir alb : ℝ) (hir : 0 ≤ ir) (halb : 0 ≤ alb) (hA : 0 ≤ nd.area)
    (hα : 0 ≤ nd.alpha) (hε : 0 ≤ nd.epsilon) :
    (0 ≤ nd.calcInfrared earth ir ∧ nd.calcInfrared earth ir ≤ ir * nd.area * nd.epsilon * (earthRadius / calcNorm earth) ^ 2) ∧
    (0 ≤ nd.calcAlbedo earth sunDir alb ∧ nd.calcAlbedo earth sunDir alb ≤ alb * nd.area * nd.alpha * (earthRadius / calcNorm earth) ^ 2) := by
  have hb := viewFactor_bounds _ hd (arccos (innerProduct (calcNormalizedVector earth) nd.normal)) ⟨arccos_nonneg _, arccos_le_pi _⟩
  have hk : 0 ≤ ir * nd.area * nd.epsilon := by positivity
  have hk2 : 0 ≤ alb * nd.area * nd.alpha := by positivity
  unfold Node.calcInfrared Node.calcAlbedo
  simp only
  generalize viewFactor (arccos (innerProduct (calcNormalizedVector earth) nd.normal)) (calcNorm earth) = v at hb ⊢
  refine ⟨⟨mul_nonneg hk hb.1, mul_le_mul_of_nonneg_left hb.2 hk⟩, ?_⟩
  have hc1 : innerProduct (vneg (calcNormalizedVector earth)) (calcNormalizedVector (vsub sunDir (calcNormalizedVector earth))) ≤ 1 := by
    have := unit_inner_le (vneg earth) (vsub sunDir (calcNormalizedVector earth))
    have hnorm : calcNorm (vneg earth) = calcNorm earth := by rw [vneg, calcNorm_scale]; simp
    have hne : calcNormalizedVector (vneg earth) = vneg (calcNormalizedVector earth) := by
      unfold calcNormalizedVector
      rw [hnorm]
      by_cases h : calcNorm earth = 0
      · rw [if_pos h, if_pos h]
      · rw [if_neg h, if_neg h]; funext i; simp only [vdiv, vneg, scale]; ring
    rwa [hne] at this
  generalize innerProduct (vneg (calcNormalizedVector earth)) (calcNormalizedVector (vsub sunDir (calcNormalizedVector earth))) = c at hc1 ⊢
  by_cases hc : c > 0
  · rw [if_pos hc]
    have h3 : c ^ 3 ≤ 1 := pow_le_one₀ hc.le hc1
    have h4 : 0 ≤ c ^ 3 := by positivity
    refine ⟨mul_nonneg hk2 (mul_nonneg hb.1 h4), mul_le_mul_of_nonneg_left ?_ hk2⟩
    nlinarith
  · rw [if_neg hc, mul_zero]
    exact ⟨le_rfl, by positivity⟩

/-- **C80.** The illumination of the earth below is computed from half the angle it should use: with `cosθ` the cosine between zenith of the sub-satellite point and the sun direction, the
factor is `√((1 + cosθ)/2)³ = |cos(θ/2)|³`, because the difference of the two unit vectors stands for the direction from earth to sun. It is positive with the sun below the
horizon of the sub-satellite point, up to (not including) the anti-solar point. -/
theorem C80_albedo_half_angle (nd : Node) (earth sun : Vec 3) (he : earth ≠ 0) (hs : calcNorm sun = 1) (hne : innerProduct (calcNormalizedVector earth) sun < 1) (alb : ℝ) :
    nd.calcAlbedo earth sun alb = alb * nd.area * nd.alpha *
      (viewFactor (arccos (innerProduct (calcNormalizedVector earth) nd.normal)) (calcNorm earth) *
        √((1 + innerProduct (vneg (calcNormalizedVector earth)) sun) / 2) ^ 3) := by
  have h1 : calcNorm (calcNormalizedVector earth) = 1 := ((C71_normalized_vector earth).1 he).1
  unfold Node.calcAlbedo
  generalize calcNormalizedVector earth = u at h1 hne ⊢
  have hu2 : innerProduct u u = 1 := by
    rw [← calcNorm_sq, h1, one_pow]
  have hs2 : innerProduct sun sun = 1 := by
    rw [← calcNorm_sq, hs, one_pow]
  have hneg : innerProduct (vneg u) sun = -innerProduct u sun := by simp only [innerProduct, vneg, scale, Fin.sum_univ_three]; ring
  rw [hneg]
  have hd : calcNorm (vsub sun u) ^ 2 = 2 * (1 - innerProduct u sun) := by
    rw [calcNorm_sq]
    simp only [innerProduct, vsub, Fin.sum_univ_three] at *
    linear_combination hu2 + hs2
  have hin : innerProduct (vneg u) (vsub sun u) = 1 - innerProduct u sun := by
    simp only [innerProduct, vsub, vneg, scale, Fin.sum_univ_three] at *
    linear_combination hu2
  generalize innerProduct u sun = t at hne hd hin ⊢
  have h0 := calcNorm_nonneg (vsub sun u)
  have hpos : 0 < calcNorm (vsub sun u) := by
    rcases h0.lt_or_eq with h | h
    · exact h
    · rw [← h] at hd; nlinarith
  have hc : innerProduct (vneg u) (calcNormalizedVector (vsub sun u)) = √((1 + -t) / 2) := by
    unfold calcNormalizedVector
    rw [if_neg hpos.ne']
    have e : innerProduct (vneg u) (vdiv (vsub sun u) (calcNorm (vsub sun u))) = (1 - t) / calcNorm (vsub sun u) := by
      rw [← hin]; simp only [innerProduct, vdiv, scale, Fin.sum_univ_three]; ring
    rw [e, eq_comm, sqrt_eq_iff_mul_self_eq (by linarith) (div_nonneg (by linarith) h0)]
    rw [div_mul_div_comm, ← sq (calcNorm _), hd]
    have : 1 - t ≠ 0 := by linarith
    field_simp
    ring
  simp only [hc]
  rw [if_pos (sqrt_pos.2 (by linarith))]

/-! ## Non-vacuity -/

example : earthRadius < 6878137 ∧ 6878137 - earthRadius < 1732000 := by unfold earthRadius; norm_num
example : viewFactor 0 (2 * earthRadius) = 1 / 16 := by
  have hR := earthRadius_pos
  rw [C80_high_altitude _ (by unfold earthRadius; norm_num), if_pos (by positivity)]
  field_simp; norm_num
example : viewFactor 0 (6 / 5 * earthRadius) = 25 / 36 := by
  have hR := earthRadius_pos
  rw [(C80_low_altitude _ (by linarith) (by unfold earthRadius; norm_num)).2.2.1]
  field_simp; norm_num
/-- The sun is at the horizon of the sub-satellite point, yet the albedo power is positive. -/
example (nd : Node) (alb : ℝ) : nd.calcAlbedo ![0, 0, -1] ![1, 0, 0] alb =
    alb * nd.area * nd.alpha * (viewFactor (arccos (innerProduct ![0, 0, -1] nd.normal)) 1 * √(1 / 2) ^ 3) := by
  have hn : calcNorm (![0, 0, -1] : Vec 3) = 1 := by simp [calcNorm, Fin.sum_univ_three]
  have hu : calcNormalizedVector (![0, 0, -1] : Vec 3) = ![0, 0, -1] := by
    unfold calcNormalizedVector; rw [hn, if_neg one_ne_zero]; funext i; fin_cases i <;> simp [vdiv, scale]
  have := C80_albedo_half_angle nd ![0, 0, -1] ![1, 0, 0] (fun h => by have := congrFun h 2; simp at this) (by simp [calcNorm, Fin.sum_univ_three])
    (by rw [hu]; simp [innerProduct, Fin.sum_univ_three]) alb
  rw [this, hu, hn]
  have : innerProduct (vneg (![0, 0, -1] : Vec 3)) ![1, 0, 0] = 0 := by simp [innerProduct, vneg, scale, Fin.sum_univ_three]
  rw [this, add_zero]

end S2E.Thermal
