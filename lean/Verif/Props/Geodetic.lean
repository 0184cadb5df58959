import Verif.Model.Geodetic
import Verif.Spec.Geodesy
import Verif.Props.Quaternion2
import Verif.Props.Quantization
import Verif.Props.KeplerOrbit
/-!
# C98: geodetic coordinates
-/
namespace S2E.Geodetic
open S2E.Geodesy

/-! ## The angle helpers -/

/-- `AcTan` returns the polar angle in `(0, 2π]`. -/
theorem acTan_spec (y x : ℝ) (h : x ≠ 0 ∨ y ≠ 0) : 0 < acTan y x ∧ acTan y x ≤ 2 * Real.pi ∧
    x = Real.sqrt (x ^ 2 + y ^ 2) * Real.cos (acTan y x) ∧ y = Real.sqrt (x ^ 2 + y ^ 2) * Real.sin (acTan y x) := by
  have hpi := Real.pi_pos
  unfold acTan
  by_cases h0 : x = 0
  · subst h0
    have hy : y ≠ 0 := by simpa using h
    rw [if_pos rfl]
    split_ifs with h1
    · refine ⟨by linarith, by linarith, by simp, ?_⟩
      simp [abs_of_pos h1, Real.sqrt_sq_eq_abs]
    · have h2 : y < 0 := lt_of_le_of_ne (not_lt.mp h1) hy
      have e : 3 * Real.pi / 2 = Real.pi / 2 + Real.pi := by ring
      refine ⟨by linarith, by linarith, by rw [e, Real.cos_add_pi]; simp, ?_⟩
      rw [e, Real.sin_add_pi]
      simp [abs_of_neg h2, Real.sqrt_sq_eq_abs]
  · rw [if_neg h0]
    have b1 := Real.neg_pi_div_two_lt_arctan (y / x)
    have b2 := Real.arctan_lt_pi_div_two (y / x)
    have hs : 0 < Real.sqrt (1 + (y / x) ^ 2) := Real.sqrt_pos.mpr (by positivity)
    have key : Real.sqrt (x ^ 2 + y ^ 2) = |x| * Real.sqrt (1 + (y / x) ^ 2) := by
      rw [← Real.sqrt_sq_eq_abs, ← Real.sqrt_mul (sq_nonneg x)]
      congr 1
      field_simp
    have c := Real.cos_arctan (y / x)
    have s := Real.sin_arctan (y / x)
    rw [key]
    split_ifs with h1 h2
    · refine ⟨Real.arctan_pos.mpr (by positivity), by linarith, ?_, ?_⟩
      · rw [c, abs_of_pos h1]; field_simp
      · rw [s, abs_of_pos h1]; field_simp
    · have h3 : Real.arctan (y / x) ≤ 0 := by
        rw [← Real.arctan_zero]; exact Real.arctan_strictMono.monotone (div_nonpos_of_nonpos_of_nonneg (not_lt.mp h2) h1.le)
      have e1 : Real.cos (2 * Real.pi + Real.arctan (y / x)) = Real.cos (Real.arctan (y / x)) := by rw [add_comm, Real.cos_add_two_pi]
      have e2 : Real.sin (2 * Real.pi + Real.arctan (y / x)) = Real.sin (Real.arctan (y / x)) := by rw [add_comm, Real.sin_add_two_pi]
      refine ⟨by linarith, by linarith, ?_, ?_⟩
      · rw [e1, c, abs_of_pos h1]; field_simp
      · rw [e2, s, abs_of_pos h1]; field_simp
    · have h3 : x < 0 := lt_of_le_of_ne (not_lt.mp h1) h0
      have e1 : Real.cos (Real.pi + Real.arctan (y / x)) = -Real.cos (Real.arctan (y / x)) := by rw [add_comm, Real.cos_add_pi]
      have e2 : Real.sin (Real.pi + Real.arctan (y / x)) = -Real.sin (Real.arctan (y / x)) := by rw [add_comm, Real.sin_add_pi]
      refine ⟨by linarith, by linarith, ?_, ?_⟩
      · rw [e1, c, abs_of_neg h3]; field_simp
      · rw [e2, s, abs_of_neg h3]; field_simp

/-- `FMod2p` returns the angle in `[0, 2π)` that differs by whole turns, for every angle below 2³¹ turns; beyond (from 2³¹ turns, or
2³¹ + 1 turns in the negative direction) the conversion to `int` is undefined. -/
theorem fMod2p_spec (x : ℝ) : (|x| < 2 ^ 31 * (2 * Real.pi) → ∃ (y : ℝ) (k : ℤ), fMod2p x = .ok y ∧ 0 ≤ y ∧ y < 2 * Real.pi ∧ y = x + k * (2 * Real.pi)) ∧
    (2 ^ 31 * (2 * Real.pi) ≤ x → fMod2p x = .ub) := by
  have hpi := Real.pi_pos
  have h2 : (0 : ℝ) < 2 * Real.pi := by positivity
  constructor
  · intro h
    rw [abs_lt] at h
    have hq : x / (2 * Real.pi) < 2 ^ 31 ∧ -(2 : ℝ) ^ 31 - 1 < x / (2 * Real.pi) := by
      rw [div_lt_iff₀ h2, lt_div_iff₀ h2]
      constructor <;> nlinarith
    have hi := (toInt32_ok_iff (x / (2 * Real.pi))).1.mpr ⟨hq.2, hq.1⟩
    set q := x / (2 * Real.pi) with hqd
    have hx : x = q * (2 * Real.pi) := by rw [hqd]; field_simp
    rw [fMod2p, ← hqd, hi]
    simp only [Res.bind_ok]
    rcases le_or_gt 0 q with h0 | h0
    · obtain ⟨_, t2, t3⟩ := truncZ_nonneg h0
      have hr : 0 ≤ x - truncZ q * (2 * Real.pi) := by rw [hx]; nlinarith
      refine ⟨_, -truncZ q, by rw [if_neg (not_lt.mpr hr)], hr, ?_, by push_cast; ring⟩
      rw [hx]; nlinarith
    · obtain ⟨_, t2, t3⟩ := truncZ_nonneg (x := -q) (by linarith)
      rw [truncZ_neg] at t2 t3
      push_cast at t2 t3
      by_cases hr : x - truncZ q * (2 * Real.pi) < 0
      · refine ⟨_, -truncZ q + 1, by rw [if_pos hr], ?_, by linarith, by push_cast; ring⟩
        rw [hx]; nlinarith
      · refine ⟨_, -truncZ q, by rw [if_neg hr], not_lt.mp hr, ?_, by push_cast; ring⟩
        rw [hx]; nlinarith
  · intro h
    have hq : ¬ x / (2 * Real.pi) < 2 ^ 31 := by rw [div_lt_iff₀ h2]; linarith
    have := (toInt32_ok_iff (x / (2 * Real.pi)))
    rcases this.2 with h3 | h3
    · exact absurd (this.1.mp h3).2 hq
    · rw [fMod2p, h3]; rfl

/-! ## CalcEcefPosition -/

theorem e2_val : e2 = 0.006694352752276791 := by unfold e2 flattening; norm_num

theorem one_sub_e2 : 1 - e2 = (1 - flattening) ^ 2 := by unfold e2; ring

theorem sin_arg_pos (phi : ℝ) : 0.993 < 1 - e2 * Real.sin phi * Real.sin phi ∧ 1 - e2 * Real.sin phi * Real.sin phi ≤ 1 := by
  have h1 := Real.sin_sq_le_one phi
  have h2 := sq_nonneg (Real.sin phi)
  rw [e2_val]
  constructor <;> norm_num <;> nlinarith

theorem curvature_pos (phi : ℝ) : 0 < curvature phi := by
  have := (sin_arg_pos phi).1
  exact div_pos one_pos (Real.sqrt_pos.mpr (by norm_num at this; linarith))

theorem curvature_sq (phi : ℝ) : curvature phi ^ 2 * (1 - e2 * Real.sin phi * Real.sin phi) = 1 := by
  have h := (sin_arg_pos phi).1
  have h' : 0 < 1 - e2 * Real.sin phi * Real.sin phi := by norm_num at h; linarith
  rw [curvature, div_pow, Real.sq_sqrt h'.le, one_pow, div_mul_cancel₀ _ h'.ne']

theorem earthRadius_pos : 0 < earthRadius := by unfold earthRadius; norm_num

/-- **C98 (to Earth-fixed).** For every latitude and altitude and every longitude below 2³¹ turns `CalcEcefPosition` is the point with
these geodetic coordinates on the Earth ellipsoid. -/
theorem C98_to_ecef (lat lon alt : ℝ) (h : |lon| < 2 ^ 31 * (2 * Real.pi)) :
    ∃ p, (GeodeticPosition.new lat lon alt).calcEcefPosition = .ok p ∧ HasGeodetic earthRadius flattening p lat lon alt := by
  obtain ⟨y, k, h1, _, _, h4⟩ := (fMod2p_spec lon).1 h
  have hc : Real.cos y = Real.cos lon := by rw [h4, Real.cos_add_int_mul_two_pi]
  have hs : Real.sin y = Real.sin lon := by rw [h4, Real.sin_add_int_mul_two_pi]
  have ha := earthRadius_pos
  have hcp := curvature_pos lat
  have hcs := curvature_sq lat
  have hf : 0 < 1 - flattening := by unfold flattening; norm_num
  have q1 := Real.sin_sq_add_cos_sq lat
  have q2 := Real.sin_sq_add_cos_sq lon
  refine ⟨_, by
    simp only [GeodeticPosition.calcEcefPosition, GeodeticPosition.new, h1, Res.bind_ok]
    rfl, ?_⟩
  set c := curvature lat
  refine ⟨![c * earthRadius * (Real.cos lat * Real.cos lon), c * earthRadius * (Real.cos lat * Real.sin lon), c * earthRadius * (1 - e2) * Real.sin lat],
    ?_, ⟨c / earthRadius, by positivity, ?_⟩, ?_⟩
  · unfold OnEllipsoid
    simp only [Matrix.cons_val_zero, Matrix.cons_val_one, Matrix.cons_val_two, Matrix.head_cons, Matrix.tail_cons, Matrix.cons_val]
    rw [one_sub_e2]
    have e : (1 - flattening) ^ 2 = 1 - e2 := one_sub_e2.symm
    field_simp
    rw [e]
    clear * - hcs q1 q2
    grind
  · intro i
    rw [one_sub_e2]
    fin_cases i <;> simp [direction] <;> field_simp
  · intro i
    fin_cases i <;> simp [direction, hc, hs] <;> ring

/-! ## The iteration for the latitude -/

/-- `earth_radius_m * c * e2 * sin(phi)` -/
noncomputable def bulge (phi : ℝ) : ℝ := earthRadius * curvature phi * e2 * Real.sin phi

theorem curvature_le (phi : ℝ) : 1 ≤ curvature phi ∧ curvature phi ≤ 1.0036 := by
  have h := sin_arg_pos phi
  have hs := curvature_sq phi
  have hp := curvature_pos phi
  constructor
  · by_contra hc
    have hc := not_le.mp hc
    have : curvature phi ^ 2 < 1 := by nlinarith
    nlinarith
  · by_contra hc
    have hc := not_le.mp hc
    norm_num at hc h
    have : (1.0036 : ℝ) ^ 2 < curvature phi ^ 2 := by norm_num; nlinarith
    norm_num at this
    nlinarith

theorem curvature_lip (φ ψ : ℝ) : |curvature φ - curvature ψ| ≤ 1.02 * e2 * |Real.sin φ - Real.sin ψ| := by
  obtain ⟨c1, c2⟩ := curvature_le φ
  obtain ⟨d1, d2⟩ := curvature_le ψ
  have hc := curvature_sq φ
  have hd := curvature_sq ψ
  set c := curvature φ
  set d := curvature ψ
  set s := Real.sin φ
  set t := Real.sin ψ
  have he : 0 < e2 := by rw [e2_val]; norm_num
  have hst : |s + t| ≤ 2 := by
    have h1 := Real.abs_sin_le_one φ
    have h2 := Real.abs_sin_le_one ψ
    have := abs_add_le s t
    linarith
  have key : (c - d) * (c + d) = c ^ 2 * d ^ 2 * e2 * ((s - t) * (s + t)) := by
    clear * - hc hd
    grind
  have hcd : c ^ 2 * d ^ 2 ≤ 1.02 := by
    have e1 : c ^ 2 ≤ 1.0073 := by norm_num at c2 ⊢; nlinarith
    have e2' : d ^ 2 ≤ 1.0073 := by norm_num at d2 ⊢; nlinarith
    calc c ^ 2 * d ^ 2 ≤ 1.0073 * 1.0073 := by gcongr
      _ ≤ 1.02 := by norm_num
  have h3 : |c - d| * (c + d) ≤ 1.02 * e2 * |s - t| * 2 := by
    have : |c - d| * (c + d) = |(c - d) * (c + d)| := by rw [abs_mul, abs_of_pos (by linarith : (0 : ℝ) < c + d)]
    rw [this, key, abs_mul, abs_mul (s - t), abs_of_nonneg (by positivity : (0 : ℝ) ≤ c ^ 2 * d ^ 2 * e2)]
    calc c ^ 2 * d ^ 2 * e2 * (|s - t| * |s + t|) ≤ 1.02 * e2 * (|s - t| * 2) := by gcongr
      _ = _ := by ring
  have h4 : |c - d| * 2 ≤ |c - d| * (c + d) := mul_le_mul_of_nonneg_left (by linarith) (abs_nonneg _)
  linarith

theorem bulge_lip (φ ψ : ℝ) : |bulge φ - bulge ψ| ≤ earthRadius * e2 * 1.02 * |φ - ψ| := by
  have h1 := curvature_lip φ ψ
  have hs := Kepler.abs_sin_sub_le φ ψ
  have hc := curvature_le ψ
  have hsin := Real.abs_sin_le_one φ
  have he : 0 < e2 := by rw [e2_val]; norm_num
  have ha := earthRadius_pos
  have e : bulge φ - bulge ψ = earthRadius * e2 * (curvature ψ * (Real.sin φ - Real.sin ψ) + Real.sin φ * (curvature φ - curvature ψ)) := by
    unfold bulge; ring
  rw [e, abs_mul, abs_of_pos (by positivity : 0 < earthRadius * e2), mul_assoc (earthRadius * e2)]
  gcongr
  calc |curvature ψ * (Real.sin φ - Real.sin ψ) + Real.sin φ * (curvature φ - curvature ψ)|
      ≤ |curvature ψ| * |Real.sin φ - Real.sin ψ| + |Real.sin φ| * |curvature φ - curvature ψ| := by
        rw [← abs_mul, ← abs_mul]; exact abs_add_le _ _
    _ ≤ 1.0036 * |Real.sin φ - Real.sin ψ| + 1 * (1.02 * e2 * |Real.sin φ - Real.sin ψ|) := by
        rw [abs_of_pos (curvature_pos ψ)]
        gcongr
        exact hc.2
    _ ≤ 1.02 * |Real.sin φ - Real.sin ψ| := by
        rw [e2_val]; norm_num; nlinarith [abs_nonneg (Real.sin φ - Real.sin ψ)]
    _ ≤ 1.02 * |φ - ψ| := by gcongr

/-- One iteration, without the branch offset of `AcTan`. -/
noncomputable def nextLat (z r ψ : ℝ) : ℝ := Real.arctan ((z + bulge ψ) / r)

/-- Latitudes on the same side of the equator as `z`. -/
def Side (z ψ : ℝ) : Prop := (0 < z ∧ 0 ≤ ψ ∧ ψ ≤ Real.pi / 2) ∨ (z ≤ 0 ∧ -(Real.pi / 2) ≤ ψ ∧ ψ ≤ 0)

/-- The branch offset of `AcTan`. -/
noncomputable def offset (z : ℝ) : ℝ := if z > 0 then 0 else 2 * Real.pi

theorem bulge_side {z ψ : ℝ} (h : Side z ψ) : (0 < z ∧ 0 ≤ bulge ψ) ∨ (z ≤ 0 ∧ bulge ψ ≤ 0) := by
  have he : 0 < e2 := by rw [e2_val]; norm_num
  have hpos : 0 < earthRadius * curvature ψ * e2 := mul_pos (mul_pos earthRadius_pos (curvature_pos ψ)) he
  rcases h with ⟨h1, h2, h3⟩ | ⟨h1, h2, h3⟩
  · exact Or.inl ⟨h1, mul_nonneg hpos.le (Real.sin_nonneg_of_nonneg_of_le_pi h2 (by linarith [Real.pi_pos]))⟩
  · exact Or.inr ⟨h1, mul_nonpos_of_nonneg_of_nonpos hpos.le (Real.sin_nonpos_of_nonpos_of_neg_pi_le h3 (by linarith [Real.pi_pos]))⟩

theorem nextLat_side {z r ψ : ℝ} (hr : 0 < r) (h : Side z ψ) : Side z (nextLat z r ψ) := by
  have b1 := Real.neg_pi_div_two_lt_arctan ((z + bulge ψ) / r)
  have b2 := Real.arctan_lt_pi_div_two ((z + bulge ψ) / r)
  rcases bulge_side h with ⟨h1, h2⟩ | ⟨h1, h2⟩
  · exact Or.inl ⟨h1, Real.arctan_nonneg.mpr (by positivity), b2.le⟩
  · refine Or.inr ⟨h1, b1.le, ?_⟩
    have : (z + bulge ψ) / r ≤ 0 := div_nonpos_of_nonpos_of_nonneg (by linarith) hr.le
    have := Real.arctan_strictMono.monotone this
    rwa [Real.arctan_zero] at this

theorem acTan_offset {z r y : ℝ} (hr : 0 < r) (h : (0 < z ∧ 0 < y) ∨ (z ≤ 0 ∧ y ≤ 0)) : acTan y r = Real.arctan (y / r) + offset z := by
  rw [acTan, if_neg hr.ne', if_pos hr, offset]
  rcases h with ⟨h1, h2⟩ | ⟨h1, h2⟩
  · rw [if_pos h2, if_pos h1, add_zero]
  · rw [if_neg (not_lt.mpr h2), if_neg (not_lt.mpr h1), add_comm]

theorem trig_offset (z ψ : ℝ) : Real.sin (ψ + offset z) = Real.sin ψ ∧ Real.cos (ψ + offset z) = Real.cos ψ := by
  unfold offset
  split_ifs
  · simp
  · exact ⟨Real.sin_add_two_pi ψ, Real.cos_add_two_pi ψ⟩

theorem latLoop_step {z r ψ : ℝ} (hr : 0 < r) (h : Side z ψ) (k : ℕ) : latLoop z r (k + 1) (ψ + offset z) =
    if |nextLat z r ψ - ψ| ≥ 1e-10 then latLoop z r k (nextLat z r ψ + offset z) else .ok (nextLat z r ψ + offset z, curvature ψ) := by
  have hc : curvature (ψ + offset z) = curvature ψ := by unfold curvature; rw [(trig_offset z ψ).1]
  have ha : acTan (z + earthRadius * curvature (ψ + offset z) * e2 * Real.sin (ψ + offset z)) r = nextLat z r ψ + offset z := by
    rw [hc, (trig_offset z ψ).1]
    refine acTan_offset hr ?_
    rcases bulge_side h with ⟨h1, h2⟩ | ⟨h1, h2⟩
    · left; refine ⟨h1, ?_⟩; unfold bulge at h2; linarith
    · right; refine ⟨h1, ?_⟩; unfold bulge at h2; linarith
  rw [latLoop]
  simp only [ha]
  rw [hc, show nextLat z r ψ + offset z - (ψ + offset z) = nextLat z r ψ - ψ by ring]

theorem arctan_lip {z r u v : ℝ} (hr : 0 < r) (h : (0 ≤ z ∧ z ≤ u ∧ z ≤ v) ∨ (z ≤ 0 ∧ u ≤ z ∧ v ≤ z)) (hz : 0 < r ^ 2 + z ^ 2) :
    |Real.arctan (u / r) - Real.arctan (v / r)| ≤ r / (r ^ 2 + z ^ 2) * |u - v| := by
  have main : ∀ S : Set ℝ, Convex ℝ S → (∀ x ∈ S, (z / r) ^ 2 ≤ x ^ 2) → u / r ∈ S → v / r ∈ S →
      |Real.arctan (u / r) - Real.arctan (v / r)| ≤ r / (r ^ 2 + z ^ 2) * |u - v| := by
    intro S hS hb hu hv
    have := hS.norm_image_sub_le_of_norm_hasDerivWithin_le (f := Real.arctan) (f' := fun x => 1 / (1 + x ^ 2)) (C := r ^ 2 / (r ^ 2 + z ^ 2))
      (fun x _ => (Real.hasDerivAt_arctan x).hasDerivWithinAt) (fun x hx => by
        have h1 := hb x hx
        rw [Real.norm_of_nonneg (by positivity), div_le_div_iff₀ (by positivity) hz]
        have h2 : r ^ 2 * (z / r) ^ 2 = z ^ 2 := by field_simp
        nlinarith) hv hu
    rw [Real.norm_eq_abs, Real.norm_eq_abs] at this
    refine this.trans (le_of_eq ?_)
    rw [← sub_div, abs_div, abs_of_pos hr]
    field_simp
  rcases h with ⟨h1, h2, h3⟩ | ⟨h1, h2, h3⟩
  · refine main (Set.Ici (z / r)) (convex_Ici _) (fun x hx => ?_) ?_ ?_
    · have : 0 ≤ z / r := by positivity
      exact pow_le_pow_left₀ this hx 2
    · exact div_le_div_of_nonneg_right h2 hr.le
    · exact div_le_div_of_nonneg_right h3 hr.le
  · refine main (Set.Iic (z / r)) (convex_Iic _) (fun x hx => ?_) ?_ ?_
    · have h4 : z / r ≤ 0 := div_nonpos_of_nonpos_of_nonneg h1 hr.le
      have h5 : x ≤ z / r := hx
      nlinarith
    · exact div_le_div_of_nonneg_right h2 hr.le
    · exact div_le_div_of_nonneg_right h3 hr.le

/-- The iteration is a contraction outside half an Earth radius. -/
theorem nextLat_contract {z r φ ψ : ℝ} (hr : 0 < r) (hfar : (earthRadius / 2) ^ 2 ≤ r ^ 2 + z ^ 2) (h : Side z φ) (h' : Side z ψ) :
    |nextLat z r φ - nextLat z r ψ| ≤ |φ - ψ| / 50 := by
  have ha := earthRadius_pos
  have hpos : 0 < r ^ 2 + z ^ 2 := by positivity
  have hside : (0 ≤ z ∧ z ≤ z + bulge φ ∧ z ≤ z + bulge ψ) ∨ (z ≤ 0 ∧ z + bulge φ ≤ z ∧ z + bulge ψ ≤ z) := by
    rcases bulge_side h with ⟨h1, h2⟩ | ⟨h1, h2⟩ <;> rcases bulge_side h' with ⟨h3, h4⟩ | ⟨h3, h4⟩
    · left; refine ⟨h1.le, ?_, ?_⟩ <;> linarith
    · linarith
    · linarith
    · right; refine ⟨h1, ?_, ?_⟩ <;> linarith
  refine (arctan_lip hr hside hpos).trans ?_
  rw [add_sub_add_left_eq_sub]
  have hb := bulge_lip φ ψ
  have hq : r / (r ^ 2 + z ^ 2) ≤ 2 / earthRadius := by
    rw [div_le_div_iff₀ hpos ha]
    rcases le_or_gt r (earthRadius / 2) with h1 | h1
    · nlinarith
    · nlinarith [sq_nonneg z]
  calc r / (r ^ 2 + z ^ 2) * |bulge φ - bulge ψ| ≤ 2 / earthRadius * (earthRadius * e2 * 1.02 * |φ - ψ|) := by gcongr
    _ = 2 * e2 * 1.02 * |φ - ψ| := by field_simp
    _ ≤ |φ - ψ| / 50 := by rw [e2_val]; norm_num; nlinarith [abs_nonneg (φ - ψ)]

theorem latLoop_ends {z r : ℝ} (hr : 0 < r) (hfar : (earthRadius / 2) ^ 2 ≤ r ^ 2 + z ^ 2) :
    ∀ (n : ℕ) (ψ : ℝ), Side z ψ → |nextLat z r ψ - ψ| < 1e-10 * 50 ^ n → ∃ ψ', Side z ψ' ∧ |nextLat z r ψ' - ψ'| < 1e-10 ∧
      ∀ fuel, n < fuel → latLoop z r fuel (ψ + offset z) = .ok (nextLat z r ψ' + offset z, curvature ψ') := by
  intro n
  induction n with
  | zero =>
    intro ψ h hd
    rw [pow_zero, mul_one] at hd
    refine ⟨ψ, h, hd, fun fuel hf => ?_⟩
    obtain ⟨k, rfl⟩ : ∃ k, fuel = k + 1 := ⟨fuel - 1, by omega⟩
    rw [latLoop_step hr h, if_neg (not_le.mpr hd)]
  | succ n ih =>
    intro ψ h hd
    by_cases hc : |nextLat z r ψ - ψ| ≥ 1e-10
    · have h1 := nextLat_contract hr hfar (nextLat_side hr h) h
      obtain ⟨ψ', g1, g2, g3⟩ := ih (nextLat z r ψ) (nextLat_side hr h) (by
        refine lt_of_le_of_lt h1 ?_
        rw [pow_succ] at hd
        linarith)
      refine ⟨ψ', g1, g2, fun fuel hf => ?_⟩
      obtain ⟨k, rfl⟩ : ∃ k, fuel = k + 1 := ⟨fuel - 1, by omega⟩
      rw [latLoop_step hr h, if_pos hc]
      exact g3 k (by omega)
    · refine ⟨ψ, h, not_le.mp hc, fun fuel hf => ?_⟩
      obtain ⟨k, rfl⟩ : ∃ k, fuel = k + 1 := ⟨fuel - 1, by omega⟩
      rw [latLoop_step hr h, if_neg hc]

/-- At most eight iterations from the starting value. -/
theorem latLoop_start {z r : ℝ} (hr : 0 < r) (hfar : (earthRadius / 2) ^ 2 ≤ r ^ 2 + z ^ 2) : ∃ ψ, Side z ψ ∧ |nextLat z r ψ - ψ| < 1e-10 ∧
    ∀ fuel, 8 ≤ fuel → latLoop z r fuel (acTan z r) = .ok (nextLat z r ψ + offset z, curvature ψ) := by
  have hs : Side z (Real.arctan (z / r)) := by
    have b1 := Real.neg_pi_div_two_lt_arctan (z / r)
    have b2 := Real.arctan_lt_pi_div_two (z / r)
    rcases lt_or_ge 0 z with h | h
    · exact Or.inl ⟨h, Real.arctan_nonneg.mpr (by positivity), b2.le⟩
    · refine Or.inr ⟨h, b1.le, ?_⟩
      have := Real.arctan_strictMono.monotone (div_nonpos_of_nonpos_of_nonneg h hr.le)
      rwa [Real.arctan_zero] at this
  have he : acTan z r = Real.arctan (z / r) + offset z := acTan_offset hr (by
    rcases lt_or_ge 0 z with h | h
    · exact Or.inl ⟨h, h⟩
    · exact Or.inr ⟨h, h⟩)
  rw [he]
  obtain ⟨ψ, h1, h2, h3⟩ := latLoop_ends hr hfar 7 _ hs (by
    have hn := nextLat_side hr hs
    have hpi := Real.pi_lt_four
    have : |nextLat z r (Real.arctan (z / r)) - Real.arctan (z / r)| ≤ 2 := by
      rw [abs_le]
      rcases hn with ⟨a1, a2, a3⟩ | ⟨a1, a2, a3⟩ <;> rcases hs with ⟨b1, b2, b3⟩ | ⟨b1, b2, b3⟩
      · constructor <;> linarith
      · linarith
      · linarith
      · constructor <;> linarith
    refine lt_of_le_of_lt this ?_
    norm_num)
  exact ⟨ψ, h1, h2, fun fuel hf => h3 fuel (by omega)⟩

theorem final_lat (z ψ : ℝ) (h1 : -(Real.pi / 2) < ψ) (h2 : ψ < Real.pi / 2) (h : Side z ψ) :
    (if ψ + offset z > Real.pi / 2 then ψ + offset z - 2 * Real.pi else ψ + offset z) = ψ := by
  have hpi := Real.pi_pos
  unfold offset
  rcases h with ⟨h3, _, _⟩ | ⟨h3, _, _⟩
  · rw [if_pos h3, add_zero, if_neg (by linarith)]
  · rw [if_neg (not_lt.mpr h3), if_pos (by linarith)]; ring

/-- What `UpdateFromEcef` computes away from the axis and the centre. -/
theorem update_spec (p : Fin 3 → ℝ) (hne : p 0 ≠ 0 ∨ p 1 ≠ 0) (hfar : (earthRadius / 2) ^ 2 ≤ p 0 ^ 2 + p 1 ^ 2 + p 2 ^ 2) :
    ∃ r ψ lon, r = Real.sqrt (p 0 ^ 2 + p 1 ^ 2) ∧ 0 < r ∧ Side (p 2) ψ ∧ |nextLat (p 2) r ψ - ψ| < 1e-10 ∧ 0 ≤ lon ∧ lon < 2 * Real.pi ∧
      p 0 = r * Real.cos lon ∧ p 1 = r * Real.sin lon ∧ ∀ fuel, 8 ≤ fuel → updateFromEcef fuel p =
        .ok (GeodeticPosition.new (nextLat (p 2) r ψ) lon (r / Real.cos (nextLat (p 2) r ψ) - curvature ψ * earthRadius)) := by
  have hq : 0 < p 0 ^ 2 + p 1 ^ 2 := by
    rcases hne with h | h
    · have := sq_pos_of_ne_zero h; nlinarith [sq_nonneg (p 1)]
    · have := sq_pos_of_ne_zero h; nlinarith [sq_nonneg (p 0)]
  have hr : 0 < Real.sqrt (p 0 ^ 2 + p 1 ^ 2) := Real.sqrt_pos.mpr hq
  obtain ⟨t1, t2, t3, t4⟩ := acTan_spec (p 1) (p 0) hne
  obtain ⟨lon, k, l1, l2, l3, l4⟩ := (fMod2p_spec (acTan (p 1) (p 0))).1 (by
    rw [abs_of_pos t1]
    have := Real.pi_pos
    refine lt_of_le_of_lt t2 ?_
    nlinarith)
  have hfar' : (earthRadius / 2) ^ 2 ≤ Real.sqrt (p 0 ^ 2 + p 1 ^ 2) ^ 2 + p 2 ^ 2 := by rw [Real.sq_sqrt hq.le]; exact hfar
  obtain ⟨ψ, g1, g2, g3⟩ := latLoop_start hr hfar'
  refine ⟨_, ψ, lon, rfl, hr, g1, g2, l2, l3, ?_, ?_, fun fuel hf => ?_⟩
  · rw [l4, Real.cos_add_int_mul_two_pi]; exact t3
  · rw [l4, Real.sin_add_int_mul_two_pi]; exact t4
  · have er : Real.sqrt (p 0 * p 0 + p 1 * p 1) = Real.sqrt (p 0 ^ 2 + p 1 ^ 2) := by rw [sq, sq]
    simp only [updateFromEcef, l1, Res.bind_ok, er, g3 fuel hf]
    rw [(trig_offset (p 2) _).2, final_lat (p 2) (nextLat (p 2) (Real.sqrt (p 0 ^ 2 + p 1 ^ 2)) ψ) (Real.neg_pi_div_two_lt_arctan _) (Real.arctan_lt_pi_div_two _) (nextLat_side hr g1)]

/-- **C98 (round trip).** For every position that is not on the Earth's axis and at least half an Earth radius from the centre
`UpdateFromEcef` ends after at most eight iterations with latitude in (-π/2, π/2) and longitude in [0, 2π), and converting the result back
gives every component of the position to within 10 µm. -/
theorem C98_round_trip (p : Fin 3 → ℝ) (hne : p 0 ≠ 0 ∨ p 1 ≠ 0) (hfar : (earthRadius / 2) ^ 2 ≤ p 0 ^ 2 + p 1 ^ 2 + p 2 ^ 2) :
    ∃ g, (∀ fuel, 8 ≤ fuel → updateFromEcef fuel p = .ok g) ∧ -(Real.pi / 2) < g.latitude ∧ g.latitude < Real.pi / 2 ∧
      0 ≤ g.longitude ∧ g.longitude < 2 * Real.pi ∧ ∃ q, g.calcEcefPosition = .ok q ∧ ∀ i, |q i - p i| ≤ 1e-5 := by
  obtain ⟨r, ψ, lon, er, hr, hs, hd, l1, l2, c0, c1, hu⟩ := update_spec p hne hfar
  set lat := nextLat (p 2) r ψ with hlat
  have b1 : -(Real.pi / 2) < lat := Real.neg_pi_div_two_lt_arctan _
  have b2 : lat < Real.pi / 2 := Real.arctan_lt_pi_div_two _
  have hcos : 0 < Real.cos lat := Real.cos_pos_of_mem_Ioo ⟨b1, b2⟩
  refine ⟨_, hu, b1, b2, l1, l2, ?_⟩
  obtain ⟨y, k, h1, _, _, h4⟩ := (fMod2p_spec lon).1 (by
    rw [abs_of_nonneg l1]; have := Real.pi_pos; nlinarith)
  have hc : Real.cos y = Real.cos lon := by rw [h4, Real.cos_add_int_mul_two_pi]
  have hsn : Real.sin y = Real.sin lon := by rw [h4, Real.sin_add_int_mul_two_pi]
  refine ⟨_, by
    simp only [GeodeticPosition.calcEcefPosition, GeodeticPosition.new, h1, Res.bind_ok]
    rfl, ?_⟩
  have hl1 := curvature_lip lat ψ
  have hl2 := Kepler.abs_sin_sub_le lat ψ
  have hb := bulge_lip ψ lat
  rw [abs_sub_comm ψ lat] at hb
  have htan : r * Real.tan lat = p 2 + bulge ψ := by
    rw [hlat, nextLat, Real.tan_arctan]; field_simp
  have hsin : Real.sin lat = Real.tan lat * Real.cos lat := by rw [Real.tan_eq_sin_div_cos]; field_simp
  have hN : |curvature lat - curvature ψ| * earthRadius ≤ 4.4e-6 := by
    have : |curvature lat - curvature ψ| ≤ 1.02 * e2 * 1e-10 := by
      refine hl1.trans ?_
      have he : 0 < e2 := by rw [e2_val]; norm_num
      gcongr
      exact hl2.trans hd.le
    calc |curvature lat - curvature ψ| * earthRadius ≤ 1.02 * e2 * 1e-10 * earthRadius := by gcongr; exact earthRadius_pos.le
      _ ≤ 4.4e-6 := by rw [e2_val, earthRadius]; norm_num
  have hB : |bulge ψ - bulge lat| ≤ 4.4e-6 := by
    refine hb.trans ?_
    have he : 0 < e2 := by rw [e2_val]; norm_num
    have ha := earthRadius_pos
    calc earthRadius * e2 * 1.02 * |lat - ψ| ≤ earthRadius * e2 * 1.02 * 1e-10 := by gcongr
      _ ≤ 4.4e-6 := by rw [e2_val, earthRadius]; norm_num
  have horiz : (curvature lat * earthRadius + (r / Real.cos lat - curvature ψ * earthRadius)) * Real.cos lat =
      r + (curvature lat - curvature ψ) * earthRadius * Real.cos lat := by field_simp; ring
  have habs : ∀ w : ℝ, |w| ≤ 1 → |(curvature lat - curvature ψ) * earthRadius * w| ≤ 4.4e-6 := by
    intro w hw
    rw [abs_mul, abs_mul, abs_of_pos earthRadius_pos]
    calc |curvature lat - curvature ψ| * earthRadius * |w| ≤ |curvature lat - curvature ψ| * earthRadius * 1 := by
          gcongr; exact mul_nonneg (abs_nonneg _) earthRadius_pos.le
      _ ≤ _ := by rw [mul_one]; exact hN
  intro i
  fin_cases i
  · change |(curvature lat * earthRadius + (r / Real.cos lat - curvature ψ * earthRadius)) * Real.cos lat * Real.cos y - p 0| ≤ _
    rw [horiz, hc, c0, show (r + (curvature lat - curvature ψ) * earthRadius * Real.cos lat) * Real.cos lon - r * Real.cos lon =
      (curvature lat - curvature ψ) * earthRadius * (Real.cos lat * Real.cos lon) by ring]
    refine (habs _ ?_).trans (by norm_num)
    rw [abs_mul]
    exact mul_le_one₀ (Real.abs_cos_le_one _) (abs_nonneg _) (Real.abs_cos_le_one _)
  · change |(curvature lat * earthRadius + (r / Real.cos lat - curvature ψ * earthRadius)) * Real.cos lat * Real.sin y - p 1| ≤ _
    rw [horiz, hsn, c1, show (r + (curvature lat - curvature ψ) * earthRadius * Real.cos lat) * Real.sin lon - r * Real.sin lon =
      (curvature lat - curvature ψ) * earthRadius * (Real.cos lat * Real.sin lon) by ring]
    refine (habs _ ?_).trans (by norm_num)
    rw [abs_mul]
    exact mul_le_one₀ (Real.abs_cos_le_one _) (abs_nonneg _) (Real.abs_sin_le_one _)
  · change |(curvature lat * earthRadius * (1 - e2) + (r / Real.cos lat - curvature ψ * earthRadius)) * Real.sin lat - p 2| ≤ _
    have : (curvature lat * earthRadius * (1 - e2) + (r / Real.cos lat - curvature ψ * earthRadius)) * Real.sin lat - p 2 =
        (curvature lat - curvature ψ) * earthRadius * Real.sin lat + (bulge ψ - bulge lat) := by
      have h5 : r / Real.cos lat * Real.sin lat = p 2 + bulge ψ := by rw [← htan, hsin]; field_simp
      have h6 : curvature lat * earthRadius * e2 * Real.sin lat = bulge lat := by unfold bulge; ring
      linear_combination h5 - h6
    rw [this]
    refine (abs_add_le _ _).trans ?_
    have := habs (Real.sin lat) (Real.abs_sin_le_one _)
    norm_num at this hB ⊢
    linarith

/-- The explicit Earth-fixed position of given geodetic coordinates. -/
theorem hasGeodetic_explicit {p : Fin 3 → ℝ} {lat lon alt : ℝ} (h : HasGeodetic earthRadius flattening p lat lon alt) :
    p 0 = (curvature lat * earthRadius + alt) * Real.cos lat * Real.cos lon ∧
    p 1 = (curvature lat * earthRadius + alt) * Real.cos lat * Real.sin lon ∧
    p 2 = (curvature lat * earthRadius * (1 - e2) + alt) * Real.sin lat := by
  obtain ⟨s, hs, ⟨κ, hκ, hn⟩, hp⟩ := h
  have ha := earthRadius_pos
  have hf : 0 < 1 - flattening := by unfold flattening; norm_num
  have n0 := hn 0
  have n1 := hn 1
  have n2 := hn 2
  simp [direction] at n0 n1 n2
  have s0 : s 0 = κ * earthRadius ^ 2 * (Real.cos lat * Real.cos lon) := by field_simp at n0; linarith
  have s1 : s 1 = κ * earthRadius ^ 2 * (Real.cos lat * Real.sin lon) := by field_simp at n1; linarith
  have s2 : s 2 = κ * earthRadius ^ 2 * (1 - e2) * Real.sin lat := by rw [one_sub_e2]; field_simp at n2; linarith
  have hk : κ * earthRadius = curvature lat := by
    have hc := curvature_sq lat
    have hcp := curvature_pos lat
    have q1 := Real.sin_sq_add_cos_sq lat
    have q2 := Real.sin_sq_add_cos_sq lon
    have h1 : (κ * earthRadius) ^ 2 * (1 - e2 * Real.sin lat * Real.sin lat) = 1 := by
      unfold OnEllipsoid at hs
      rw [s0, s1, s2, one_sub_e2] at hs
      have e : (1 - flattening) ^ 2 = 1 - e2 := one_sub_e2.symm
      field_simp at hs
      rw [e] at hs
      clear * - hs q1 q2
      grind
    have h0 : 0 < 1 - e2 * Real.sin lat * Real.sin lat := by have := (sin_arg_pos lat).1; norm_num at this; linarith
    have h2 : (κ * earthRadius) ^ 2 = curvature lat ^ 2 := mul_right_cancel₀ h0.ne' (h1.trans hc.symm)
    exact (sq_eq_sq₀ (by positivity) hcp.le).mp h2
  refine ⟨?_, ?_, ?_⟩
  · rw [hp 0, s0, ← hk]; simp [direction]; ring
  · rw [hp 1, s1, ← hk]; simp [direction]; ring
  · rw [hp 2, s2, ← hk]; simp [direction]; ring

theorem div_cos_arctan {r u : ℝ} (hr : 0 < r) : r / Real.cos (Real.arctan (u / r)) = Real.sqrt (r ^ 2 + u ^ 2) := by
  rw [Real.cos_arctan, div_div_eq_mul_div, div_one]
  nth_rw 1 [← Real.sqrt_sq hr.le]
  rw [← Real.sqrt_mul (sq_nonneg r)]
  congr 1
  field_simp

theorem sqrt_sub_le {r u v : ℝ} (hr : 0 < r) : |Real.sqrt (r ^ 2 + u ^ 2) - Real.sqrt (r ^ 2 + v ^ 2)| ≤ |u - v| := by
  have hu : 0 < r ^ 2 + u ^ 2 := by positivity
  have hv : 0 < r ^ 2 + v ^ 2 := by positivity
  have su := Real.sq_sqrt hu.le
  have sv := Real.sq_sqrt hv.le
  have lu : |u| ≤ Real.sqrt (r ^ 2 + u ^ 2) := Real.abs_le_sqrt (by nlinarith)
  have lv : |v| ≤ Real.sqrt (r ^ 2 + v ^ 2) := Real.abs_le_sqrt (by nlinarith)
  have pu := Real.sqrt_pos.mpr hu
  have pv := Real.sqrt_pos.mpr hv
  generalize Real.sqrt (r ^ 2 + u ^ 2) = a at *
  generalize Real.sqrt (r ^ 2 + v ^ 2) = b at *
  have key : |a - b| * (a + b) = |u - v| * |u + v| := by
    have h1 : |a - b| * (a + b) = |(a - b) * (a + b)| := by rw [abs_mul, abs_of_pos (by linarith : 0 < a + b)]
    rw [h1, ← abs_mul]
    congr 1
    nlinarith
  have h2 : |u + v| ≤ a + b := (abs_add_le u v).trans (by linarith)
  have h3 : |a - b| * (a + b) ≤ |u - v| * (a + b) := by rw [key]; gcongr
  exact le_of_mul_le_mul_right h3 (by linarith)

/-- **C98 (accuracy).** Whatever the latitude (other than the poles), longitude and altitude (down to a quarter of an Earth radius below
the surface) of a position are, `UpdateFromEcef` returns the latitude to within 2.1·10⁻¹² rad, exactly the longitude's representative in
[0, 2π), and the altitude to within 10 µm. -/
theorem C98_accuracy (p : Fin 3 → ℝ) (lat lon alt : ℝ) (h : HasGeodetic earthRadius flattening p lat lon alt) (hlat : |lat| < Real.pi / 2)
    (halt : -(earthRadius / 4) ≤ alt) :
    ∃ g, (∀ fuel, 8 ≤ fuel → updateFromEcef fuel p = .ok g) ∧ |g.latitude - lat| ≤ 2.1e-12 ∧ 0 ≤ g.longitude ∧ g.longitude < 2 * Real.pi ∧
      (∃ k : ℤ, g.longitude = lon + k * (2 * Real.pi)) ∧ |g.altitude - alt| ≤ 1e-5 := by
  obtain ⟨p0, p1, p2⟩ := hasGeodetic_explicit h
  have ha := earthRadius_pos
  obtain ⟨l1, l2⟩ := abs_lt.mp hlat
  have hcos : 0 < Real.cos lat := Real.cos_pos_of_mem_Ioo ⟨l1, l2⟩
  have hcv := curvature_le lat
  have hcu : earthRadius ≤ curvature lat * earthRadius := by nlinarith
  have hA : 0.7 * earthRadius < curvature lat * earthRadius + alt := by norm_num; linarith
  have hB : 0.7 * earthRadius < curvature lat * earthRadius * (1 - e2) + alt := by
    have : 0.993 * earthRadius ≤ curvature lat * earthRadius * (1 - e2) := by rw [e2_val]; norm_num; nlinarith
    norm_num at this ⊢; linarith
  have hr0 : 0 < (curvature lat * earthRadius + alt) * Real.cos lat := mul_pos (by norm_num at hA; linarith) hcos
  have qlon := Real.sin_sq_add_cos_sq lon
  have qlat := Real.sin_sq_add_cos_sq lat
  have hr2 : p 0 ^ 2 + p 1 ^ 2 = ((curvature lat * earthRadius + alt) * Real.cos lat) ^ 2 := by
    rw [p0, p1]
    linear_combination (((curvature lat * earthRadius + alt) * Real.cos lat) ^ 2) * qlon
  have hfar : (earthRadius / 2) ^ 2 ≤ p 0 ^ 2 + p 1 ^ 2 + p 2 ^ 2 := by
    rw [hr2, p2, mul_pow, mul_pow]
    have hA2 : (earthRadius / 2) ^ 2 ≤ (curvature lat * earthRadius + alt) ^ 2 := by
      apply pow_le_pow_left₀ (by positivity); norm_num at hA; linarith
    have hB2 : (earthRadius / 2) ^ 2 ≤ (curvature lat * earthRadius * (1 - e2) + alt) ^ 2 := by
      apply pow_le_pow_left₀ (by positivity); norm_num at hB; linarith
    calc (earthRadius / 2) ^ 2 = (earthRadius / 2) ^ 2 * Real.cos lat ^ 2 + (earthRadius / 2) ^ 2 * Real.sin lat ^ 2 := by
          linear_combination -((earthRadius / 2) ^ 2) * qlat
      _ ≤ _ := by gcongr
  have hne : p 0 ≠ 0 ∨ p 1 ≠ 0 := by
    by_contra hcon
    push Not at hcon
    rw [hcon.1, hcon.2] at hr2
    have := pow_pos hr0 2
    nlinarith
  obtain ⟨r, ψ, lo, er, hr, hs, hd, m1, m2, c0, c1, hu⟩ := update_spec p hne hfar
  have er' : r = (curvature lat * earthRadius + alt) * Real.cos lat := by rw [er, hr2, Real.sqrt_sq hr0.le]
  have hz : p 2 + bulge lat = (curvature lat * earthRadius + alt) * Real.sin lat := by rw [p2, bulge]; ring
  have hfix : nextLat (p 2) r lat = lat := by
    have hA0 : curvature lat * earthRadius + alt ≠ 0 := by norm_num at hA; intro h0; linarith
    rw [nextLat, hz, er', mul_div_mul_left _ _ hA0, ← Real.tan_eq_sin_div_cos, Real.arctan_tan l1 l2]
  have hside : Side (p 2) lat := by
    have hB' : 0 < curvature lat * earthRadius * (1 - e2) + alt := by norm_num at hB; linarith
    rcases lt_or_ge 0 lat with h0 | h0
    · left
      refine ⟨?_, h0.le, l2.le⟩
      rw [p2]; exact mul_pos hB' (Real.sin_pos_of_pos_of_lt_pi h0 (by linarith [Real.pi_pos]))
    · right
      refine ⟨?_, l1.le, h0⟩
      rw [p2]; exact mul_nonpos_of_nonneg_of_nonpos hB'.le (Real.sin_nonpos_of_nonpos_of_neg_pi_le h0 (by linarith [Real.pi_pos]))
  have hfar' : (earthRadius / 2) ^ 2 ≤ r ^ 2 + p 2 ^ 2 := by rw [er, Real.sq_sqrt (by positivity)]; exact hfar
  have hcon := nextLat_contract hr hfar' hs hside
  rw [hfix] at hcon
  have hψ : |ψ - lat| ≤ 1e-10 * 50 / 49 := by
    have h1 : |ψ - lat| ≤ |ψ - nextLat (p 2) r ψ| + |nextLat (p 2) r ψ - lat| := abs_sub_le _ _ _
    rw [abs_sub_comm ψ (nextLat (p 2) r ψ)] at h1
    norm_num at hd ⊢
    linarith
  refine ⟨_, hu, ?_, m1, m2, ?_, ?_⟩
  · change |nextLat (p 2) r ψ - lat| ≤ _
    norm_num at hψ ⊢
    linarith
  · change ∃ k : ℤ, lo = lon + k * (2 * Real.pi)
    have e1 : Real.cos lo = Real.cos lon := by
      rw [p0, ← er'] at c0; exact (mul_left_cancel₀ hr.ne' c0).symm
    have e2' : Real.sin lo = Real.sin lon := by
      rw [p1, ← er'] at c1; exact (mul_left_cancel₀ hr.ne' c1).symm
    have := Real.Angle.cos_sin_inj e1 e2'
    rw [Real.Angle.angle_eq_iff_two_pi_dvd_sub] at this
    obtain ⟨k, hk⟩ := this
    exact ⟨k, by linarith⟩
  · change |r / Real.cos (nextLat (p 2) r ψ) - curvature ψ * earthRadius - alt| ≤ _
    have e1 : alt = r / Real.cos (nextLat (p 2) r lat) - curvature lat * earthRadius := by
      rw [hfix, er']; field_simp; ring
    have e3 : r / Real.cos (nextLat (p 2) r ψ) - curvature ψ * earthRadius - alt =
        (Real.sqrt (r ^ 2 + (p 2 + bulge ψ) ^ 2) - Real.sqrt (r ^ 2 + (p 2 + bulge lat) ^ 2)) - (curvature ψ - curvature lat) * earthRadius := by
      rw [← div_cos_arctan hr, ← div_cos_arctan hr]
      change _ = r / Real.cos (nextLat (p 2) r ψ) - r / Real.cos (nextLat (p 2) r lat) - _
      nth_rw 1 [e1]; ring
    rw [e3]
    have h1 := sqrt_sub_le (u := p 2 + bulge ψ) (v := p 2 + bulge lat) hr
    rw [add_sub_add_left_eq_sub] at h1
    have h2 := bulge_lip ψ lat
    have h3 := curvature_lip ψ lat
    have h4 := Kepler.abs_sin_sub_le ψ lat
    have he : 0 < e2 := by rw [e2_val]; norm_num
    have b1 : |bulge ψ - bulge lat| ≤ 5e-6 := by
      refine h2.trans ?_
      calc earthRadius * e2 * 1.02 * |ψ - lat| ≤ earthRadius * e2 * 1.02 * (1e-10 * 50 / 49) := by gcongr
        _ ≤ 5e-6 := by rw [e2_val, earthRadius]; norm_num
    have b2 : |(curvature ψ - curvature lat) * earthRadius| ≤ 5e-6 := by
      rw [abs_mul, abs_of_pos ha]
      calc |curvature ψ - curvature lat| * earthRadius ≤ 1.02 * e2 * (1e-10 * 50 / 49) * earthRadius := by
            gcongr
            refine h3.trans ?_
            gcongr
            exact h4.trans hψ
        _ ≤ 5e-6 := by rw [e2_val, earthRadius]; norm_num
    refine (abs_sub _ _).trans ?_
    norm_num at b1 b2 h1 ⊢
    linarith

/-- **C98 (poles).** On the Earth's axis (`z ≠ 0`) the latitude is ±π/2 as it should be, but the altitude is the negative number
-6399594 m (minus the polar radius of curvature) whatever `z` is. -/
theorem C98_pole (z : ℝ) (hz : z ≠ 0) : ∃ g, (∀ fuel, 1 ≤ fuel → updateFromEcef fuel ![0, 0, z] = .ok g) ∧
    g.latitude = (if 0 < z then Real.pi / 2 else -(Real.pi / 2)) ∧ g.altitude < -6399000 := by
  have hpi := Real.pi_pos
  have he : 0 < e2 := by rw [e2_val]; norm_num
  obtain ⟨lon, k, l1, _⟩ := (fMod2p_spec (3 * Real.pi / 2)).1 (by rw [abs_of_pos (by positivity)]; nlinarith)
  have t0 : acTan 0 0 = 3 * Real.pi / 2 := by simp [acTan]
  have key : ∀ y : ℝ, (0 < z ∧ 0 < y) ∨ (z < 0 ∧ y < 0) → acTan y 0 = if 0 < z then Real.pi / 2 else 3 * Real.pi / 2 := by
    rintro y (⟨a, b⟩ | ⟨a, b⟩)
    · simp [acTan, a, b]
    · simp [acTan, not_lt.mpr a.le, not_lt.mpr b.le]
  set th : ℝ := if 0 < z then Real.pi / 2 else 3 * Real.pi / 2 with hth
  have hth0 : acTan z 0 = th := key z (by rcases lt_or_gt_of_ne hz with a | a; exact Or.inr ⟨a, a⟩; exact Or.inl ⟨a, a⟩)
  have hs : (0 < z ∧ Real.sin th = 1) ∨ (z < 0 ∧ Real.sin th = -1) := by
    rcases lt_or_gt_of_ne hz with a | a
    · right
      refine ⟨a, ?_⟩
      rw [hth, if_neg (not_lt.mpr a.le), show 3 * Real.pi / 2 = Real.pi / 2 + Real.pi by ring, Real.sin_add_pi, Real.sin_pi_div_two]
    · left; refine ⟨a, ?_⟩; rw [hth, if_pos a, Real.sin_pi_div_two]
  have hpos : 0 < earthRadius * curvature th * e2 := mul_pos (mul_pos earthRadius_pos (curvature_pos th)) he
  have hth1 : acTan (z + earthRadius * curvature th * e2 * Real.sin th) 0 = th := by
    apply key
    rcases hs with ⟨a, b⟩ | ⟨a, b⟩ <;> rw [b]
    · left; exact ⟨a, by linarith⟩
    · right; exact ⟨a, by linarith⟩
  have hloop : ∀ fuel, 1 ≤ fuel → latLoop z 0 fuel th = .ok (th, curvature th) := by
    intro fuel hf
    obtain ⟨m, rfl⟩ : ∃ m, fuel = m + 1 := ⟨fuel - 1, by omega⟩
    rw [latLoop]
    simp only [hth1, sub_self, abs_zero]
    rw [if_neg (by norm_num)]
  refine ⟨_, fun fuel hf => by
    simp only [updateFromEcef, Matrix.cons_val_zero, Matrix.cons_val_one, Matrix.cons_val, mul_zero, add_zero, Real.sqrt_zero, t0, l1, Res.bind_ok,
      hth0, hloop fuel hf]
    rfl, ?_, ?_⟩
  · change (if th > Real.pi / 2 then th - 2 * Real.pi else th) = _
    rw [hth]
    split_ifs <;> first | rfl | linarith
  · change 0 / Real.cos th - curvature th * earthRadius < _
    have hc := curvature_sq th
    have hp := curvature_pos th
    have hss : Real.sin th * Real.sin th = 1 := by rcases hs with ⟨_, b⟩ | ⟨_, b⟩ <;> rw [b] <;> norm_num
    rw [mul_assoc, hss, mul_one] at hc
    have : 1.0033 < curvature th := by
      by_contra hcon
      have hcon := not_lt.mp hcon
      rw [e2_val] at hc
      norm_num at hcon hc
      nlinarith
    rw [zero_div, earthRadius]
    norm_num at this ⊢
    linarith

/-- **C98 (local frame).** For every latitude and longitude the quaternion of a geodetic position is a unit quaternion that takes the local
east, north and up directions to the x, y and z axes. -/
theorem C98_ltc (lat lon alt : ℝ) :
    let q := (GeodeticPosition.new lat lon alt).quaternionXcxfToLtc
    q.IsUnit ∧ q.frameConversion ![-Real.sin lon, Real.cos lon, 0] = ![1, 0, 0] ∧
    q.frameConversion ![-(Real.sin lat * Real.cos lon), -(Real.sin lat * Real.sin lon), Real.cos lat] = ![0, 1, 0] ∧
    q.frameConversion (direction lat lon) = ![0, 0, 1] := by
  have q1 := Real.sin_sq_add_cos_sq lat
  have q2 := Real.sin_sq_add_cos_sq lon
  have hrot : IsRotation (dcmXcxfToLtc lat lon) := by
    rw [isRotation_iff]
    simp [dcmXcxfToLtc]
    generalize Real.sin lat = a at *
    generalize Real.cos lat = b at *
    generalize Real.sin lon = c at *
    generalize Real.cos lon = d at *
    refine ⟨?_, ?_, ?_, ?_, ?_, ?_, ?_⟩ <;> grind
  obtain ⟨h1, h2⟩ := C67_dcm_roundtrip _ hrot
  intro q
  have act : ∀ a, q.frameConversion a = matVec (dcmXcxfToLtc lat lon) a := fun a => by
    rw [← (C66_dcm_acts _ a).1]; exact congrArg (fun m => matVec m a) h1
  refine ⟨h2, ?_, ?_, ?_⟩
  all_goals
    rw [act]
    apply vec3_ext <;> simp [matVec, dcmXcxfToLtc, direction, Fin.sum_univ_three] <;>
    · clear act h1 h2 hrot
      generalize Real.sin lat = a at *
      generalize Real.cos lat = b at *
      generalize Real.sin lon = c at *
      generalize Real.cos lon = d at *
      grind

/-! ## The hypotheses are met: Tokyo at 500 km, and the point below it on the surface -/

example : ∃ p, HasGeodetic earthRadius flattening p 0.62 2.44 500000 ∧ |(0.62 : ℝ)| < Real.pi / 2 ∧ -(earthRadius / 4) ≤ 500000 := by
  have h3 := Real.pi_gt_three
  obtain ⟨p, _, h⟩ := C98_to_ecef 0.62 2.44 500000 (by rw [abs_of_pos (by norm_num)]; nlinarith)
  refine ⟨p, h, ?_, ?_⟩
  · rw [abs_of_pos (by norm_num)]; norm_num; linarith
  · unfold earthRadius; norm_num

example : ((![7000000, 0, 0] : Fin 3 → ℝ) 0 ≠ 0 ∨ (![7000000, 0, 0] : Fin 3 → ℝ) 1 ≠ 0) ∧
    (earthRadius / 2) ^ 2 ≤ (![7000000, 0, 0] : Fin 3 → ℝ) 0 ^ 2 + (![7000000, 0, 0] : Fin 3 → ℝ) 1 ^ 2 + (![7000000, 0, 0] : Fin 3 → ℝ) 2 ^ 2 := by
  refine ⟨Or.inl (by simp), ?_⟩
  unfold earthRadius
  simp
  norm_num

end S2E.Geodetic
