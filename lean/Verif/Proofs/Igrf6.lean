import Verif.Proofs.Igrf5
/-!
# Evaluation
-/
namespace S2E.Igrf
open Gravity TwoBody Geodesy

/-- Equatorial radius. -/
noncomputable abbrev aE : ℝ := 6378.137
/-- Polar radius. -/
noncomputable abbrev bE : ℝ := 6378.137 * (1 - 1 / 298.25722)

/-- The place of `mfldg`: distance and cosine. -/
noncomputable def placeR (u h : ℝ) : ℝ :=
  let rm2 := aE * aE * (1 - Real.sin u * Real.sin u) + bE * bE * (Real.sin u * Real.sin u)
  Real.sqrt ((aE * aE * (aE * aE) * (1 - Real.sin u * Real.sin u) + bE * bE * (bE * bE) * (Real.sin u * Real.sin u)) / rm2 + 2 * h * Real.sqrt rm2 + h * h)

noncomputable def placeC (u h : ℝ) : ℝ :=
  let rm2 := aE * aE * (1 - Real.sin u * Real.sin u) + bE * bE * (Real.sin u * Real.sin u)
  Real.sin u * (h + bE * bE / Real.sqrt rm2) / placeR u h

/-- Positions of geodetic coordinates. -/
theorem hasGeodetic_pos {p : Fin 3 → ℝ} {lat lon h : ℝ} (hg : HasGeodetic aE (1 / 298.25722) p lat lon h) :
    ∃ V, 0 < V ∧ V = Real.sqrt (aE * aE * (1 - Real.sin lat * Real.sin lat) + bE * bE * (Real.sin lat * Real.sin lat)) ∧ V ≤ aE ∧
      V ^ 2 = aE ^ 2 * Real.cos lat ^ 2 + bE ^ 2 * Real.sin lat ^ 2 ∧
      p 0 = (aE ^ 2 / V + h) * Real.cos lat * Real.cos lon ∧ p 1 = (aE ^ 2 / V + h) * Real.cos lat * Real.sin lon ∧ p 2 = (bE ^ 2 / V + h) * Real.sin lat := by
  obtain ⟨s, hs, ⟨κ, hκ, hn⟩, hp⟩ := hg
  have ha : (0 : ℝ) < aE := by norm_num
  have hb : (0 : ℝ) < bE := by norm_num
  have hba : bE ≤ aE := by norm_num
  have hbe : aE * (1 - 1 / 298.25722) = bE := rfl
  have q := Real.sin_sq_add_cos_sq lat
  have q2 := Real.sin_sq_add_cos_sq lon
  have n0 := hn 0
  have n1 := hn 1
  have n2 := hn 2
  rw [OnEllipsoid] at hs
  rw [hbe] at hs n2
  simp only [direction, Matrix.cons_val] at n0 n1 n2
  have p0 := hp 0
  have p1 := hp 1
  have p2 := hp 2
  simp only [direction, Matrix.cons_val] at p0 p1 p2
  have hX : aE * aE * (1 - Real.sin lat * Real.sin lat) + bE * bE * (Real.sin lat * Real.sin lat) = aE ^ 2 * Real.cos lat ^ 2 + bE ^ 2 * Real.sin lat ^ 2 := by
    linear_combination (-(aE ^ 2)) * q
  rw [hX]
  generalize aE = a at *
  generalize bE = b at *
  generalize Real.sin lat = sl at *
  generalize Real.cos lat = cl at *
  have hab : b ^ 2 ≤ a ^ 2 := pow_le_pow_left₀ hb.le hba 2
  have hpos : 0 < a ^ 2 * cl ^ 2 + b ^ 2 * sl ^ 2 := by
    have h1 := mul_nonneg (sub_nonneg.mpr hab) (sq_nonneg cl)
    have h2 := pow_pos hb 2
    have h3 : a ^ 2 * cl ^ 2 + b ^ 2 * sl ^ 2 = (a ^ 2 - b ^ 2) * cl ^ 2 + b ^ 2 := by linear_combination b ^ 2 * q
    linarith only [h1, h2, h3]
  have s0 : s 0 = κ * a ^ 2 * (cl * Real.cos lon) := by field_simp at n0; linarith
  have s1 : s 1 = κ * a ^ 2 * (cl * Real.sin lon) := by field_simp at n1; linarith
  have s2 : s 2 = κ * b ^ 2 * sl := by field_simp at n2; linarith
  have hk : κ ^ 2 * (a ^ 2 * cl ^ 2 + b ^ 2 * sl ^ 2) = 1 := by
    rw [s0, s1, s2] at hs
    field_simp at hs
    linear_combination hs - κ ^ 2 * a ^ 2 * cl ^ 2 * q2
  have hV := Real.sqrt_pos.mpr hpos
  have hV2 := Real.sq_sqrt hpos.le
  set V := Real.sqrt (a ^ 2 * cl ^ 2 + b ^ 2 * sl ^ 2) with hVd
  have hkV : κ * V = 1 := by
    have : (κ * V) ^ 2 = 1 := by rw [mul_pow, hV2, hk]
    have h1 : 0 < κ * V := mul_pos hκ hV
    exact (pow_eq_one_iff_of_nonneg h1.le (by norm_num)).mp this
  have hkV' : κ = 1 / V := by field_simp; exact hkV
  refine ⟨V, hV, rfl, ?_, hV2, ?_, ?_, ?_⟩
  · apply (sq_le_sq₀ hV.le ha.le).mp
    rw [hV2]
    have h1 := mul_nonneg (sub_nonneg.mpr hab) (sq_nonneg sl)
    have h3 : a ^ 2 * cl ^ 2 + b ^ 2 * sl ^ 2 = a ^ 2 - (a ^ 2 - b ^ 2) * sl ^ 2 := by linear_combination a ^ 2 * q
    linarith only [h1, h3]
  · rw [p0, s0, hkV']; field_simp
  · rw [p1, s1, hkV']; field_simp
  · rw [p2, s2, hkV']; field_simp

theorem dot_self (p : Fin 3 → ℝ) : dot p p = p 0 ^ 2 + p 1 ^ 2 + p 2 ^ 2 := by simp only [dot]; ring

/-- The place computed is the spherical position of the point. -/
theorem place_spec {p : Fin 3 → ℝ} {u lon h : ℝ} (hg : HasGeodetic aE (1 / 298.25722) p u lon h) (hu : 0 ≤ Real.cos u) (hh : -6000 < h)
    (hpole : 0.00000015 * len p ≤ Real.sqrt (p 0 ^ 2 + p 1 ^ 2)) (hp : p ≠ 0) :
    placeR u h = len p ∧ placeC u h = p 2 / len p ∧ 0 < len p ∧ 0.00000015 ≤ Real.sqrt (1 - placeC u h * placeC u h) ∧
      Real.sqrt (1 - placeC u h * placeC u h) ^ 2 + placeC u h ^ 2 = 1 ∧ p = sphere (len p) (Real.sqrt (1 - placeC u h * placeC u h)) (placeC u h) lon := by
  obtain ⟨V, hV, hVs, hVa, hV2, p0, p1, p2⟩ := hasGeodetic_pos hg
  have hl := len_pos hp
  have hl2 := len_sq p
  have q := Real.sin_sq_add_cos_sq u
  have q2 := Real.sin_sq_add_cos_sq lon
  have hA : 0 < aE ^ 2 / V + h := by
    have : aE ≤ aE ^ 2 / V := by rw [le_div_iff₀ hV]; nlinarith [show (0 : ℝ) < aE by norm_num]
    have : (6378 : ℝ) < aE := by norm_num
    linarith
  have hR : placeR u h = len p := by
    have hsq : aE * aE * (1 - Real.sin u * Real.sin u) + bE * bE * (Real.sin u * Real.sin u) = V ^ 2 := by rw [hV2]; linear_combination (-(aE ^ 2)) * q
    rw [placeR, ← hVs]
    rw [hsq, ← Real.sqrt_sq hl.le]
    congr 1
    rw [hl2, dot_self, p0, p1, p2]
    clear * - q q2 hV2 hV
    generalize aE = a at *
    generalize bE = b at *
    field_simp
    clear hV
    generalize Real.sin u = x at *
    generalize Real.cos u = y at *
    generalize Real.sin lon = z at *
    generalize Real.cos lon = w at *
    grind
  have hC : placeC u h = p 2 / len p := by
    rw [placeC, ← hVs, hR, p2]
    congr 1; ring
  have h1 : 1 - placeC u h * placeC u h = (p 0 ^ 2 + p 1 ^ 2) / len p ^ 2 := by
    rw [hC]
    field_simp
    rw [hl2, dot_self]; ring
  have h2 : Real.sqrt (p 0 ^ 2 + p 1 ^ 2) = (aE ^ 2 / V + h) * Real.cos u := by
    rw [← Real.sqrt_sq (mul_nonneg hA.le hu)]
    congr 1
    rw [p0, p1]; linear_combination ((aE ^ 2 / V + h) * Real.cos u) ^ 2 * q2
  have h3 : Real.sqrt (1 - placeC u h * placeC u h) = (aE ^ 2 / V + h) * Real.cos u / len p := by
    rw [h1, Real.sqrt_div (by positivity), Real.sqrt_sq hl.le, h2]
  refine ⟨hR, hC, hl, ?_, ?_, ?_⟩
  · rw [h3, le_div_iff₀ hl, ← h2]; exact hpole
  · rw [Real.sq_sqrt (by rw [h1]; positivity)]; ring
  · funext i
    fin_cases i
    · simp only [sphere]
      rw [h3]
      simp only [Matrix.cons_val, Fin.zero_eta]
      rw [p0]; field_simp
    · simp only [sphere]
      rw [h3]
      simp only [Matrix.cons_val, Fin.mk_one]
      rw [p1]; field_simp
    · simp only [sphere, hC]
      simp only [Matrix.cons_val, Fin.reduceFinMk]
      field_simp

/-- `TransMagaxisToECI`. -/
theorem trans_spec {c s x y z lon side kl : ℝ} (hs : 0 ≤ s) (h : s ^ 2 + c ^ 2 = 1) :
    turned (side + (lon - kl)) (transMagaxisToEci ![x, y, z] lon (Real.arccos c) side) = fromNed s c kl x y z := by
  have hc : Real.cos (Real.arccos c) = c := Real.cos_arccos (by nlinarith) (by nlinarith)
  have hsn : Real.sin (Real.arccos c) = s := by
    rw [Real.sin_arccos, show 1 - c ^ 2 = s ^ 2 by linarith, Real.sqrt_sq hs]
  have hk : kl = lon - (lon - kl) := by ring
  rw [show fromNed s c kl x y z = fromNed s c (lon - (lon - kl)) x y z by rw [← hk]]
  generalize lon - kl = d
  unfold turned transMagaxisToEci rotationZ rotationY fromNed
  simp only [Matrix.cons_val, Real.cos_neg, Real.sin_neg, Real.cos_pi_sub, Real.sin_pi_sub, hc, hsn]
  simp only [Real.cos_sub, Real.sin_sub, Real.cos_add, Real.sin_add]
  have q := Real.sin_sq_add_cos_sq side
  clear * - q
  generalize Real.sin side = a at *
  generalize Real.cos side = b at *
  generalize Real.sin d = e at *
  generalize Real.cos d = f at *
  generalize Real.sin lon = m at *
  generalize Real.cos lon = n at *
  funext i
  fin_cases i
  · simp only [Matrix.cons_val, Fin.zero_eta]; grind
  · simp only [Matrix.cons_val, Fin.mk_one]; grind
  · simp only [Matrix.cons_val, Fin.reduceFinMk]; ring

end S2E.Igrf
