import Verif.Spec.CelestialRotation
import Verif.Props.Ideal
import Mathlib.LinearAlgebra.Matrix.Determinant.Basic
import Mathlib.Analysis.Real.Pi.Bounds
import Mathlib.Tactic.Linarith
import Mathlib.Tactic.NormNum
import Mathlib.Tactic.FieldSimp
/-!
# C152: rotation of the Earth; C153: rotation of the Moon
-/
namespace S2E.Rotation
open S2E.Julian

/-! ## Rotation matrices -/

theorem matMul_eq (a b : Mat 3 3) : matMul a b = a * b := by
  ext i j; simp [matMul, Matrix.mul_apply]

theorem IsRotation.mul {a b : Matrix (Fin 3) (Fin 3) ℝ} (ha : IsRotation a) (hb : IsRotation b) : IsRotation (a * b) := by
  refine ⟨?_, by rw [Matrix.det_mul, ha.2, hb.2, mul_one]⟩
  rw [Matrix.transpose_mul, Matrix.mul_assoc, ← Matrix.mul_assoc b, hb.1, Matrix.one_mul, ha.1]

theorem isRotation_one : IsRotation 1 := ⟨by simp, by simp⟩

theorem isRotation_R1 (a : ℝ) : IsRotation (R1 a) := by
  have h := Real.sin_sq_add_cos_sq a
  constructor
  · ext i j; fin_cases i <;> fin_cases j <;> simp [R1, Matrix.mul_apply, Fin.sum_univ_three] <;> nlinarith
  · simp [R1, Matrix.det_fin_three]; nlinarith

theorem isRotation_R2 (a : ℝ) : IsRotation (R2 a) := by
  have h := Real.sin_sq_add_cos_sq a
  constructor
  · ext i j; fin_cases i <;> fin_cases j <;> simp [R2, Matrix.mul_apply, Fin.sum_univ_three] <;> nlinarith
  · simp [R2, Matrix.det_fin_three]; nlinarith

theorem isRotation_R3 (a : ℝ) : IsRotation (R3 a) := by
  have h := Real.sin_sq_add_cos_sq a
  constructor
  · ext i j; fin_cases i <;> fin_cases j <;> simp [R3, Matrix.mul_apply, Fin.sum_univ_three] <;> nlinarith
  · simp [R3, Matrix.det_fin_three]; nlinarith

theorem identity_eq : makeIdentityMatrix 3 = 1 := by
  ext i j; simp [makeIdentityMatrix, Matrix.one_apply]

theorem polar_eq : polarMotion 0 0 = 1 := by
  ext i j; fin_cases i <;> fin_cases j <;> simp [polarMotion]

theorem R3_add (a b : ℝ) : R3 (a + b) = R3 a * R3 b := by
  ext i j; fin_cases i <;> fin_cases j <;> simp [R3, Matrix.mul_apply, Fin.sum_univ_three, Real.cos_add, Real.sin_add] <;> ring

theorem R3_two_pi (a : ℝ) (k : ℤ) : R3 (a + k * (2 * Real.pi)) = R3 a := by
  rw [R3, R3, Real.cos_add_int_mul_two_pi, Real.sin_add_int_mul_two_pi]

/-! ## Sidereal time -/

theorem gstime_spec (jd : ℝ) : 0 ≤ gstime jd ∧ gstime jd < 2 * Real.pi ∧ ∃ k : ℤ, gmst (centuries jd) = gstime jd + k * (2 * Real.pi) := by
  have hp := Real.pi_pos
  set x := gmst (centuries jd) with hx
  have hg : gstime jd = if fmod x (2 * Real.pi) < 0 then fmod x (2 * Real.pi) + 2 * Real.pi else fmod x (2 * Real.pi) := by
    have : (-6.2e-6 * ((jd - 2451545) / 36525) * ((jd - 2451545) / 36525) * ((jd - 2451545) / 36525) + 0.093104 * ((jd - 2451545) / 36525) * ((jd - 2451545) / 36525) +
      (876600 * 3600 + 8640184.812866) * ((jd - 2451545) / 36525) + 67310.54841) * (Real.pi / 180) / 240 = x := by
      rw [hx, gmst, centuries]; ring
    simp only [gstime, this]
  have h2 : (0 : ℝ) < 2 * Real.pi := by linarith
  rw [hg, fmod]
  by_cases h0 : 0 ≤ x
  · rw [if_pos h0]
    have f1 := Int.floor_le (x / (2 * Real.pi))
    have f2 := Int.lt_floor_add_one (x / (2 * Real.pi))
    rw [le_div_iff₀ h2] at f1
    rw [div_lt_iff₀ h2] at f2
    rw [if_neg (by linarith)]
    exact ⟨by linarith, by linarith, ⌊x / (2 * Real.pi)⌋, by ring⟩
  · rw [if_neg h0]
    have f1 := Int.floor_le (-x / (2 * Real.pi))
    have f2 := Int.lt_floor_add_one (-x / (2 * Real.pi))
    rw [le_div_iff₀ h2] at f1
    rw [div_lt_iff₀ h2] at f2
    split_ifs with h3
    · exact ⟨by linarith, by linarith, -⌊-x / (2 * Real.pi)⌋ - 1, by push_cast; ring⟩
    · exact ⟨by linarith, by linarith, -⌊-x / (2 * Real.pi)⌋, by push_cast; ring⟩

theorem R3_gstime (jd : ℝ) : R3 (gstime jd) = R3 (gmst (centuries jd)) := by
  obtain ⟨-, -, k, hk⟩ := gstime_spec jd
  rw [hk, R3_two_pi]

/-! ## The angles -/

theorem arcsec_eq (x : ℝ) : x * arcsecToRad = arcsec x := by rw [arcsecToRad, degToRad, arcsec]; ring

theorem deg_eq (x : ℝ) : x * degToRad = deg x := by rw [degToRad, deg]; ring

theorem poly_five (a b c d e t : ℝ) : poly [a * degToRad, b * arcsecToRad, c * arcsecToRad, d * arcsecToRad, e * arcsecToRad] (centuryPowers t) =
    deg a + arcsec (b * t + c * t ^ 2 + d * t ^ 3 + e * t ^ 4) := by
  simp only [poly, accumulate, centuryPowers, List.headD_cons, List.tail_cons, List.zipWith_cons_cons, List.zipWith_nil_left, List.foldl_cons, List.foldl_nil]
  rw [deg_eq, arcsecToRad, degToRad, arcsec]
  ring

theorem obliquity_eq (t : ℝ) : poly cEpsilon (centuryPowers t) = obliquity t := by
  simp only [poly, cEpsilon, accumulate, centuryPowers, List.headD_cons, List.tail_cons, List.zipWith_cons_cons, List.zipWith_nil_left, List.foldl_cons, List.foldl_nil]
  rw [deg_eq, arcsecToRad, degToRad, obliquity, arcsec]
  ring

theorem precession_eq (t : ℝ) : precession (centuryPowers t) = R3 (-zA t) * R2 (thetaA t) * R3 (-zetaA t) := by
  have h1 : accumulate 0 cZeta (centuryPowers t) = zetaA t := by
    simp only [cZeta, accumulate, centuryPowers, List.zipWith_cons_cons, List.zipWith_nil_left, List.foldl_cons, List.foldl_nil]
    rw [arcsecToRad, degToRad, zetaA, arcsec]; ring
  have h2 : accumulate 0 cTheta (centuryPowers t) = thetaA t := by
    simp only [cTheta, accumulate, centuryPowers, List.zipWith_cons_cons, List.zipWith_nil_left, List.foldl_cons, List.foldl_nil]
    rw [arcsecToRad, degToRad, thetaA, arcsec]; ring
  have h3 : accumulate 0 cZ (centuryPowers t) = zA t := by
    simp only [cZ, accumulate, centuryPowers, List.zipWith_cons_cons, List.zipWith_nil_left, List.foldl_cons, List.foldl_nil]
    rw [arcsecToRad, degToRad, zA, arcsec]; ring
  simp only [precession, h1, h2, h3, matMul_eq]
  rfl

theorem angles_eq (t : ℝ) : nutationAngles (centuryPowers t) = (nutLongitude t, nutObliquity t, obliquity t) := by
  have e1 : poly cLm (centuryPowers t) = moonAnomaly t := by rw [cLm, poly_five, moonAnomaly]; congr 2; ring
  have e2 : poly cLs (centuryPowers t) = sunAnomaly t := by rw [cLs, poly_five, sunAnomaly]; congr 2; ring
  have e3 : poly cF (centuryPowers t) = moonLatitude t := by rw [cF, poly_five, moonLatitude]; congr 2; ring
  have e4 : poly cD (centuryPowers t) = elongation t := by rw [cD, poly_five, elongation]; congr 2; ring
  have e5 : poly cO (centuryPowers t) = node t := by rw [cO, poly_five, node]; congr 2; ring
  rw [nutationAngles]
  simp only [e1, e2, e3, e4, e5, obliquity_eq]
  refine Prod.ext ?_ (Prod.ext ?_ rfl)
  · simp only [nutLongitude, longitudeTerms, List.map_cons, List.map_nil, List.sum_cons, List.sum_nil, argument, cDPsi, ← arcsec_eq]
    simp only [Matrix.cons_val]
    push_cast
    ring_nf
  · simp only [nutObliquity, obliquityTerms, List.map_cons, List.map_nil, List.sum_cons, List.sum_nil, argument, cDEpsilon, ← arcsec_eq]
    simp only [Matrix.cons_val]
    push_cast
    ring_nf

/-! ## C152: Earth -/

/-- The object after a history of updates. -/
noncomputable def Earth.run (mode : EarthMode) (jds : List ℝ) : Earth := jds.foldl Earth.update (Earth.new mode)

theorem update_mode (e : Earth) (jd : ℝ) : (e.update jd).mode = e.mode := by
  rw [Earth.update]; rcases e with ⟨_ | _ | _, a, b⟩ <;> rfl

theorem update_teme (e : Earth) (jd : ℝ) : (e.update jd).temeToEcef = e.temeToEcef := by
  rw [Earth.update]; rcases e with ⟨_ | _ | _, a, b⟩ <;> rfl

theorem run_keeps (mode : EarthMode) (jds : List ℝ) : (Earth.run mode jds).mode = mode ∧ (Earth.run mode jds).temeToEcef = 1 := by
  have : ∀ e : Earth, (jds.foldl Earth.update e).mode = e.mode ∧ (jds.foldl Earth.update e).temeToEcef = e.temeToEcef := by
    induction jds with
    | nil => intro e; exact ⟨rfl, rfl⟩
    | cons j jds ih => intro e; rw [List.foldl_cons, (ih _).1, (ih _).2, update_mode, update_teme]; exact ⟨rfl, rfl⟩
  exact ⟨(this _).1, (this _).2.trans identity_eq⟩

theorem run_last (mode : EarthMode) (jds : List ℝ) (jd : ℝ) : Earth.run mode (jds ++ [jd]) = (Earth.run mode jds).update jd := by
  rw [Earth.run, List.foldl_append]; rfl

/-- **C152 (full).** In the mode FULL the matrix is, after any history, that of precession, nutation and apparent sidereal time of the last date, with the time argument of precession and nutation
32.184 s after the given UTC; polar motion is zero. -/
theorem C152_full (jds : List ℝ) (jd : ℝ) :
    let T := centuries (jd + 32.184 / 86400)
    (Earth.run .full (jds ++ [jd])).j2000ToEcef =
      R3 (gmst (centuries jd) + nutLongitude T * Real.cos (obliquity T + nutObliquity T)) *
        (R1 (-(obliquity T + nutObliquity T)) * R3 (-nutLongitude T) * R1 (obliquity T)) * (R3 (-zA T) * R2 (thetaA T) * R3 (-zetaA T)) := by
  intro T
  have hm := (run_keeps .full jds).1
  have hT : (jd + 32.184 * (1 / (24 * 60 * 60)) - 2451545) / 36525 = T := by
    simp only [T, centuries]; ring
  rw [run_last, Earth.update]
  simp only [hm, hT, nutation, angles_eq, precession_eq, matMul_eq, polar_eq, Matrix.one_mul]
  have hr : makeRotationMatrixZ (gstime jd + nutLongitude T * Real.cos (obliquity T + nutObliquity T)) =
      R3 (gmst (centuries jd) + nutLongitude T * Real.cos (obliquity T + nutObliquity T)) := by
    have : makeRotationMatrixZ (gstime jd + nutLongitude T * Real.cos (obliquity T + nutObliquity T)) = R3 (gstime jd + nutLongitude T * Real.cos (obliquity T + nutObliquity T)) := rfl
    rw [this, R3_add, R3_gstime, ← R3_add]
  rw [hr]
  rfl

theorem abs_term (c x : ℝ) (hx : |x| ≤ 1) : |arcsec c * x| ≤ arcsec |c| := by
  have : arcsec |c| = |arcsec c| := by
    rw [arcsec, arcsec, abs_div, abs_mul, abs_of_pos Real.pi_pos]; norm_num
  rw [this, abs_mul]
  exact mul_le_of_le_one_right (abs_nonneg _) hx

theorem abs_sum_le (L : List (ℝ × (Fin 5 → ℤ))) (f : (Fin 5 → ℤ) → ℝ) (hf : ∀ n, |f n| ≤ 1) :
    |(L.map fun x => arcsec x.1 * f x.2).sum| ≤ arcsec (L.map fun x => |x.1|).sum := by
  induction L with
  | nil => simp [arcsec]
  | cons a L ih =>
    rw [List.map_cons, List.sum_cons, List.map_cons, List.sum_cons]
    have : arcsec (|a.1| + (L.map fun x => |x.1|).sum) = arcsec |a.1| + arcsec (L.map fun x => |x.1|).sum := by rw [arcsec, arcsec, arcsec]; ring
    rw [this]
    exact (abs_add_le _ _).trans (add_le_add (abs_term _ _ (hf _)) ih)

/-- **C152 (nutation).** At every date the nutation is at most 19.281 seconds of arc in longitude and 10.019 in obliquity. -/
theorem C152_nutation (T : ℝ) : |nutLongitude T| ≤ arcsec 19.281 ∧ |nutObliquity T| ≤ arcsec 10.019 := by
  have h1 := abs_sum_le longitudeTerms (fun n => Real.sin (argument n T)) fun n => Real.abs_sin_le_one _
  have h2 := abs_sum_le obliquityTerms (fun n => Real.cos (argument n T)) fun n => Real.abs_cos_le_one _
  constructor
  · refine h1.trans (le_of_eq ?_)
    congr 1
    simp [longitudeTerms, abs_of_pos, abs_of_neg]
    norm_num
  · refine h2.trans (le_of_eq ?_)
    congr 1
    simp [obliquityTerms, abs_of_pos, abs_of_neg]
    norm_num

/-- **C152 (simple).** In the mode SIMPLE the Earth turns about the third inertial axis only, by the mean sidereal time of the last date; between two dates within a century of J2000 it turns by
7.29211585e-5 to 7.29211586e-5 rad per second. -/
theorem C152_simple (jds : List ℝ) (jd : ℝ) : (Earth.run .simple (jds ++ [jd])).j2000ToEcef = R3 (gmst (centuries jd)) ∧
    ∀ jd', |centuries jd| ≤ 1 → |centuries jd'| ≤ 1 → jd < jd' →
      ∃ w, 7.29211585e-5 < w ∧ w < 7.29211586e-5 ∧ (Earth.run .simple (jds ++ [jd'])).j2000ToEcef = R3 (w * ((jd' - jd) * 86400)) * (Earth.run .simple (jds ++ [jd])).j2000ToEcef := by
  have hsimple : ∀ j, (Earth.run .simple (jds ++ [j])).j2000ToEcef = R3 (gmst (centuries j)) := by
    intro j
    have hm := (run_keeps .simple jds).1
    rw [run_last, Earth.update, hm]
    exact R3_gstime j
  refine ⟨hsimple jd, fun jd' h1 h2 hlt => ?_⟩
  rw [hsimple, hsimple]
  set a := centuries jd with ha
  set b := centuries jd' with hb
  have hd : b - a = (jd' - jd) / 36525 := by rw [ha, hb, centuries, centuries]; ring
  have hdiff : gmst b - gmst a = 2 * Real.pi / 86400 * (b - a) * (3164400184.812866 + 0.093104 * (a + b) - 6.2e-6 * (a * a + a * b + b * b)) := by
    rw [gmst, gmst]; ring
  refine ⟨2 * Real.pi / 86400 * (3164400184.812866 + 0.093104 * (a + b) - 6.2e-6 * (a * a + a * b + b * b)) / (36525 * 86400), ?_, ?_, ?_⟩
  · have p1 := Real.pi_gt_d20
    obtain ⟨a1, a2⟩ := abs_le.mp h1
    obtain ⟨b1, b2⟩ := abs_le.mp h2
    have hlow : 3164400184 ≤ 3164400184.812866 + 0.093104 * (a + b) - 6.2e-6 * (a * a + a * b + b * b) := by nlinarith
    rw [lt_div_iff₀ (by norm_num)]
    have : 2 * 3.14159265358979323846 / 86400 * 3164400184 ≤ 2 * Real.pi / 86400 * (3164400184.812866 + 0.093104 * (a + b) - 6.2e-6 * (a * a + a * b + b * b)) := by
      apply mul_le_mul _ hlow (by norm_num) (by positivity)
      linarith
    refine lt_of_lt_of_le ?_ this
    norm_num
  · have p1 := Real.pi_lt_d20
    obtain ⟨a1, a2⟩ := abs_le.mp h1
    obtain ⟨b1, b2⟩ := abs_le.mp h2
    have hhi : 3164400184.812866 + 0.093104 * (a + b) - 6.2e-6 * (a * a + a * b + b * b) ≤ 3164400185.1 := by nlinarith
    have hlow : 3164400184 ≤ 3164400184.812866 + 0.093104 * (a + b) - 6.2e-6 * (a * a + a * b + b * b) := by nlinarith
    rw [div_lt_iff₀ (by norm_num)]
    have : 2 * Real.pi / 86400 * (3164400184.812866 + 0.093104 * (a + b) - 6.2e-6 * (a * a + a * b + b * b)) ≤ 2 * 3.14159265358979323847 / 86400 * 3164400185.1 := by
      apply mul_le_mul _ hhi (by linarith) (by norm_num)
      linarith
    refine lt_of_le_of_lt this ?_
    norm_num
  · rw [← R3_add]
    congr 1
    have : gmst b = gmst a + (gmst b - gmst a) := by ring
    rw [this, hdiff, hd]
    field_simp
    ring

/-- **C152 (rotation).** In every mode and after any history the matrix is a rotation; the one from TEME is always the identity; in the mode IDLE, and for all unknown names of modes, the first is the
identity, too. -/
theorem C152_rotation (mode : EarthMode) (jds : List ℝ) : IsRotation (Earth.run mode jds).j2000ToEcef ∧ (Earth.run mode jds).temeToEcef = 1 ∧
    (mode = .idle → (Earth.run mode jds).j2000ToEcef = 1) ∧ ∀ name, name ≠ "SIMPLE" → name ≠ "FULL" → convertEarthMode name = .idle := by
  have hidle : mode = .idle → (Earth.run mode jds).j2000ToEcef = 1 := by
    rintro rfl
    have : ∀ e : Earth, e.mode = .idle → (jds.foldl Earth.update e).j2000ToEcef = e.j2000ToEcef := by
      induction jds with
      | nil => intro e _; rfl
      | cons j jds ih =>
        intro e he
        rw [List.foldl_cons, ih _ (by rw [update_mode, he]), Earth.update, he]
    exact (this _ rfl).trans identity_eq
  refine ⟨?_, (run_keeps mode jds).2, hidle, fun name h1 h2 => by simp [convertEarthMode, h1, h2]⟩
  rcases List.eq_nil_or_concat jds with rfl | ⟨js, j, rfl⟩
  · have : (Earth.run mode []).j2000ToEcef = 1 := identity_eq
    rw [this]; exact isRotation_one
  · rcases mode
    · rw [hidle rfl]; exact isRotation_one
    · rw [List.concat_eq_append, (C152_simple js j).1]; exact isRotation_R3 _
    · rw [List.concat_eq_append, C152_full js j]
      exact ((isRotation_R3 _).mul (((isRotation_R1 _).mul (isRotation_R3 _)).mul (isRotation_R1 _))).mul (((isRotation_R3 _).mul (isRotation_R2 _)).mul (isRotation_R3 _))

/-- Hypotheses of `C152_simple` are met: J2000 and one sidereal day later. -/
example : |centuries 2451545| ≤ 1 ∧ |centuries 2451545.99726957| ≤ 1 ∧ (2451545 : ℝ) < 2451545.99726957 := by
  simp only [centuries, abs_le]; norm_num

/-- At J2000 itself the mean sidereal time is 67310.54841 s of a day of 86400. -/
example : gmst (centuries 2451545) = 2 * Real.pi * (67310.54841 / 86400) := by
  simp only [gmst, centuries]; ring

/-! ## C153: Moon -/

open S2E.TwoBody S2E.Kepler in
theorem mulVec_eq (m : Mat 3 3) (v : Vec 3) : Matrix.mulVec m v = ![dot (m 0) v, dot (m 1) v, dot (m 2) v] := by
  ext i; fin_cases i <;> simp [Matrix.mulVec, dotProduct, Fin.sum_univ_three, dot]

open S2E.TwoBody S2E.Kepler in
/-- A frame of two unit vectors at right angles. -/
theorem frame_rotation (m : Matrix (Fin 3) (Fin 3) ℝ) (x z : Vec 3) (m0 : m 0 = x) (m1 : m 1 = cross z x) (m2 : m 2 = z) (hx : dot x x = 1) (hz : dot z z = 1) (hxz : dot x z = 0) : IsRotation m := by
  have hy : dot (cross z x) (cross z x) = 1 := by
    rw [S2E.Ideal.cross_sq, hz, hx]
    have : dot z x = 0 := by rw [← hxz]; simp only [dot]; ring
    rw [this]; ring
  simp only [dot, cross, Matrix.cons_val] at hx hz hxz hy
  constructor
  · ext i j
    fin_cases i <;> fin_cases j <;> simp [Matrix.mul_apply, Fin.sum_univ_three, m0, m1, m2, cross] <;> grind
  · simp [Matrix.det_fin_three, m0, m1, m2, cross]
    grind

open S2E.TwoBody S2E.Kepler in
/-- The vectors of the frame. -/
theorem frame_vectors {r v : Vec 3} (h : cross r v ≠ 0) :
    let x := scale (-1) (calcNormalizedVector r)
    let z := calcNormalizedVector (cross r v)
    dot x x = 1 ∧ dot z z = 1 ∧ dot x z = 0 ∧ r = -len r • x ∧ cross r v = len (cross r v) • z ∧ len r ≠ 0 ∧ len (cross r v) ≠ 0 := by
  intro x z
  have hr : r ≠ 0 := by rintro rfl; apply h; ext i; fin_cases i <;> simp [cross]
  obtain ⟨a1, a2⟩ := S2E.Ideal.unit_of hr
  obtain ⟨b1, b2⟩ := S2E.Ideal.unit_of h
  have hl := (len_pos hr).ne'
  have hL := (len_pos h).ne'
  have hp : dot (cross r v) r = 0 := S2E.Ideal.cross_perp r v
  refine ⟨?_, b1, ?_, ?_, b2, hl, hL⟩
  · rw [← a1]; simp only [x, scale, dot]; ring
  · rw [b2] at hp
    rw [a2] at hp
    have : dot (len (cross r v) • z) (len r • calcNormalizedVector r) = -(len (cross r v) * len r) * dot x z := by
      simp only [x, scale, dot, Pi.smul_apply, smul_eq_mul]; ring
    rw [← a2, ← b2] at hp
    have h3 : dot (cross r v) r = -(len (cross r v) * len r) * dot x z := by
      rw [← this, ← a2, ← b2]
    rw [h3] at hp
    rcases mul_eq_zero.mp hp with h4 | h4
    · exact absurd h4 (neg_ne_zero.mpr (mul_ne_zero hL hl))
    · exact h4
  · conv_lhs => rw [a2]
    ext i; simp only [x, scale, Pi.smul_apply, smul_eq_mul]; ring

open S2E.TwoBody S2E.Kepler in
/-- **C153 (mean Earth).** Unless position and velocity of the Moon are parallel the matrix to the mean Earth axes is a rotation; in these axes the Earth lies on the first axis, the
normal of the orbit is the third axis and the Moon moves in the plane of the first two, towards the negative second axis. -/
theorem C153_mean_earth {r v : Vec 3} (h : cross r v ≠ 0) :
    IsRotation (dcmEciToMeanEarth r v) ∧
    Matrix.mulVec (dcmEciToMeanEarth r v) (-r) = ![len r, 0, 0] ∧
    Matrix.mulVec (dcmEciToMeanEarth r v) (cross r v) = ![0, 0, len (cross r v)] ∧
    (Matrix.mulVec (dcmEciToMeanEarth r v) v) 1 = -(len (cross r v) / len r) ∧ (Matrix.mulVec (dcmEciToMeanEarth r v) v) 2 = 0 := by
  obtain ⟨hx, hz, hxz, er, ec, hl, hL⟩ := frame_vectors h
  set x := scale (-1) (calcNormalizedVector r) with hX
  set z := calcNormalizedVector (cross r v) with hZ
  have hM : ∀ u, Matrix.mulVec (dcmEciToMeanEarth r v) u = ![dot x u, dot (cross z x) u, dot z u] := fun u => mulVec_eq _ u
  have hpv : dot (cross r v) v = 0 := by simp [dot, cross]; ring
  refine ⟨frame_rotation _ x z rfl rfl rfl hx hz hxz, ?_, ?_, ?_, ?_⟩
  · rw [hM]
    have e : -r = len r • x := by rw [eq_comm, ← neg_eq_iff_eq_neg, ← neg_smul]; exact er.symm
    rw [e]
    generalize len r = l
    generalize x = x at *
    generalize z = z at *
    simp only [dot, cross, Matrix.cons_val, Pi.smul_apply, smul_eq_mul] at *
    ext i
    fin_cases i <;> simp
    all_goals grind
  · rw [hM]
    conv_lhs => rw [ec]
    generalize len (cross r v) = l
    generalize x = x at *
    generalize z = z at *
    clear * - hz hxz
    simp only [dot, cross, Matrix.cons_val, Pi.smul_apply, smul_eq_mul] at *
    ext i
    fin_cases i <;> simp
    all_goals grind
  · rw [hM]
    have h1 : dot (cross z x) v = dot z (cross x v) := by simp [dot, cross]; ring
    have h2 : cross r v = -len r • cross x v := by
      conv_lhs => rw [er]
      ext i; fin_cases i <;> simp [cross] <;> ring
    have h3 : dot z (cross r v) = len (cross r v) := by
      conv_lhs => rw [ec]
      have : dot z (len (cross r v) • z) = len (cross r v) * dot z z := by simp only [dot, Pi.smul_apply, smul_eq_mul]; ring
      rw [this, hz, mul_one]
    have h4 : dot z (cross r v) = -len r * dot z (cross x v) := by
      conv_lhs => rw [h2]
      simp only [dot, Pi.smul_apply, smul_eq_mul]; ring
    show dot (cross z x) v = _
    rw [h1]
    rw [h3] at h4
    rw [h4]
    field_simp
  · rw [hM]
    show dot z v = 0
    have : dot (cross r v) v = len (cross r v) * dot z v := by
      conv_lhs => rw [ec]
      simp only [dot, Pi.smul_apply, smul_eq_mul]; ring
    rw [this] at hpv
    exact (mul_eq_zero.mp hpv).resolve_left hL

open S2E.TwoBody S2E.Kepler in
/-- **C153 (simple).** In the mode SIMPLE the matrix to the principal axes is a rotation (unless position and velocity are parallel), and the direction to the Earth never moves
in these axes: it is turned from the first axis by the constant offset of 67.573 and 78.580 seconds of arc, so the model has no libration. -/
theorem C153_simple {r v : Vec 3} (h : cross r v ≠ 0) (sx : Fin 6 → Fin 6 → ℝ) :
    let y := arcsec 78.580
    let z := arcsec 67.573
    moonUpdate .simple r v sx = R3 z * R2 y * R1 (arcsec 0.285) * dcmEciToMeanEarth r v ∧
    IsRotation (moonUpdate .simple r v sx) ∧
    Matrix.mulVec (moonUpdate .simple r v sx) (-r) = len r • ![Real.cos z * Real.cos y, -(Real.sin z * Real.cos y), Real.sin y] := by
  intro y z
  obtain ⟨h1, h2, -, -⟩ := C153_mean_earth h
  have e : moonUpdate .simple r v sx = R3 z * R2 y * R1 (arcsec 0.285) * dcmEciToMeanEarth r v := by
    simp only [moonUpdate, dcmEciToPrincipalAxis, dcmMeanEarthToPrincipalAxis, matMul_eq, arcsec_eq]
    rfl
  refine ⟨e, ?_, ?_⟩
  · rw [e]; exact (((isRotation_R3 _).mul (isRotation_R2 _)).mul (isRotation_R1 _)).mul h1
  · rw [e, ← Matrix.mulVec_mulVec, h2]
    generalize y = y, z = z, arcsec 0.285 = x, len r = l
    ext i
    fin_cases i <;> simp [Matrix.mulVec, dotProduct, Fin.sum_univ_three, Matrix.mul_apply, R1, R2, R3] <;> ring

open S2E.TwoBody S2E.Kepler in
/-- **C153 (parallel).** With position and velocity parallel (also with the velocity zero) the matrix of the mode SIMPLE is singular. -/
theorem C153_parallel {r v : Vec 3} (h : cross r v = 0) (sx : Fin 6 → Fin 6 → ℝ) : (moonUpdate .simple r v sx : Matrix (Fin 3) (Fin 3) ℝ).det = 0 := by
  simp only [moonUpdate, dcmEciToPrincipalAxis, matMul_eq, Matrix.det_mul]
  have : (dcmEciToMeanEarth r v : Matrix (Fin 3) (Fin 3) ℝ).det = 0 := by
    have hz : calcNormalizedVector (outerProduct r v) = 0 := by
      rw [outerProduct_cross, h]
      simp [calcNormalizedVector, calcNorm_len, len]
    have h2 : dcmEciToMeanEarth r v 2 = 0 := by
      show calcNormalizedVector (outerProduct r v) = 0
      exact hz
    rw [Matrix.det_fin_three]
    simp [h2]
  rw [this, mul_zero]

/-- **C153 (other modes).** IAU_MOON gives the upper left 3×3 block of the given state transformation; IDLE and all unknown names of modes the identity. -/
theorem C153_other (r v : Vec 3) (sx : Fin 6 → Fin 6 → ℝ) : (∀ i j : Fin 3, moonUpdate .iauMoon r v sx i j = sx ⟨i, by omega⟩ ⟨j, by omega⟩) ∧
    moonUpdate .idle r v sx = 1 ∧ ∀ name, name ≠ "SIMPLE" → name ≠ "IAU_MOON" → convertMoonMode name = .idle :=
  ⟨fun _ _ => rfl, identity_eq, fun name h1 h2 => by simp [convertMoonMode, h1, h2]⟩

open S2E.TwoBody S2E.Kepler in
/-- A Moon with a non-parallel velocity. -/
example : cross ![384400000, 0, 0] ![20, 1000, 90] ≠ 0 := by
  intro h; have := congrFun h 2; simp only [cross, Matrix.cons_val] at this; norm_num at this

open S2E.TwoBody S2E.Kepler in
/-- A parallel one. -/
example : cross ![384400000, 0, 0] ![1000, 0, 0] = 0 := by ext i; fin_cases i <;> simp [cross]

end S2E.Rotation
