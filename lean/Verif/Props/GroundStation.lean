import Verif.Model.GroundStation
import Verif.Props.Geodetic
import Verif.Props.Shadow
import Verif.Props.Lvlh
/-!
# C127: ground station
-/
namespace S2E.Ground
open S2E.Geodetic S2E.Geodesy S2E.TwoBody S2E.Kepler S2E.Shadow S2E.Env

/-- Elevation of the point `p` seen from `station`, above the plane at right angles to the normal of the ellipsoid at that latitude and longitude. -/
noncomputable def elevation (lat lon : ℝ) (station p : Fin 3 → ℝ) : ℝ := Real.pi / 2 - angle (direction lat lon) (p - station)

theorem dot3_dot (a b : Fin 3 → ℝ) : dot3 a b = dot a b := rfl

theorem frame_len (q : Quat) (hq : q.IsUnit) (a : Fin 3 → ℝ) : len (q.frameConversion a) = len a := by
  have h := (C64_isometry q hq a a).1
  have h2 : len (q.frameConversion a) ^ 2 = len a ^ 2 := by rw [len_sq, len_sq]; exact h
  exact (pow_left_inj₀ (len_nonneg _) (len_nonneg _) (by norm_num)).mp h2

theorem direction_len (lat lon : ℝ) : len (direction lat lon) = 1 := by
  have h : len (direction lat lon) ^ 2 = 1 ^ 2 := by
    rw [len_sq]
    have h1 := Real.sin_sq_add_cos_sq lat
    have h2 := Real.sin_sq_add_cos_sq lon
    simp [dot, direction]
    grind
  exact (pow_left_inj₀ (len_nonneg _) (by norm_num) (by norm_num)).mp h

theorem zenith_component (lat lon alt : ℝ) (d : Fin 3 → ℝ) :
    (GeodeticPosition.new lat lon alt).quaternionXcxfToLtc.frameConversion d 2 = dot (direction lat lon) d := by
  obtain ⟨hq, -, -, hz⟩ := C98_ltc lat lon alt
  have h := (C64_isometry _ hq (direction lat lon) d).1
  rw [hz] at h
  simp only [dot3] at h
  simpa [dot] using h

theorem sin_elevation (lat lon : ℝ) (station p : Fin 3 → ℝ) :
    Real.sin (elevation lat lon station p) = dot (direction lat lon) (p - station) / len (p - station) := by
  rw [elevation, Real.sin_pi_div_two_sub, angle_euc, InnerProductGeometry.cos_angle, euc_inner, euc_norm, euc_norm, direction_len, one_mul]

theorem elevation_range (lat lon : ℝ) (station p : Fin 3 → ℝ) :
    -(Real.pi / 2) ≤ elevation lat lon station p ∧ elevation lat lon station p ≤ Real.pi / 2 := by
  have h1 := InnerProductGeometry.angle_nonneg (euc (direction lat lon)) (euc (p - station))
  have h2 := InnerProductGeometry.angle_le_pi (euc (direction lat lon)) (euc (p - station))
  rw [← angle_euc] at h1 h2
  unfold elevation
  constructor <;> linarith

theorem visible_iff (s : Station) (lat lon alt : ℝ) (hg : s.geodetic = GeodeticPosition.new lat lon alt) (p : Fin 3 → ℝ) :
    s.calcIsVisible p = true ↔ Real.sin (s.limitDeg * degToRad) < Real.sin (elevation lat lon s.positionEcef p) := by
  have hq := (C98_ltc lat lon alt).1
  rw [sin_elevation]
  simp only [Station.calcIsVisible, hg, Bool.if_false_right, Bool.and_true, decide_eq_true_eq]
  have e : innerProduct (calcNormalizedVector ((GeodeticPosition.new lat lon alt).quaternionXcxfToLtc.frameConversion (vsub p s.positionEcef)))
      ![0, 0, 1] = dot (direction lat lon) (p - s.positionEcef) / len (p - s.positionEcef) := by
    have hsub : (vsub p s.positionEcef : Fin 3 → ℝ) = p - s.positionEcef := rfl
    rw [hsub]
    by_cases h0 : p - s.positionEcef = 0
    · rw [h0]
      have hz : (GeodeticPosition.new lat lon alt).quaternionXcxfToLtc.frameConversion (0 : Fin 3 → ℝ) = 0 := by
        rw [frame_explicit]; funext i; fin_cases i <;> simp
      rw [hz, calcNormalizedVector, if_pos (by rw [calcNorm_len]; simp [len])]
      simp [innerProduct, Fin.sum_univ_three, dot, len]
    · have hp := len_pos h0
      have hl := frame_len _ hq (p - s.positionEcef)
      rw [OrbitProp.normalized_of_pos (by rw [hl]; exact hp), hl]
      simp [innerProduct, Fin.sum_univ_three, zenith_component]
  rw [e]

theorem run_append (s : Station) (l : List (Mat 3 3 × ℕ × Vec 3)) (u : Mat 3 3 × ℕ × Vec 3) :
    s.run (l ++ [u]) = (s.run l).update u.1 u.2.1 u.2.2 := by
  induction l generalizing s with
  | nil => rfl
  | cons a l ih => exact ih _

theorem run_fixed (s : Station) (l : List (Mat 3 3 × ℕ × Vec 3)) :
    (s.run l).geodetic = s.geodetic ∧ (s.run l).positionEcef = s.positionEcef ∧ (s.run l).limitDeg = s.limitDeg := by
  induction l generalizing s with
  | nil => exact ⟨rfl, rfl, rfl⟩
  | cons a l ih => exact ih _

theorem run_other (s : Station) (l : List (Mat 3 3 × ℕ × Vec 3)) (id : ℕ) (h : ∀ u ∈ l, u.2.1 ≠ id) : (s.run l).visible id = s.visible id := by
  induction l generalizing s with
  | nil => rfl
  | cons a l ih =>
    rw [Station.run, ih _ (fun u hu => h u (by simp [hu]))]
    exact if_neg (fun hx => h a (by simp) hx.symm)

/-- **C127 (station).** A station configured with latitude, longitude (degrees) and height has the Earth-fixed position with these geodetic coordinates
(longitudes whose reduction fits an `int`), and after every update its inertial position is the one that the Earth rotation matrix of that update (any
rotation matrix) turns into that Earth-fixed position. -/
theorem C127_station (latDeg lonDeg height limitDeg : ℝ) (n : ℕ) (hl : |lonDeg| < 2 ^ 31 * 360) :
    ∃ s, Station.new latDeg lonDeg height limitDeg n = .ok s ∧
      HasGeodetic earthRadius flattening s.positionEcef (latDeg * (Real.pi / 180)) (lonDeg * (Real.pi / 180)) height ∧
      ∀ (l : List (Mat 3 3 × ℕ × Vec 3)) (dcm : Mat 3 3) (id : ℕ) (p : Vec 3), IsRotation dcm →
        matVec dcm (s.run (l ++ [(dcm, id, p)])).positionI = s.positionEcef ∧ (s.run (l ++ [(dcm, id, p)])).positionEcef = s.positionEcef := by
  have hpi := Real.pi_pos
  obtain ⟨p, h1, h2⟩ := C98_to_ecef (latDeg * degToRad) (lonDeg * degToRad) height (by
    rw [degToRad, abs_mul, abs_of_pos (show (0 : ℝ) < Real.pi / 180 by positivity)]
    nlinarith)
  refine ⟨_, by simp only [Station.new, h1, Res.bind]; rfl, h2, fun l dcm id q hd => ?_⟩
  rw [run_append]
  refine ⟨?_, (run_fixed _ l).2.1⟩
  simp only [Station.update, (run_fixed _ l).2.1]
  rw [isRotation_iff] at hd
  obtain ⟨a1, a2, a3, a4, a5, a6, a7⟩ := hd
  funext i
  fin_cases i <;> simp [matVec, matTranspose, Fin.sum_univ_three] <;> grind

/-- **C127 (visibility).** After any history of updates ending with an update for spacecraft `id` (others may follow in between), the spacecraft is
reported visible exactly when its elevation above the station's geodetic horizon, at the position of that last update, exceeds the configured limit,
for limits from -90 to 90 degrees. A spacecraft never updated is reported not visible if its number is below the number of spacecraft; otherwise asking
throws. -/
theorem C127_visible (latDeg lonDeg height limitDeg : ℝ) (n : ℕ) (s : Station) (hs : Station.new latDeg lonDeg height limitDeg n = .ok s)
    (hlim : |limitDeg| ≤ 90) (before after : List (Mat 3 3 × ℕ × Vec 3)) (dcm : Mat 3 3) (id : ℕ) (p : Fin 3 → ℝ)
    (hafter : ∀ u ∈ after, u.2.1 ≠ id) :
    ∃ b, (s.run (before ++ [(dcm, id, p)] ++ after)).isVisible id = .ok b ∧
      (b = true ↔ limitDeg * (Real.pi / 180) < elevation (latDeg * (Real.pi / 180)) (lonDeg * (Real.pi / 180)) s.positionEcef p) := by
  have split : ∀ (l1 l2 : List (Mat 3 3 × ℕ × Vec 3)) (s : Station), s.run (l1 ++ l2) = (s.run l1).run l2 := by
    intro l1
    induction l1 with
    | nil => intro l2 s; rfl
    | cons a l1 ih => intro l2 s; exact ih _ _
  have hg : s.geodetic = GeodeticPosition.new (latDeg * degToRad) (lonDeg * degToRad) height ∧ s.limitDeg = limitDeg := by
    simp only [Station.new] at hs
    rcases h1 : (GeodeticPosition.new (latDeg * degToRad) (lonDeg * degToRad) height).calcEcefPosition with q | _ | _ | _ <;>
      simp only [h1, Res.bind, reduceCtorEq] at hs
    obtain rfl := Res.ok.inj hs
    exact ⟨rfl, rfl⟩
  obtain ⟨f1, f2, f3⟩ := run_fixed s before
  refine ⟨(s.run before).calcIsVisible p, ?_, ?_⟩
  · rw [split, Station.isVisible, run_other _ _ _ hafter, run_append]
    simp [Station.update]
  · rw [visible_iff (s.run before) (latDeg * degToRad) (lonDeg * degToRad) height (f1.trans hg.1), f2, f3, hg.2]
    obtain ⟨r1, r2⟩ := elevation_range (latDeg * degToRad) (lonDeg * degToRad) s.positionEcef p
    obtain ⟨l1, l2⟩ := abs_le.1 hlim
    have hpi := Real.pi_pos
    have hd : degToRad = Real.pi / 180 := rfl
    exact Real.strictMonoOn_sin.lt_iff_lt ⟨by rw [hd]; nlinarith, by rw [hd]; nlinarith⟩ ⟨r1, r2⟩

/-- **C127 (never updated).** -/
theorem C127_initial (latDeg lonDeg height limitDeg : ℝ) (n : ℕ) (s : Station) (hs : Station.new latDeg lonDeg height limitDeg n = .ok s)
    (l : List (Mat 3 3 × ℕ × Vec 3)) (id : ℕ) (h : ∀ u ∈ l, u.2.1 ≠ id) :
    (id < n → (s.run l).isVisible id = .ok false) ∧ (¬ id < n → (s.run l).isVisible id = .throws) := by
  have hg : s.visible id = if id < n then some false else none := by
    simp only [Station.new] at hs
    rcases h1 : (GeodeticPosition.new (latDeg * degToRad) (lonDeg * degToRad) height).calcEcefPosition with q | _ | _ | _ <;>
      simp only [h1, Res.bind, reduceCtorEq] at hs
    obtain rfl := Res.ok.inj hs
    rfl
  rw [Station.isVisible, run_other _ _ _ h, hg]
  constructor
  · intro hn; simp [hn]
  · intro hn; simp [hn]

/-- **C127 (limits beyond a right angle).** In general the sines are compared: a limit of `180° - x` acts as the limit `x`. -/
theorem C127_sine (latDeg lonDeg height limitDeg : ℝ) (s : Station) (n : ℕ) (hs : Station.new latDeg lonDeg height limitDeg n = .ok s) (p : Fin 3 → ℝ) :
    s.calcIsVisible p = true ↔ Real.sin (limitDeg * (Real.pi / 180)) <
      Real.sin (elevation (latDeg * (Real.pi / 180)) (lonDeg * (Real.pi / 180)) s.positionEcef p) := by
  have hg : s.geodetic = GeodeticPosition.new (latDeg * degToRad) (lonDeg * degToRad) height ∧ s.limitDeg = limitDeg := by
    simp only [Station.new] at hs
    rcases h1 : (GeodeticPosition.new (latDeg * degToRad) (lonDeg * degToRad) height).calcEcefPosition with q | _ | _ | _ <;>
      simp only [h1, Res.bind, reduceCtorEq] at hs
    obtain rfl := Res.ok.inj hs
    exact ⟨rfl, rfl⟩
  rw [visible_iff s _ _ height hg.1, hg.2]
  rfl

/-- Non-vacuous: a station at latitude and longitude zero with limit 5°, and a spacecraft straight above it. -/
example : ∃ s, Station.new 0 0 0 5 1 = .ok s ∧ elevation (0 * (Real.pi / 180)) (0 * (Real.pi / 180)) s.positionEcef (s.positionEcef + ![7, 0, 0]) = Real.pi / 2 := by
  obtain ⟨s, h, -⟩ := C127_station 0 0 0 5 1 (by norm_num)
  refine ⟨s, h, ?_⟩
  have hl : len ![7, 0, 0] = 7 := by
    rw [len, show ((![7, 0, 0] : Fin 3 → ℝ) 0 ^ 2 + (![7, 0, 0] : Fin 3 → ℝ) 1 ^ 2 + (![7, 0, 0] : Fin 3 → ℝ) 2 ^ 2) = 7 ^ 2 by simp]
    exact Real.sqrt_sq (by norm_num)
  rw [elevation, add_sub_cancel_left, angle, direction_len, hl]
  simp [dot, direction]

end S2E.Ground
