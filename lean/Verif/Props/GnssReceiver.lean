import Verif.Model.GnssReceiver
import Verif.Props.Telescope
import Verif.Props.Geodetic
/-!
# C141-C143: GNSS receiver
-/
namespace S2E.GnssRx
open S2E.TwoBody S2E.Shadow S2E.Geodetic Quat

/-! ## Specification -/

/-- The line between two points passes through the ball of radius `r` about the origin, or touches it. -/
def Blocked (r : ℝ) (a g : Vec 3) : Prop := ∃ t : ℝ, 0 ≤ t ∧ t ≤ 1 ∧ len (a + t • (g - a)) ≤ r

/-- The antenna axis (the component's z axis) in inertial components. -/
def axis (c : Config) (i2b : Quat) : Vec 3 := i2b.inverseFrameConversion (c.b2c.inverseFrameConversion ![0, 0, 1])

/-- The position of the antenna in inertial components. -/
def antennaAt (c : Config) (i : Input) : Vec 3 := i.positionI + i.i2b.inverseFrameConversion c.position

/-! ## Occultation -/

theorem len_line_sq (a d : Vec 3) (t : ℝ) : len (a + t • d) ^ 2 = dot a a + 2 * t * dot a d + t ^ 2 * dot d d := by
  rw [len_sq]
  simp only [dot, Pi.add_apply, Pi.smul_apply, smul_eq_mul]
  ring

theorem blocked_iff {r : ℝ} (hr : 0 ≤ r) {a g : Vec 3} (hne : g ≠ a) (h1 : dot a g ≤ dot a a) (h2 : dot a g ≤ dot g g) :
    Blocked r a g ↔ dot a a * dot (g - a) (g - a) - dot a (g - a) ^ 2 ≤ r ^ 2 * dot (g - a) (g - a) := by
  have hd : g - a ≠ 0 := sub_ne_zero.2 hne
  have hdd : 0 < dot (g - a) (g - a) := by rw [← len_sq]; have := len_pos hd; positivity
  have e1 : dot a (g - a) = dot a g - dot a a := by simp only [dot, Pi.sub_apply]; ring
  have e2 : dot (g - a) (g - a) = dot g g - 2 * dot a g + dot a a := by simp only [dot, Pi.sub_apply]; ring
  constructor
  · rintro ⟨t, -, -, h⟩
    have h3 := pow_le_pow_left₀ (len_nonneg _) h 2
    rw [len_line_sq] at h3
    nlinarith [sq_nonneg (t * dot (g - a) (g - a) + dot a (g - a))]
  · intro h
    refine ⟨-dot a (g - a) / dot (g - a) (g - a), ?_, ?_, ?_⟩
    · apply div_nonneg _ hdd.le; linarith
    · rw [div_le_one hdd]; linarith
    · apply le_of_sq_le_sq _ hr
      rw [len_line_sq, div_pow, ← sub_nonneg]
      have : r ^ 2 - (dot a a + 2 * (-dot a (g - a) / dot (g - a) (g - a)) * dot a (g - a) +
          (-dot a (g - a)) ^ 2 / dot (g - a) (g - a) ^ 2 * dot (g - a) (g - a)) =
          (r ^ 2 * dot (g - a) (g - a) - (dot a a * dot (g - a) (g - a) - dot a (g - a) ^ 2)) / dot (g - a) (g - a) := by
        field_simp
        ring
      rw [this]
      exact div_nonneg (by linarith) hdd.le

theorem angle_test {a d : Vec 3} (ha : a ≠ 0) (hd : d ≠ 0) :
    innerProduct (vneg (calcNormalizedVector a)) (calcNormalizedVector d) = -dot a d / (len a * len d) := by
  obtain ⟨-, h1⟩ := Dist.normalized_len ha
  obtain ⟨-, h2⟩ := Dist.normalized_len hd
  have la := len_pos ha
  have ld := len_pos hd
  rw [Kepler.innerProduct_dot, eq_div_iff (by positivity)]
  conv_rhs => rw [← h1, ← h2]
  simp only [dot, vneg, scale, Pi.smul_apply, smul_eq_mul]
  ring

/-- **C141 (far side).** A satellite that is not in the antenna's hemisphere counts as not hidden exactly when the line from the antenna to it stays outside the sphere of the Earth's
equatorial radius. -/
theorem C141_far (a g : Vec 3) (ha : earthRadius < len a) (hg : g ≠ 0) (hs : dot a g ≤ 0) : fromReceiver a g = true ↔ ¬Blocked earthRadius a g := by
  have hR := earthRadius_pos
  have ha0 : a ≠ 0 := by
    rintro rfl
    have : len (0 : Vec 3) = 0 := by simp [len]
    linarith
  have haa : 0 < dot a a := by rw [← len_sq]; have := len_pos ha0; positivity
  have hgg : 0 < dot g g := by rw [← len_sq]; have := len_pos hg; positivity
  have hne : g ≠ a := by rintro rfl; linarith
  have hd : g - a ≠ 0 := sub_ne_zero.2 hne
  have la := len_pos ha0
  have ld := len_pos hd
  rw [blocked_iff hR.le hne (by linarith) (by linarith), not_le, fromReceiver]
  simp only
  rw [if_neg (by rw [Kepler.innerProduct_dot]; linarith), show vsub g a = g - a from rfl, angle_test ha0 hd, Kepler.calcNorm_len]
  have e1 : dot a (g - a) = dot a g - dot a a := by simp only [dot, Pi.sub_apply]; ring
  have hx : 0 < -dot a (g - a) := by linarith
  have hsq : (-dot a (g - a)) ^ 2 ≤ (len a * len (g - a)) ^ 2 := by
    rw [mul_pow, len_sq, len_sq]
    simp only [dot]
    nlinarith [sq_nonneg (a 0 * (g - a) 1 - a 1 * (g - a) 0), sq_nonneg (a 1 * (g - a) 2 - a 2 * (g - a) 1), sq_nonneg (a 2 * (g - a) 0 - a 0 * (g - a) 2)]
  set x := -dot a (g - a) / (len a * len (g - a)) with hxd
  have x0 : 0 < x := by positivity
  have x1 : x ≤ 1 := by
    rw [hxd, div_le_one (by positivity)]
    exact le_of_sq_le_sq hsq (by positivity)
  have r0 : 0 < earthRadius / len a := by positivity
  have r1 : earthRadius / len a < 1 := by rw [div_lt_one la]; exact ha
  have hcos : Real.cos (Real.arcsin (earthRadius / len a)) = Real.sqrt (1 - (earthRadius / len a) ^ 2) := Real.cos_arcsin _
  have key : Real.arcsin (earthRadius / len a) < Real.arccos x ↔ x < Real.sqrt (1 - (earthRadius / len a) ^ 2) := by
    rw [← hcos]
    have h0 : 0 ≤ Real.arcsin (earthRadius / len a) := Real.arcsin_nonneg.2 r0.le
    have h1 : Real.arcsin (earthRadius / len a) ≤ Real.pi := (Real.arcsin_le_pi_div_two _).trans (by linarith [Real.pi_pos])
    conv_rhs => rw [← Real.cos_arccos (show -1 ≤ x by linarith) x1]
    exact (Real.strictAntiOn_cos.lt_iff_gt ⟨Real.arccos_nonneg _, Real.arccos_le_pi _⟩ ⟨h0, h1⟩).symm
  have k2 : x < Real.sqrt (1 - (earthRadius / len a) ^ 2) ↔ x ^ 2 < 1 - (earthRadius / len a) ^ 2 := Real.lt_sqrt x0.le
  have k3 : x ^ 2 < 1 - (earthRadius / len a) ^ 2 ↔
      earthRadius ^ 2 * dot (g - a) (g - a) < dot a a * dot (g - a) (g - a) - dot a (g - a) ^ 2 := by
    rw [← len_sq a, ← len_sq (g - a), hxd, div_pow, div_pow, mul_pow, neg_sq, ← sub_pos, ← sub_pos (b := earthRadius ^ 2 * _)]
    have : 1 - earthRadius ^ 2 / len a ^ 2 - dot a (g - a) ^ 2 / (len a ^ 2 * len (g - a) ^ 2) =
        (len a ^ 2 * len (g - a) ^ 2 - dot a (g - a) ^ 2 - earthRadius ^ 2 * len (g - a) ^ 2) / (len a ^ 2 * len (g - a) ^ 2) := by
      field_simp
      ring
    rw [this, div_pos_iff_of_pos_right (by positivity)]
  rw [← k3, ← k2, ← key]
  by_cases hl : Real.arcsin (earthRadius / len a) < Real.arccos x <;> simp [hl]

/-- **C141 (near side).** A satellite in the antenna's hemisphere always counts as not hidden. That is right when antenna and satellite are high enough,
`1/a² + 1/g² < 1/R²` (for satellites at 26560 km: antennas above 198 km). -/
theorem C141_near (a g : Vec 3) (hs : 0 < dot a g) : fromReceiver a g = true ∧
    (earthRadius < len a → earthRadius < len g → earthRadius ^ 2 * (len a ^ 2 + len g ^ 2) < len a ^ 2 * len g ^ 2 → ¬Blocked earthRadius a g) := by
  constructor
  · rw [fromReceiver]
    simp only
    rw [if_pos (by rw [Kepler.innerProduct_dot]; exact hs)]
  · intro ha hg hh hb
    have hR := earthRadius_pos
    obtain ⟨t, t0, t1, ht⟩ := hb
    have h3 := pow_le_pow_left₀ (len_nonneg _) ht 2
    rw [len_line_sq] at h3
    have e1 : dot a (g - a) = dot a g - dot a a := by simp only [dot, Pi.sub_apply]; ring
    have e2 : dot (g - a) (g - a) = dot g g - 2 * dot a g + dot a a := by simp only [dot, Pi.sub_apply]; ring
    rw [e1, e2] at h3
    rw [len_sq, len_sq] at hh
    have hA : 0 < dot a a := by rw [← len_sq]; have : 0 < len a := by linarith
                                positivity
    have hG : 0 < dot g g := by rw [← len_sq]; have : 0 < len g := by linarith
                                positivity
    have h4 : (1 - t) ^ 2 * dot a a + t ^ 2 * dot g g ≤ earthRadius ^ 2 := by nlinarith [mul_nonneg (mul_nonneg t0 (sub_nonneg.2 t1)) hs.le]
    have h5 : dot a a * dot g g ≤ ((1 - t) ^ 2 * dot a a + t ^ 2 * dot g g) * (dot a a + dot g g) := by
      nlinarith [sq_nonneg ((1 - t) * dot a a - t * dot g g)]
    nlinarith

/-- **C141 (counterexample).** An antenna 150 km above the equator and a satellite 26560 km from the centre of the Earth, with the Earth in between: it counts as not hidden. -/
theorem C141_wrong : ∃ a g : Vec 3, len a = earthRadius + 150000 ∧ 26560000 < len g ∧ Blocked earthRadius a g ∧ fromReceiver a g = true := by
  have hR : earthRadius = 6378136.6 := rfl
  refine ⟨![6528136.6, 0, 0], ![1, 26560000, 0], ?_, ?_, ?_, (C141_near _ _ (by simp [dot]; norm_num)).1⟩
  · rw [hR, len]
    simp only [Matrix.cons_val]
    rw [show ((6528136.6 : ℝ) ^ 2 + 0 ^ 2 + 0 ^ 2) = 6528136.6 ^ 2 by ring, Real.sqrt_sq (by norm_num)]
    norm_num
  · rw [len]
    simp only [Matrix.cons_val]
    apply Real.lt_sqrt_of_sq_lt
    norm_num
  · refine ⟨0.057, by norm_num, by norm_num, ?_⟩
    rw [hR, len]
    simp only [Pi.add_apply, Pi.smul_apply, Pi.sub_apply, Matrix.cons_val, smul_eq_mul]
    rw [Real.sqrt_le_iff]
    constructor <;> norm_num

/-! ## The list of satellites -/

/-- Antenna and satellite are high enough for the occultation test. -/
def HighEnough (a g : Vec 3) : Prop := earthRadius < len a ∧ earthRadius < len g ∧ earthRadius ^ 2 * (len a ^ 2 + len g ^ 2) < len a ^ 2 * len g ^ 2

theorem not_hidden {a g : Vec 3} (h : HighEnough a g) : fromReceiver a g = true ↔ ¬Blocked earthRadius a g := by
  rcases le_or_gt (dot a g) 0 with hs | hs
  · refine C141_far a g h.1 ?_ hs
    rintro rfl
    have h2 := h.2.1
    have : len (0 : Vec 3) = 0 := by simp [len]
    have := earthRadius_pos
    linarith
  · exact ⟨fun _ => (C141_near a g hs).2 h.1 h.2.1 h.2.2, fun _ => (C141_near a g hs).1⟩

/-- A satellite is in view: less than the half width from the antenna axis and not behind the Earth. -/
def InView (c : Config) (i : Input) (g : Vec 3) : Prop :=
  angle (g - antennaAt c i) (axis c i.i2b) < c.halfWidth * (Real.pi / 180) ∧ ¬Blocked earthRadius (antennaAt c i) g

theorem axis_len {c : Config} {i2b : Quat} (h1 : c.b2c.IsUnit) (h2 : i2b.IsUnit) : len (axis c i2b) = 1 := by
  apply Star.len_one
  rw [axis, Star.inverse_dot i2b h2, Star.inverse_dot c.b2c h1]
  simp [dot3]

theorem cone_iff {u d : Vec 3} (hu : len u = 1) (hd : d ≠ 0) {h : ℝ} (h0 : 0 ≤ h) (h1 : h ≤ Real.pi) :
    innerProduct u (calcNormalizedVector d) > Real.cos h ↔ angle d u < h := by
  obtain ⟨n1, n2⟩ := Dist.normalized_len hd
  have ld := len_pos hd
  have e : innerProduct u (calcNormalizedVector d) = dot d u / (len d * len u) := by
    rw [hu, mul_one, Kepler.innerProduct_dot, eq_div_iff ld.ne']
    conv_rhs => rw [← n2]
    simp only [dot, Pi.smul_apply, smul_eq_mul]
    ring
  have hb : -1 ≤ dot d u / (len d * len u) ∧ dot d u / (len d * len u) ≤ 1 := by
    rw [← abs_le, abs_div, abs_of_pos (show 0 < len d * len u by rw [hu]; linarith), div_le_one (by rw [hu]; linarith)]
    apply abs_le_of_sq_le_sq _ (by rw [hu]; linarith)
    rw [mul_pow, len_sq, len_sq]
    simp only [dot]
    nlinarith [sq_nonneg (d 0 * u 1 - d 1 * u 0), sq_nonneg (d 1 * u 2 - d 2 * u 1), sq_nonneg (d 2 * u 0 - d 0 * u 2)]
  rw [e, angle, gt_iff_lt]
  conv_lhs => rw [← Real.cos_arccos hb.1 hb.2]
  exact Real.strictAntiOn_cos.lt_iff_gt ⟨h0, h1⟩ ⟨Real.arccos_nonneg _, Real.arccos_le_pi _⟩

theorem step_eq (c : Config) (i : Input) (h1 : c.b2c.IsUnit) (h2 : i.i2b.IsUnit) (hw0 : 0 ≤ c.halfWidth) (hw1 : c.halfWidth ≤ 180)
    (acc : List Info × ℕ) (x : Vec 3 × ℕ) (hx : HighEnough (antennaAt c i) x.1) (hne : x.1 ≠ antennaAt c i) :
    (InView c i x.1 → step c i.i2b (antennaAt c i) (axis c i.i2b) acc x = (acc.1 ++ [info c i.i2b (x.1 - antennaAt c i) x.2], acc.2 + 1)) ∧
    (¬InView c i x.1 → step c i.i2b (antennaAt c i) (axis c i.i2b) acc x = acc) := by
  have hp := Real.pi_pos
  have hc := cone_iff (axis_len h1 h2) (sub_ne_zero.2 hne) (h := c.halfWidth * (Real.pi / 180)) (by positivity) (by nlinarith)
  have hb := not_hidden hx
  have e : (innerProduct (axis c i.i2b) (calcNormalizedVector (vsub x.1 (antennaAt c i))) > Real.cos (c.halfWidth * (Real.pi / 180)) ∧
      fromReceiver (antennaAt c i) x.1 = true) ↔ InView c i x.1 := by
    rw [hb, InView]
    exact and_congr_left fun _ => hc
  constructor
  · intro h
    simp only [step, if_pos (e.2 h)]
    rfl
  · intro h
    simp only [step, if_neg fun hcon => h (e.1 hcon)]

open Classical in
theorem fold_eq (c : Config) (i : Input) (h1 : c.b2c.IsUnit) (h2 : i.i2b.IsUnit) (hw0 : 0 ≤ c.halfWidth) (hw1 : c.halfWidth ≤ 180)
    (l : List (Vec 3 × ℕ)) (hl : ∀ x ∈ l, HighEnough (antennaAt c i) x.1 ∧ x.1 ≠ antennaAt c i) (acc : List Info × ℕ) :
    l.foldl (step c i.i2b (antennaAt c i) (axis c i.i2b)) acc =
      (acc.1 ++ (l.filter fun x => decide (InView c i x.1)).map (fun x => info c i.i2b (x.1 - antennaAt c i) x.2),
        acc.2 + (l.filter fun x => decide (InView c i x.1)).length) := by
  induction l generalizing acc with
  | nil => simp
  | cons x l ih =>
    obtain ⟨s1, s2⟩ := step_eq c i h1 h2 hw0 hw1 acc x (hl x (by simp)).1 (hl x (by simp)).2
    rw [List.foldl_cons]
    by_cases hv : InView c i x.1
    · rw [s1 hv, ih (fun y hy => hl y (by simp [hy])), List.filter_cons_of_pos (by simpa using hv)]
      simp [Nat.add_assoc, Nat.add_comm]
    · rw [s2 hv, ih (fun y hy => hl y (by simp [hy])), List.filter_cons_of_neg (by simpa using hv)]

open Classical in
/-- **C142 (cone).** With the cone model, a half width from 0 to 180 degrees and antenna and satellites high enough, the reported satellites are exactly those in view, in the order of
their numbers; their number is counted, and a position is reported exactly when there are four or more. -/
theorem C142_cone (c : Config) (s : State) (i : Input) (hc : c.antenna = .cone) (h1 : c.b2c.IsUnit) (h2 : i.i2b.IsUnit) (hw0 : 0 ≤ c.halfWidth)
    (hw1 : c.halfWidth ≤ 180) (hl : ∀ g ∈ i.satellites, HighEnough (antennaAt c i) g ∧ g ≠ antennaAt c i) :
    (check c s i).list = (i.satellites.zipIdx.filter fun x => decide (InView c i x.1)).map (fun x => info c i.i2b (x.1 - antennaAt c i) x.2) ∧
    (check c s i).number = (i.satellites.filter fun g => decide (InView c i g)).length ∧
    ((check c s i).visible = true ↔ 4 ≤ (i.satellites.filter fun g => decide (InView c i g)).length) := by
  have hf := fold_eq c i h1 h2 hw0 hw1 i.satellites.zipIdx (by
    intro x hx
    exact hl x.1 (by have := List.mem_zipIdx hx; rw [this.2.2]; exact List.getElem_mem _)) ([], 0)
  have hn : (i.satellites.zipIdx.filter fun x => decide (InView c i x.1)).length = (i.satellites.filter fun g => decide (InView c i g)).length := by
    have : i.satellites.filter (fun g => decide (InView c i g)) = (i.satellites.zipIdx.filter fun x => decide (InView c i x.1)).map Prod.fst := by
      conv_lhs => rw [← List.zipIdx_map_fst 0 i.satellites, List.filter_map]
      rfl
    rw [this, List.length_map]
  have e : check c s i = { s with
      list := ([] ++ (i.satellites.zipIdx.filter fun x => decide (InView c i x.1)).map (fun x => info c i.i2b (x.1 - antennaAt c i) x.2)),
      number := 0 + (i.satellites.zipIdx.filter fun x => decide (InView c i x.1)).length,
      visible := if 0 + (i.satellites.zipIdx.filter fun x => decide (InView c i x.1)).length ≥ 4 then true else false } := by
    rw [check, hc]
    simp only [checkCone]
    rw [show i.satellites.zipIdx.foldl (step c i.i2b (vadd i.positionI (i.i2b.inverseFrameConversion c.position))
      (i.i2b.inverseFrameConversion (c.b2c.inverseFrameConversion ![0, 0, 1]))) ([], 0) = _ from hf]
  rw [e]
  refine ⟨rfl, by simp only [Nat.zero_add]; exact hn, ?_⟩
  simp only [Nat.zero_add, hn]
  simp

/-- **C142 (direction).** For each reported satellite the distance is the one from the antenna, and latitude and longitude (from 0 to 360 degrees each, without 0) are those of its direction in the
antenna frame; the latitude of a satellite in front of the antenna is its elevation in `(0, 90°]`. -/
theorem C142_info (c : Config) (i2b : Quat) (h1 : c.b2c.IsUnit) (h2 : i2b.IsUnit) (d : Vec 3) (hd : d ≠ 0) (id : ℕ) :
    let ax := fun e : Vec 3 => i2b.inverseFrameConversion (c.b2c.inverseFrameConversion e)
    let f := info c i2b d id
    f.id = id ∧ f.distance = len d ∧ 0 < f.latitude ∧ f.latitude ≤ 2 * Real.pi ∧
    f.distance * Real.sin f.latitude = dot d (ax ![0, 0, 1]) ∧ (0 < dot d (ax ![0, 0, 1]) → f.latitude ≤ Real.pi / 2) ∧
    (dot d (ax ![1, 0, 0]) ≠ 0 ∨ dot d (ax ![0, 1, 0]) ≠ 0 →
      0 < f.longitude ∧ f.longitude ≤ 2 * Real.pi ∧ f.distance * Real.cos f.latitude * Real.cos f.longitude = dot d (ax ![1, 0, 0]) ∧
      f.distance * Real.cos f.latitude * Real.sin f.longitude = dot d (ax ![0, 1, 0])) := by
  intro ax f
  set w := c.b2c.frameConversion (i2b.frameConversion d) with hw
  have key : ∀ e, dot3 w e = dot d (ax e) := by
    intro e
    conv_lhs => rw [hw, ← (C64_inverse c.b2c h1 e).2, (C64_isometry c.b2c h1 _ _).1, ← (C64_inverse i2b h2 (c.b2c.inverseFrameConversion e)).2, (C64_isometry i2b h2 _ _).1]
    rfl
  have k0 : w 0 = dot d (ax ![1, 0, 0]) := by rw [← key]; simp [dot3]
  have k1 : w 1 = dot d (ax ![0, 1, 0]) := by rw [← key]; simp [dot3]
  have k2 : w 2 = dot d (ax ![0, 0, 1]) := by rw [← key]; simp [dot3]
  have hlen : len w = len d := by rw [hw, Sun.frame_len _ h1, Sun.frame_len _ h2]
  have hw0 : w ≠ 0 := by
    intro h
    rw [h] at hlen
    have := len_pos hd
    rw [← hlen] at this
    simp [len] at this
  set r := Real.sqrt (w 0 ^ 2 + w 1 ^ 2) with hr
  have hr2 : r ^ 2 = w 0 ^ 2 + w 1 ^ 2 := Real.sq_sqrt (by positivity)
  have hrn : 0 ≤ r := Real.sqrt_nonneg _
  have hdist : f.distance = len d := Kepler.calcNorm_len d
  have hlw : len d = Real.sqrt (r ^ 2 + w 2 ^ 2) := by rw [← hlen, len, hr2]
  have hne : r ≠ 0 ∨ w 2 ≠ 0 := by
    by_contra hc
    push Not at hc
    rw [hc.1, hc.2] at hlw
    have := len_pos hd
    rw [hlw] at this
    simp at this
  obtain ⟨l1, l2, l3, l4⟩ := acTan_spec (w 2) r hne
  have hlat : f.latitude = acTan (w 2) r := rfl
  have hlon : f.longitude = acTan (w 1) (w 0) := rfl
  refine ⟨rfl, hdist, by rw [hlat]; exact l1, by rw [hlat]; exact l2, ?_, ?_, ?_⟩
  · rw [hdist, hlat, hlw, ← l4, k2]
  · intro hz
    rw [← k2] at hz
    rw [hlat, acTan]
    split_ifs with q1 q2
    · exact le_rfl
    · exact (Real.arctan_lt_pi_div_two _).le
    · exact absurd (lt_of_le_of_ne hrn (Ne.symm q1)) q2
  · intro hxy
    rw [← k0, ← k1] at hxy ⊢
    obtain ⟨m1, m2, m3, m4⟩ := acTan_spec (w 1) (w 0) hxy
    rw [hlat, hlon, hdist, hlw, ← l3]
    refine ⟨m1, m2, m3.symm, ?_⟩
    rw [hr, ← m4]

/-! ## Simple model, reported values, time -/

/-- **C143 (simple model).** With the simple model a position is reported exactly when the antenna axis points into the hemisphere away from the Earth's centre; the list and number of
satellites are left as they are. -/
theorem C143_simple (c : Config) (s : State) (i : Input) (hc : c.antenna = .simple) :
    ((check c s i).visible = true ↔ 0 < dot i.positionI (axis c i.i2b)) ∧ (check c s i).list = s.list ∧ (check c s i).number = s.number := by
  rw [check, hc]
  refine ⟨?_, rfl, rfl⟩
  simp only [checkSimple, Kepler.innerProduct_dot]
  rw [show i.i2b.inverseFrameConversion (c.b2c.inverseFrameConversion ![0, 0, 1]) = axis c i.i2b from rfl]
  by_cases h : dot i.positionI (axis c i.i2b) ≤ 0
  · simp [h]
  · simp [h, not_le.1 h]

theorem check_keeps (c : Config) (s : State) (i : Input) :
    (check c s i).position = s.position ∧ (check c s i).velocity = s.velocity ∧ (check c s i).geodetic = s.geodetic := by
  rw [check]
  cases c.antenna <;> exact ⟨rfl, rfl, rfl⟩

theorem check_visible (c : Config) (s s' : State) (i : Input) : (check c s i).visible = (check c s' i).visible := by
  rw [check, check]
  cases c.antenna <;> rfl

/-- **C143 (time).** The week and the seconds of the week are those of the Julian day of the simulation, counted from 6 January 1980 without leap seconds. A time before
that by a week or more, or after 2^32 weeks, is undefined behaviour. -/
theorem C143_time (s : State) (jd : ℝ) :
    (2444244.5 ≤ jd → jd < 2444244.5 + 7 * 2 ^ 32 → ∃ s', gpsTime s jd = .ok s' ∧ 0 ≤ s'.seconds ∧ s'.seconds < 604800 ∧
      jd = 2444244.5 + 7 * s'.week + s'.seconds / 86400 ∧ s'.position = s.position ∧ s'.velocity = s.velocity ∧ s'.geodetic = s.geodetic ∧ s'.visible = s.visible ∧
      s'.list = s.list ∧ s'.number = s.number) ∧
    (jd ≤ 2444237.5 ∨ 2444244.5 + 7 * 2 ^ 32 ≤ jd → gpsTime s jd = .ub) := by
  constructor
  · intro h1 h2
    have hx : 0 ≤ (jd - 2444244.5) / 7 := by apply div_nonneg <;> linarith
    obtain ⟨w0, w1, w2⟩ := truncZ_nonneg hx
    rw [le_div_iff₀ (by norm_num)] at w1
    rw [div_lt_iff₀ (by norm_num)] at w2
    have w3 : truncZ ((jd - 2444244.5) / 7) < 2 ^ 32 := by
      have : ((truncZ ((jd - 2444244.5) / 7) : ℤ) : ℝ) < 2 ^ 32 := by linarith
      exact_mod_cast this
    have hc : (((truncZ ((jd - 2444244.5) / 7)).toNat : ℕ) : ℝ) = truncZ ((jd - 2444244.5) / 7) := by
      have := Int.toNat_of_nonneg w0
      exact_mod_cast this
    rw [gpsTime, if_pos (And.intro w0 w3)]
    refine ⟨_, rfl, ?_, ?_, ?_, rfl, rfl, rfl, rfl, rfl, rfl⟩
    · apply mul_nonneg <;> linarith
    · simp only; linarith
    · simp only [hc]; ring
  · intro h
    simp only [gpsTime]
    rw [if_neg]
    rintro ⟨a1, a2⟩
    rcases h with h | h
    · have : truncZ ((jd - 2444244.5) / 7) ≤ truncZ (((-1 : ℤ)) : ℝ) := truncZ_mono (by rw [div_le_iff₀ (by norm_num)]; push_cast; linarith)
      rw [truncZ_int] at this
      omega
    · have : truncZ (((2 ^ 32 : ℤ)) : ℝ) ≤ truncZ ((jd - 2444244.5) / 7) := truncZ_mono (by rw [le_div_iff₀ (by norm_num)]; push_cast; linarith)
      rw [truncZ_int] at this
      omega

theorem update_spec (c : Config) (fuel : ℕ) (s s' : State) (i : Input) (h : update c fuel s i = .ok s') :
    s'.visible = (check c s i).visible ∧
    ((check c s i).visible = true → s'.position = i.positionEcef + i.positionNoise ∧ s'.velocity = i.velocityEcef + i.velocityNoise ∧
      updateFromEcef fuel (i.positionEcef + i.positionNoise) = .ok s'.geodetic) ∧
    ((check c s i).visible = false → s'.position = s.position ∧ s'.velocity = s.velocity ∧ s'.geodetic = s.geodetic) := by
  have ht : ∀ (u : State) (jd : ℝ), gpsTime u jd = .ok s' → s'.position = u.position ∧ s'.velocity = u.velocity ∧ s'.geodetic = u.geodetic ∧ s'.visible = u.visible := by
    intro u jd hu
    simp only [gpsTime] at hu
    split at hu
    · obtain rfl := Res.ok.inj hu; exact ⟨rfl, rfl, rfl, rfl⟩
    · cases hu
  obtain ⟨k1, k2, k3⟩ := check_keeps c s i
  rw [update] at h
  cases hv : (check c s i).visible with
  | true =>
    simp only [observe, hv, if_true] at h
    rcases hg : updateFromEcef fuel (vadd i.positionEcef i.positionNoise) with g | _ | _ | _ <;> rw [hg] at h <;> simp only [Res.bind, reduceCtorEq] at h
    obtain ⟨e1, e2, e3, e4⟩ := ht _ _ h
    refine ⟨e4, fun _ => ⟨e1, e2, ?_⟩, fun hc => by cases hc⟩
    rw [e3]
    exact hg
  | false =>
    simp only [observe, hv] at h
    obtain ⟨e1, e2, e3, e4⟩ := ht _ _ h
    exact ⟨e4.trans hv, fun hc => by (cases hc), fun _ => ⟨e1.trans k1, e2.trans k2, e3.trans k3⟩⟩

theorem run_append (c : Config) (fuel : ℕ) (s : State) (a b : List Input) : run c fuel s (a ++ b) = (run c fuel s a).bind fun s => run c fuel s b := by
  induction a generalizing s with
  | nil => rfl
  | cons i a ih =>
    rw [List.cons_append, run, run]
    rcases update c fuel s i with u | _ | _ | _ <;> simp only [Res.bind]
    exact ih u

theorem run_hidden (c : Config) (fuel : ℕ) (after : List Input) : ∀ (s s' : State), (∀ i ∈ after, (check c State.new i).visible = false) →
    run c fuel s after = .ok s' → s'.position = s.position ∧ s'.velocity = s.velocity ∧ s'.geodetic = s.geodetic := by
  induction after with
  | nil => rintro s s' - h; obtain rfl := Res.ok.inj h; exact ⟨rfl, rfl, rfl⟩
  | cons i after ih =>
    intro s s' hh h
    rw [run] at h
    rcases hu : update c fuel s i with u | _ | _ | _ <;> rw [hu] at h <;> simp only [Res.bind, reduceCtorEq] at h
    obtain ⟨e1, e2, e3⟩ := ih u s' (fun j hj => hh j (by simp [hj])) h
    obtain ⟨-, -, k⟩ := update_spec c fuel s u i hu
    obtain ⟨k1, k2, k3⟩ := k ((check_visible c s State.new i).trans (hh i (by simp)))
    exact ⟨e1.trans k1, e2.trans k2, e3.trans k3⟩

/-- **C143 (reports).** In every history the reported Earth-fixed position and velocity are the true ones plus noise of the last update with reception, and the reported geodetic position is
the conversion of the reported position; without any reception so far they are zero. Reception depends on the inputs of the update alone. -/
theorem C143_reports (c : Config) (fuel : ℕ) (before : List Input) (i : Input) (after : List Input) (s : State)
    (hi : (check c State.new i).visible = true) (ha : ∀ j ∈ after, (check c State.new j).visible = false)
    (h : run c fuel State.new (before ++ i :: after) = .ok s) :
    s.position = i.positionEcef + i.positionNoise ∧ s.velocity = i.velocityEcef + i.velocityNoise ∧ updateFromEcef fuel s.position = .ok s.geodetic := by
  rw [run_append] at h
  rcases hb : run c fuel State.new before with u | _ | _ | _ <;> rw [hb] at h <;> simp only [Res.bind, reduceCtorEq] at h
  rw [run] at h
  rcases hu : update c fuel u i with v | _ | _ | _ <;> rw [hu] at h <;> simp only [Res.bind, reduceCtorEq] at h
  obtain ⟨-, k, -⟩ := update_spec c fuel u v i hu
  obtain ⟨k1, k2, k3⟩ := k ((check_visible c u State.new i).trans hi)
  obtain ⟨e1, e2, e3⟩ := run_hidden c fuel after v s ha h
  refine ⟨e1.trans k1, e2.trans k2, ?_⟩
  rw [e1.trans k1, e3]
  exact k3

/-- **C143 (nothing received).** -/
theorem C143_nothing (c : Config) (fuel : ℕ) (is : List Input) (s : State) (ha : ∀ j ∈ is, (check c State.new j).visible = false)
    (h : run c fuel State.new is = .ok s) : s.position = 0 ∧ s.velocity = 0 := by
  obtain ⟨e1, e2, -⟩ := run_hidden c fuel is State.new s ha h
  exact ⟨e1, e2⟩

/-- **C143 (antenna model).** The cone model is used exactly when it is asked for by name and GNSS satellites are calculated. -/
theorem C143_model (name : String) (enabled : Bool) : antennaModel name enabled = .cone ↔ name = "CONE" ∧ enabled = true := by
  simp only [antennaModel]
  by_cases h1 : name = "SIMPLE"
  · subst h1; simp
  · by_cases h2 : name = "CONE"
    · subst h2; cases enabled <;> simp
    · simp [h1, h2]

/-! ## The hypotheses are satisfiable -/

/-- A receiver at 7000 km on the x axis with a zenith antenna and one satellite above it. -/
def exampleInput : Input := ⟨![7000000, 0, 0], ⟨0, 0, 0, 1⟩, [![26560000, 0, 0]], ![7000000, 0, 0], 0, ![1, 0, 0], 0, 2460000.5⟩

theorem example_high : HighEnough ![7000000, 0, 0] ![26560000, 0, 0] := by
  have h1 : len ![(7000000 : ℝ), 0, 0] = 7000000 := by
    rw [len]; simp only [Matrix.cons_val]; rw [show ((7000000 : ℝ) ^ 2 + 0 ^ 2 + 0 ^ 2) = 7000000 ^ 2 by ring, Real.sqrt_sq (by norm_num)]
  have h2 : len ![(26560000 : ℝ), 0, 0] = 26560000 := by
    rw [len]; simp only [Matrix.cons_val]; rw [show ((26560000 : ℝ) ^ 2 + 0 ^ 2 + 0 ^ 2) = 26560000 ^ 2 by ring, Real.sqrt_sq (by norm_num)]
  rw [HighEnough, h1, h2]
  unfold earthRadius
  norm_num

example : ∃ (c : Config) (i : Input), c.antenna = .cone ∧ c.b2c.IsUnit ∧ i.i2b.IsUnit ∧ 0 ≤ c.halfWidth ∧ c.halfWidth ≤ 180 ∧ i.satellites ≠ [] ∧
    ∀ g ∈ i.satellites, HighEnough (antennaAt c i) g ∧ g ≠ antennaAt c i := by
  refine ⟨⟨.cone, 0, ⟨0, 0, 0, 1⟩, 60⟩, exampleInput, rfl, by simp [Quat.IsUnit], by simp [Quat.IsUnit, exampleInput], by norm_num, by norm_num, by simp [exampleInput], ?_⟩
  intro g hg
  have ea : antennaAt ⟨.cone, 0, ⟨0, 0, 0, 1⟩, 60⟩ exampleInput = ![7000000, 0, 0] := by
    rw [antennaAt, inverse_explicit]; apply vec3_ext <;> simp [exampleInput]
  simp only [exampleInput, List.mem_singleton] at hg
  subst hg
  rw [ea]
  refine ⟨example_high, fun h => ?_⟩
  have := congrFun h 0
  norm_num at this

/-- A far satellite behind the Earth is hidden, one far to the side is not. -/
example : Blocked earthRadius ![7000000, 0, 0] ![-26560000, 0, 0] := by
  refine ⟨7 / 33.56, by norm_num, by norm_num, ?_⟩
  have : (![7000000, 0, 0] + (7 / 33.56 : ℝ) • (![-26560000, 0, 0] - ![7000000, 0, 0]) : Vec 3) = 0 := by
    apply vec3_ext <;> simp <;> norm_num
  rw [this]
  have := earthRadius_pos
  simp [len, this.le]

example : ∃ d : Vec 3, d ≠ 0 := ⟨![0, 0, 1], fun h => one_ne_zero (α := ℝ) (congrFun h 2)⟩

/-- Reception by the simple model and an update that succeeds. -/
example : ∃ (c : Config) (s : State), (check c State.new exampleInput).visible = true ∧ run c 8 State.new ([] ++ exampleInput :: []) = .ok s := by
  have hq : Real.sqrt (1 / 2) ^ 2 = 1 / 2 := Real.sq_sqrt (by norm_num)
  let c : Config := ⟨.simple, 0, ⟨0, Real.sqrt (1 / 2), 0, Real.sqrt (1 / 2)⟩, 60⟩
  have hv : (check c State.new exampleInput).visible = true := by
    rw [(C143_simple c State.new exampleInput rfl).1]
    simp only [axis, inverse_explicit, c, exampleInput, dot]
    simp
  obtain ⟨g, hg, -⟩ := C98_round_trip ![7000001, 0, 0] (Or.inl (by simp)) (by simp [earthRadius]; norm_num)
  have hp : vadd exampleInput.positionEcef exampleInput.positionNoise = ![7000001, 0, 0] := by
    apply vec3_ext <;> simp [vadd, exampleInput] <;> norm_num
  have ho : ∃ u, observe 8 (check c State.new exampleInput) exampleInput = .ok u := by
    simp only [observe, hv, if_true, hp, hg 8 le_rfl]
    exact ⟨_, rfl⟩
  obtain ⟨u, ho⟩ := ho
  obtain ⟨v, ht, -⟩ := (C143_time u exampleInput.julianDay).1 (by simp [exampleInput]; norm_num) (by simp [exampleInput]; norm_num)
  refine ⟨c, v, hv, ?_⟩
  rw [List.nil_append, run, update, ho]
  simp only [Res.bind, ht, run]

end S2E.GnssRx
