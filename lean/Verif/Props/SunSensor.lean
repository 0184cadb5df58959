import Verif.Model.SunSensor
import Verif.Props.StarSensor
/-!
# C136: sun sensor
-/
namespace S2E.Sun
open S2E.TwoBody S2E.Shadow Quat

/-- The direction of sight in body components: what the mounting turns into the z axis of the component. -/
def boresight (q : Quat) : Vec 3 := q.inverseFrameConversion ![0, 0, 1]

theorem frame_len (q : Quat) (hq : q.IsUnit) (v : Vec 3) : len (q.frameConversion v) = len v := by
  have h1 := len_sq (q.frameConversion v)
  have h2 := len_sq v
  rw [← Star.dot3_dot, (C64_isometry q hq _ _).1, Star.dot3_dot, ← h2] at h1
  exact (pow_left_inj₀ (len_nonneg _) (len_nonneg _) (by norm_num)).1 h1

theorem normalized_of_unit {d : Vec 3} {k : ℝ} (hd : len d = 1) (hk : 0 < k) : calcNormalizedVector (k • d) = d := by
  have h1 : calcNorm (k • d) = k := by
    rw [Kepler.calcNorm_len]
    have h2 := len_sq (k • d)
    have h3 := len_sq d
    rw [hd] at h3
    have h4 : dot (k • d) (k • d) = k ^ 2 * dot d d := by simp only [dot, Pi.smul_apply, smul_eq_mul]; ring
    rw [h4, ← h3, one_pow, mul_one] at h2
    exact (pow_left_inj₀ (len_nonneg _) hk.le (by norm_num)).1 h2
  rw [calcNormalizedVector, h1, if_neg hk.ne']
  funext j
  simp [vdiv, scale]
  field_simp

/-- The true direction after an update. -/
noncomputable def direction (q : Quat) (sun : Vec 3) : Vec 3 := q.frameConversion (calcNormalizedVector sun)

theorem direction_len (q : Quat) (hq : q.IsUnit) {sun : Vec 3} (hs : sun ≠ 0) : len (direction q sun) = 1 := by
  rw [direction, frame_len q hq, (Dist.normalized_len hs).1]

theorem direction_z (q : Quat) (hq : q.IsUnit) {sun : Vec 3} (hs : sun ≠ 0) : Real.arccos (direction q sun 2) = angle sun (boresight q) := by
  have h1 : len (boresight q) = 1 := Star.len_one (by rw [boresight, Star.inverse_dot q hq]; simp [dot3])
  have e : direction q sun 2 = dot3 (direction q sun) ![0, 0, 1] := by simp [dot3]
  have e2 : dot3 (direction q sun) ![0, 0, 1] = dot3 (calcNormalizedVector sun) (boresight q) := by
    conv_lhs => rw [← (C64_inverse q hq ![0, 0, 1]).2]
    rw [direction, (C64_isometry q hq _ _).1]
    rfl
  rw [angle, h1, mul_one, e, e2]
  congr 1
  rw [eq_div_iff (len_pos hs).ne', Star.dot3_dot]
  conv_rhs => rw [← (Dist.normalized_len hs).2]
  simp only [dot, Pi.smul_apply, smul_eq_mul]
  ring

theorem direction_cos (q : Quat) (hq : q.IsUnit) {sun : Vec 3} (hs : sun ≠ 0) : direction q sun 2 = Real.cos (angle sun (boresight q)) := by
  have h := len_sq (direction q sun)
  rw [direction_len q hq hs] at h
  have hz : -1 ≤ direction q sun 2 ∧ direction q sun 2 ≤ 1 := by
    simp only [dot] at h
    constructor <;> nlinarith [sq_nonneg (direction q sun 0), sq_nonneg (direction q sun 1)]
  rw [← direction_z q hq hs, Real.cos_arccos hz.1 hz.2]

theorem sunAngle_eq (s : Sensor) {sun : Vec 3} (hq : s.b2c.IsUnit) (hs : sun ≠ 0) (h : s.trueDirection = direction s.b2c sun) :
    s.sunAngle = angle sun (boresight s.b2c) := by
  have : calcNormalizedVector (direction s.b2c sun) = direction s.b2c sun := by
    have := normalized_of_unit (direction_len s.b2c hq hs) one_pos
    rwa [one_smul] at this
  rw [Sensor.sunAngle, h, this, direction_z _ hq hs]

/-- The state after an update, part by part. -/
theorem measure_eq (s : Sensor) (i : Input) (hq : s.b2c.IsUnit) (hs : i.sun ≠ 0) :
    let θ := angle i.sun (boresight s.b2c)
    (s.measure i).b2c = s.b2c ∧ (s.measure i).threshold = s.threshold ∧ (s.measure i).detectable = s.detectable ∧
    (s.measure i).biasAlpha = s.biasAlpha ∧ (s.measure i).biasBeta = s.biasBeta ∧
    ((s.measure i).detected = true ↔ s.threshold / 100 * i.solarConstant ≤ s.illuminance ∧ θ < s.detectable) ∧
    (s.measure i).illuminance = i.power * max 0 (Real.cos θ) ∧
    ((s.measure i).detected = false → (s.measure i).measured = 0 ∧ (s.measure i).alpha = 0 ∧ (s.measure i).beta = 0) ∧
    ((s.measure i).detected = true →
      (s.measure i).alpha = tanRange (atan2 (direction s.b2c i.sun 0) (direction s.b2c i.sun 2) + s.biasAlpha + i.noiseAlpha) ∧
      (s.measure i).beta = tanRange (atan2 (direction s.b2c i.sun 1) (direction s.b2c i.sun 2) + s.biasBeta + i.noiseBeta) ∧
      (s.measure i).measured = calcNormalizedVector ![Real.tan (s.measure i).alpha, Real.tan (s.measure i).beta, 1]) := by
  have ha : ∀ t : Sensor, t.b2c = s.b2c → t.trueDirection = direction s.b2c i.sun → t.sunAngle = angle i.sun (boresight s.b2c) := by
    intro t h1 h2
    rw [← h1]
    exact sunAngle_eq t (by rw [h1]; exact hq) hs (by rw [h1]; exact h2)
  have hj := ha { s with trueDirection := s.b2c.frameConversion (calcNormalizedVector i.sun) } rfl rfl
  have hill : (if angle i.sun (boresight s.b2c) > Real.pi / 2 then 0 else i.power * Real.cos (angle i.sun (boresight s.b2c))) =
      i.power * max 0 (Real.cos (angle i.sun (boresight s.b2c))) := by
    have h1 := Real.arccos_nonneg (dot i.sun (boresight s.b2c) / (len i.sun * len (boresight s.b2c)))
    have h2 := Real.arccos_le_pi (dot i.sun (boresight s.b2c) / (len i.sun * len (boresight s.b2c)))
    rw [← angle] at h1 h2
    split
    · rename_i h
      rw [max_eq_left, mul_zero]
      exact Real.cos_nonpos_of_pi_div_two_le_of_le h.le (by linarith)
    · rename_i h
      rw [max_eq_right]
      exact Real.cos_nonneg_of_neg_pi_div_two_le_of_le (by linarith) (by linarith)
  simp only [Sensor.measure, Sensor.judge, hj]
  by_cases h1 : s.illuminance < s.threshold / 100 * i.solarConstant
  · simp only [if_pos h1, Sensor.observe, Sensor.calcIlluminance]
    have := ha { s with trueDirection := s.b2c.frameConversion (calcNormalizedVector i.sun), detected := false, measured := fun _ => 0, alpha := 0, beta := 0 }
      rfl rfl
    simp only [Bool.false_eq_true, if_false, this, hill]
    refine ⟨trivial, trivial, trivial, trivial, trivial, ?_, trivial, ?_, ?_⟩
    · constructor
      · exact fun h => absurd h (by simp)
      · exact fun h => absurd h.1 (not_le.2 h1)
    · exact fun _ => ⟨rfl, trivial, trivial⟩
    · exact fun h => absurd h (by simp)
  · by_cases h2 : angle i.sun (boresight s.b2c) < s.detectable
    · simp only [if_neg h1, if_pos h2, Sensor.observe, Sensor.calcIlluminance, if_true]
      refine ⟨trivial, trivial, trivial, trivial, trivial, ?_, ?_, ?_, ?_⟩
      · exact ⟨fun _ => ⟨not_lt.1 h1, h2⟩, fun _ => trivial⟩
      · exact Eq.trans (by rw [← hill]; exact congrArg (fun x => if x > Real.pi / 2 then 0 else i.power * Real.cos x) (ha _ rfl rfl)) rfl
      · exact fun h => absurd h (by simp)
      · exact fun _ => ⟨rfl, rfl, trivial⟩
    · simp only [if_neg h1, if_neg h2, Sensor.observe, Sensor.calcIlluminance]
      have := ha { s with trueDirection := s.b2c.frameConversion (calcNormalizedVector i.sun), detected := false, measured := fun _ => 0, alpha := 0,
                          beta := 0 } rfl rfl
      simp only [Bool.false_eq_true, if_false, this, hill]
      refine ⟨trivial, trivial, trivial, trivial, trivial, ?_, trivial, ?_, ?_⟩
      · constructor
        · exact fun h => absurd h (by simp)
        · exact fun h => absurd h.2 h2
      · exact fun _ => ⟨rfl, trivial, trivial⟩
      · exact fun h => absurd h (by simp)

/-- A history in which the Sun is never at the spacecraft. -/
def Away (is : List Input) : Prop := ∀ i ∈ is, i.sun ≠ 0

theorem run_params (q : Quat) (hq : q.IsUnit) (detectable threshold a b : ℝ) (is : List Input) (h : Away is) :
    ((Sensor.new q detectable threshold a b).run is).b2c = q ∧ ((Sensor.new q detectable threshold a b).run is).threshold = threshold ∧
    ((Sensor.new q detectable threshold a b).run is).detectable = detectable ∧ ((Sensor.new q detectable threshold a b).run is).biasAlpha = a ∧
    ((Sensor.new q detectable threshold a b).run is).biasBeta = b ∧
    (∀ l i, is = l ++ [i] → ((Sensor.new q detectable threshold a b).run is).illuminance = i.power * max 0 (Real.cos (angle i.sun (boresight q)))) := by
  induction is using List.reverseRecOn with
  | nil =>
    refine ⟨rfl, rfl, rfl, zero_add _, zero_add _, ?_⟩
    intro l i hl
    simp at hl
  | append_singleton l i ih =>
    obtain ⟨h1, h2, h3, h4, h5, -⟩ := ih (fun j hj => h j (by simp [hj]))
    have e : (Sensor.new q detectable threshold a b).run (l ++ [i]) = ((Sensor.new q detectable threshold a b).run l).measure i := by
      simp [Sensor.run]
    obtain ⟨m1, m2, m3, m4, m5, -, m7, -, -⟩ := measure_eq ((Sensor.new q detectable threshold a b).run l) i (by rw [h1]; exact hq) (h i (by simp))
    rw [e, m1, m2, m3, m4, m5]
    refine ⟨h1, h2, h3, h4, h5, ?_⟩
    intro l' i' hl
    obtain ⟨-, hi⟩ := List.append_inj' hl rfl
    obtain rfl := List.singleton_inj.1 hi
    rw [m7, h1]

/-- **C136 (detection).** After any history the Sun is reported exactly when it is closer to the sight direction than the configured angle (a half angle) and
the sunlight that fell on the sensor at the update *before* the last one, power density times the cosine of the incidence, reached the threshold percentage
of the solar constant; before the second update that light counts as zero. -/
theorem C136_detection (q : Quat) (hq : q.IsUnit) (detectable threshold a b : ℝ) (before : List Input) (i j : Input) (h : Away (before ++ [i, j])) :
    (((Sensor.new q detectable threshold a b).run (before ++ [i, j])).detected = true ↔
      threshold / 100 * j.solarConstant ≤ i.power * max 0 (Real.cos (angle i.sun (boresight q))) ∧ angle j.sun (boresight q) < detectable) ∧
    (((Sensor.new q detectable threshold a b).run [j]).detected = true ↔
      threshold / 100 * j.solarConstant ≤ 0 ∧ angle j.sun (boresight q) < detectable) := by
  constructor
  · have e : (Sensor.new q detectable threshold a b).run (before ++ [i, j]) = ((Sensor.new q detectable threshold a b).run (before ++ [i])).measure j := by
      simp [Sensor.run]
    obtain ⟨h1, h2, h3, h4, h5, h6⟩ := run_params q hq detectable threshold a b (before ++ [i])
      (fun k hk => h k (by simp at hk ⊢; tauto))
    obtain ⟨-, -, -, -, -, m6, -⟩ := measure_eq ((Sensor.new q detectable threshold a b).run (before ++ [i])) j (by rw [h1]; exact hq) (h j (by simp))
    rw [e, m6, h1, h2, h3, h6 before i rfl]
  · obtain ⟨-, -, -, -, -, m6, -⟩ := measure_eq (Sensor.new q detectable threshold a b) j hq (h j (by simp))
    exact m6

/-- With a positive threshold the Sun is never reported at the first update; and when the Sun is eclipsed, the first update in the dark still reports it. -/
theorem C136_late (q : Quat) (hq : q.IsUnit) (detectable threshold a b : ℝ) (ht : 0 < threshold) (before : List Input) (i j : Input)
    (h : Away (before ++ [i, j])) (hc : 0 < j.solarConstant) :
    ((Sensor.new q detectable threshold a b).run [j]).detected = false ∧
    (j.power = 0 → angle j.sun (boresight q) < detectable → threshold / 100 * j.solarConstant ≤ i.power * Real.cos (angle i.sun (boresight q)) → 0 ≤ i.power →
      ((Sensor.new q detectable threshold a b).run (before ++ [i, j])).detected = true) := by
  obtain ⟨h1, h2⟩ := C136_detection q hq detectable threshold a b before i j h
  constructor
  · rw [Bool.eq_false_iff, Ne, h2]
    rintro ⟨h3, -⟩
    have : 0 < threshold / 100 * j.solarConstant := by positivity
    linarith
  · intro _ h3 h4 h5
    rw [h1]
    exact ⟨h4.trans (mul_le_mul_of_nonneg_left (le_max_right _ _) h5), h3⟩

theorem tanRange_id {x : ℝ} (h1 : -(Real.pi / 2) ≤ x) (h2 : x ≤ Real.pi / 2) : tanRange x = x := by
  have e : ¬ x > Real.pi / 2 := by linarith
  simp only [tanRange, if_neg e]
  rw [if_neg (by linarith)]

theorem tanRange_fold {x : ℝ} (h1 : Real.pi / 2 < x) (h2 : x ≤ Real.pi + Real.pi / 2) : tanRange x = Real.pi - x := by
  simp only [tanRange, gt_iff_lt, if_pos h1]
  rw [if_neg (by linarith)]

theorem tanRange_fold' {x : ℝ} (h1 : -(Real.pi + Real.pi / 2) ≤ x) (h2 : x < -(Real.pi / 2)) : tanRange x = -Real.pi - x := by
  have := Real.pi_pos
  have e : ¬ x > Real.pi / 2 := by linarith
  simp only [tanRange, if_neg e]
  rw [if_pos (by linarith)]

theorem tan_fold (x y : ℝ) (hy : y < 0) : -(Real.pi + Real.pi / 2) ≤ atan2 x y ∧ atan2 x y ≤ Real.pi + Real.pi / 2 ∧ Real.tan (tanRange (atan2 x y)) = x / -y := by
  have hpi := Real.pi_pos
  have h1 : -Real.pi < atan2 x y := Complex.neg_pi_lt_arg _
  have h2 : atan2 x y ≤ Real.pi := Complex.arg_le_pi _
  have ht : Real.tan (atan2 x y) = x / y := by
    rw [atan2, Complex.tan_arg]
  refine ⟨by linarith, by linarith, ?_⟩
  have hout : atan2 x y < -(Real.pi / 2) ∨ Real.pi / 2 < atan2 x y := by
    by_contra hcon
    push Not at hcon
    have : |Complex.arg ⟨y, x⟩| ≤ Real.pi / 2 := abs_le.2 ⟨hcon.1, hcon.2⟩
    rw [Complex.abs_arg_le_pi_div_two_iff] at this
    exact absurd hy (not_lt.2 this)
  rcases hout with h | h
  · rw [tanRange_fold' (by linarith) h, Real.tan_eq_sin_div_cos, sub_eq_add_neg, ← neg_add, Real.sin_neg, Real.cos_neg, add_comm, Real.sin_add_pi, Real.cos_add_pi,
      neg_neg, div_neg, ← Real.tan_eq_sin_div_cos, ht, div_neg]
  · rw [tanRange_fold h (by linarith), Real.tan_pi_sub, ht, div_neg]

/-- **C136 (direction).** When the Sun is reported and there is no noise, the measured direction is the true one in component coordinates if the Sun is in
front of the sensor, and its mirror image in the sensor plane if it is behind (possible for a configured angle above 90 degrees). Otherwise it is zero. -/
theorem C136_direction (s : Sensor) (i : Input) (hq : s.b2c.IsUnit) (hs : i.sun ≠ 0) :
    ((s.measure i).detected = false → (s.measure i).measured = 0) ∧
    ((s.measure i).detected = true → s.biasAlpha + i.noiseAlpha = 0 → s.biasBeta + i.noiseBeta = 0 →
      (angle i.sun (boresight s.b2c) < Real.pi / 2 → len i.sun • (s.measure i).measured = s.b2c.frameConversion i.sun) ∧
      (angle i.sun (boresight s.b2c) > Real.pi / 2 → len i.sun • (s.measure i).measured =
        ![s.b2c.frameConversion i.sun 0, s.b2c.frameConversion i.sun 1, -s.b2c.frameConversion i.sun 2])) := by
  obtain ⟨-, -, -, -, -, -, -, m8, m9⟩ := measure_eq s i hq hs
  refine ⟨fun h => (m8 h).1, ?_⟩
  intro h ea eb
  obtain ⟨ha, hb, hm⟩ := m9 h
  rw [add_assoc, ea, add_zero] at ha
  rw [add_assoc, eb, add_zero] at hb
  have hl := direction_len s.b2c hq hs
  have hz := direction_cos s.b2c hq hs
  have hscale : s.b2c.frameConversion i.sun = len i.sun • direction s.b2c i.sun := by
    have := C64_linear s.b2c (len i.sun) 0 (calcNormalizedVector i.sun) 0
    have e1 : vadd (scale (len i.sun) (calcNormalizedVector i.sun)) (scale 0 (0 : Vec 3)) = i.sun := by
      conv_rhs => rw [← (Dist.normalized_len hs).2]
      funext j
      simp [vadd, scale]
    rw [e1] at this
    rw [this]
    funext j
    simp [vadd, scale, direction]
  have hpi := Real.pi_pos
  constructor
  · intro hθ
    have hp : 0 < direction s.b2c i.sun 2 := by
      rw [hz]
      have h0 := Real.arccos_nonneg (dot i.sun (boresight s.b2c) / (len i.sun * len (boresight s.b2c)))
      rw [← angle] at h0
      exact Real.cos_pos_of_mem_Ioo ⟨by linarith, hθ⟩
    have key : ∀ x, Real.tan (tanRange (atan2 x (direction s.b2c i.sun 2))) = x / direction s.b2c i.sun 2 := by
      intro x
      rw [atan2, Star.arg_arctan hp, tanRange_id (Real.neg_pi_div_two_lt_arctan _).le (Real.arctan_lt_pi_div_two _).le, Real.tan_arctan]
    rw [hm, ha, hb, key, key, hscale]
    congr 1
    rw [← normalized_of_unit hl (inv_pos.2 hp)]
    congr 1
    have := hp.ne'
    rw [normalized_of_unit hl (inv_pos.2 hp)]
    apply vec3_ext <;> simp [div_eq_inv_mul, this]
  · intro hθ
    have hp : direction s.b2c i.sun 2 < 0 := by
      rw [hz]
      have h0 := Real.arccos_le_pi (dot i.sun (boresight s.b2c) / (len i.sun * len (boresight s.b2c)))
      rw [← angle] at h0
      exact Real.cos_neg_of_pi_div_two_lt_of_lt hθ (by linarith)
    have hl2 : len (![direction s.b2c i.sun 0, direction s.b2c i.sun 1, -direction s.b2c i.sun 2] : Vec 3) = 1 := by
      rw [← hl, len, len]
      simp
    rw [hm, ha, hb, (tan_fold _ _ hp).2.2, (tan_fold _ _ hp).2.2, hscale]
    have e : (![(len i.sun • direction s.b2c i.sun) 0, (len i.sun • direction s.b2c i.sun) 1, -(len i.sun • direction s.b2c i.sun) 2] : Vec 3) =
        len i.sun • (![direction s.b2c i.sun 0, direction s.b2c i.sun 1, -direction s.b2c i.sun 2] : Vec 3) := by
      apply vec3_ext <;> simp
    rw [e]
    congr 1
    have hk : 0 < (-direction s.b2c i.sun 2)⁻¹ := inv_pos.2 (by linarith)
    conv_rhs => rw [← normalized_of_unit hl2 hk]
    congr 1
    have := hp.ne
    apply vec3_ext <;> simp [div_eq_inv_mul, this]

/-- **C136 (noise).** When the Sun is reported in front of the sensor, the angles of its projections on the xz and yz planes are the true ones plus bias plus
noise as long as these stay within 90 degrees; beyond, they are folded back; the measured direction is the unit vector with these angles. -/
theorem C136_noise (s : Sensor) (i : Input) (hq : s.b2c.IsUnit) (hs : i.sun ≠ 0) (h : (s.measure i).detected = true)
    (hθ : angle i.sun (boresight s.b2c) < Real.pi / 2) :
    let α := Real.arctan (s.b2c.frameConversion i.sun 0 / s.b2c.frameConversion i.sun 2) + s.biasAlpha + i.noiseAlpha
    let β := Real.arctan (s.b2c.frameConversion i.sun 1 / s.b2c.frameConversion i.sun 2) + s.biasBeta + i.noiseBeta
    (|α| ≤ Real.pi / 2 → (s.measure i).alpha = α) ∧ (|β| ≤ Real.pi / 2 → (s.measure i).beta = β) ∧
    (Real.pi / 2 < α → α ≤ 3 * Real.pi / 2 → (s.measure i).alpha = Real.pi - α) ∧ (Real.pi / 2 < β → β ≤ 3 * Real.pi / 2 → (s.measure i).beta = Real.pi - β) ∧
    (α < -(Real.pi / 2) → -(3 * Real.pi / 2) ≤ α → (s.measure i).alpha = -Real.pi - α) ∧
    (β < -(Real.pi / 2) → -(3 * Real.pi / 2) ≤ β → (s.measure i).beta = -Real.pi - β) ∧
    len (s.measure i).measured = 1 ∧ 0 < (s.measure i).measured 2 ∧
    (s.measure i).measured 0 = Real.tan (s.measure i).alpha * (s.measure i).measured 2 ∧
    (s.measure i).measured 1 = Real.tan (s.measure i).beta * (s.measure i).measured 2 := by
  intro α β
  obtain ⟨-, -, -, -, -, -, -, -, m9⟩ := measure_eq s i hq hs
  obtain ⟨ha, hb, hm⟩ := m9 h
  have hl := direction_len s.b2c hq hs
  have hz := direction_cos s.b2c hq hs
  have hlen := len_pos hs
  have hscale : s.b2c.frameConversion i.sun = len i.sun • direction s.b2c i.sun := by
    have := C64_linear s.b2c (len i.sun) 0 (calcNormalizedVector i.sun) 0
    have e1 : vadd (scale (len i.sun) (calcNormalizedVector i.sun)) (scale 0 (0 : Vec 3)) = i.sun := by
      conv_rhs => rw [← (Dist.normalized_len hs).2]
      funext j
      simp [vadd, scale]
    rw [e1] at this
    rw [this]
    funext j
    simp [vadd, scale, direction]
  have hp : 0 < direction s.b2c i.sun 2 := by
    rw [hz]
    have h0 := Real.arccos_nonneg (dot i.sun (boresight s.b2c) / (len i.sun * len (boresight s.b2c)))
    rw [← angle] at h0
    have hpi := Real.pi_pos
    exact Real.cos_pos_of_mem_Ioo ⟨by linarith, hθ⟩
  have key : ∀ k, atan2 (direction s.b2c i.sun k) (direction s.b2c i.sun 2) =
      Real.arctan (s.b2c.frameConversion i.sun k / s.b2c.frameConversion i.sun 2) := by
    intro k
    rw [atan2, Star.arg_arctan hp, hscale]
    simp only [Pi.smul_apply, smul_eq_mul]
    rw [mul_div_mul_left _ _ hlen.ne']
  rw [key] at ha hb
  change (s.measure i).alpha = tanRange α at ha
  change (s.measure i).beta = tanRange β at hb
  refine ⟨?_, ?_, ?_, ?_, ?_, ?_, ?_⟩
  · intro h; rw [ha, tanRange_id (abs_le.1 h).1 (abs_le.1 h).2]
  · intro h; rw [hb, tanRange_id (abs_le.1 h).1 (abs_le.1 h).2]
  · intro h h'; rw [ha, tanRange_fold h (by linarith)]
  · intro h h'; rw [hb, tanRange_fold h (by linarith)]
  · intro h h'; rw [ha, tanRange_fold' (by linarith) h]
  · intro h h'; rw [hb, tanRange_fold' (by linarith) h]
  · generalize (s.measure i).alpha = A at *
    generalize (s.measure i).beta = B at *
    have h0 : (![Real.tan A, Real.tan B, 1] : Vec 3) ≠ 0 := fun h => one_ne_zero (α := ℝ) (congrFun h 2)
    obtain ⟨n1, n2⟩ := Dist.normalized_len h0
    have hv := len_pos h0
    rw [← hm] at n1 n2
    have e0 := congrFun n2 0
    have e1 := congrFun n2 1
    have e2 := congrFun n2 2
    simp only [Pi.smul_apply, smul_eq_mul, Matrix.cons_val_zero, Matrix.cons_val_one, Matrix.cons_val] at e0 e1 e2
    generalize len (![Real.tan A, Real.tan B, 1] : Vec 3) = L at *
    generalize (s.measure i).measured = m at *
    have hp2 : 0 < m 2 := by
      by_contra hcon
      nlinarith [mul_nonneg hv.le (neg_nonneg.2 (not_lt.1 hcon))]
    refine ⟨n1, hp2, ?_, ?_⟩
    · apply mul_left_cancel₀ hv.ne'
      rw [e0, mul_left_comm, e2, mul_one]
    · apply mul_left_cancel₀ hv.ne'
      rw [e1, mul_left_comm, e2, mul_one]

/-- The Sun 30 degrees or so off the axis of a sensor along the body's z axis, in sunlight. -/
noncomputable def exampleInput : Input := ⟨![3, 0, 4], 1366, 1366, 0, 0⟩

theorem example_angle : angle exampleInput.sun (boresight ⟨0, 0, 0, 1⟩) = Real.arccos (4 / 5) := by
  have hb : boresight ⟨0, 0, 0, 1⟩ = ![0, 0, 1] := by
    rw [boresight, inverse_explicit]; apply vec3_ext <;> simp
  have h1 : len (![0, 0, 1] : Vec 3) = 1 := Star.len_one (by simp [dot3])
  have h2 : len (![3, 0, 4] : Vec 3) = 5 := by
    have h := len_sq (![3, 0, 4] : Vec 3)
    simp [dot] at h
    have := len_nonneg (![3, 0, 4] : Vec 3)
    nlinarith
  rw [hb, angle, exampleInput, h1, h2]
  simp [dot]

theorem example_angle_lt : Real.arccos (4 / 5) < Real.pi / 4 ∧ Real.arccos (4 / 5) < Real.pi / 2 := by
  have h3 : Real.arccos (Real.cos (Real.pi / 4)) = Real.pi / 4 := Real.arccos_cos (by linarith [Real.pi_pos]) (by linarith [Real.pi_pos])
  have h : Real.arccos (4 / 5) < Real.pi / 4 := by
    conv_rhs => rw [← h3]
    apply Real.arccos_lt_arccos
    · rw [Real.cos_pi_div_four]; nlinarith [Real.sqrt_nonneg 2]
    · rw [Real.cos_pi_div_four]; nlinarith [Real.sq_sqrt (show (0:ℝ) ≤ 2 by norm_num), Real.sqrt_nonneg 2]
    · norm_num
  exact ⟨h, by linarith [Real.pi_pos]⟩

/-- It is reported at the second update, with the right direction. -/
example : Away ([] ++ [exampleInput, exampleInput]) ∧ ((Sensor.new ⟨0, 0, 0, 1⟩ (Real.pi / 4) 10 0 0).run [exampleInput, exampleInput]).detected = true := by
  have hs : exampleInput.sun ≠ 0 := fun h => by
    have := congrFun h 2
    simp [exampleInput] at this
  have ha : Away ([] ++ [exampleInput, exampleInput]) := by
    intro i hi
    simp at hi
    rw [hi]
    exact hs
  refine ⟨ha, ?_⟩
  have h := (C136_detection ⟨0, 0, 0, 1⟩ (by simp [Quat.IsUnit]) (Real.pi / 4) 10 0 0 [] exampleInput exampleInput ha).1
  rw [List.nil_append] at h
  rw [h, example_angle, Real.cos_arccos (by norm_num) (by norm_num)]
  refine ⟨?_, example_angle_lt.1⟩
  rw [max_eq_right (by norm_num)]
  norm_num [exampleInput]

end S2E.Sun
