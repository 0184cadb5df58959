import Verif.Model.Sensor
import Verif.Props.Random
import Verif.Props.Quaternion
/-! # C49, C50: the sensor base class -/
namespace S2E.SensorBase
open S2E.Random

/-! ## C49 output range -/

/-- **C49.** Whatever is configured, the ranges in force satisfy `0 ≤ const ≤ zero`; the constant range is the configured magnitude; a valid
configuration is kept as it is. -/
theorem C49_range_check (c z : ℝ) :
    0 ≤ (rangeCheck c z).1 ∧ (rangeCheck c z).1 ≤ (rangeCheck c z).2 ∧ (rangeCheck c z).1 = |c| ∧
    (0 ≤ c → c ≤ z → rangeCheck c z = (c, z)) ∧ (|z| < |c| → (rangeCheck c z).2 = 2 * |c|) ∧ (|c| ≤ |z| → (rangeCheck c z).2 = |z|) := by
  unfold rangeCheck
  by_cases h : c < 0 ∨ z < 0
  · simp only [if_pos h]
    have h0 := abs_nonneg c
    by_cases h1 : |c| > |z|
    · simp only [if_pos h1]
      refine ⟨h0, by linarith, (by trivial), fun a b => ?_, fun _ => (by trivial), fun a => absurd a (not_le.2 h1)⟩
      rcases h with h | h <;> linarith
    · simp only [if_neg h1]
      refine ⟨h0, not_lt.1 h1, (by trivial), fun a b => ?_, fun a => absurd a h1, fun _ => (by trivial)⟩
      rcases h with h | h <;> linarith
  · simp only [if_neg h]
    push Not at h
    rw [abs_of_nonneg h.1, abs_of_nonneg h.2]
    by_cases h1 : c > z
    · simp only [if_pos h1]
      exact ⟨h.1, by linarith [h.1], (by trivial), fun _ a => absurd a (not_le.2 h1), fun _ => (by trivial), fun a => absurd a (not_le.2 h1)⟩
    · simp only [if_neg h1]
      exact ⟨h.1, not_lt.1 h1, (by trivial), fun _ _ => (by trivial), fun a => absurd a h1, fun _ => (by trivial)⟩

/-- **C49.** One axis: below the constant range the value itself, between the ranges the constant range with the sign of the value, beyond the
zero range nothing; so never more than the constant range. -/
theorem C49_clip (c z u : ℝ) (h0 : 0 ≤ c) (hz : c ≤ z) :
    (|u| < c → clip c z u = u) ∧ (c ≤ |u| → |u| < z → clip c z u = if 0 ≤ u then c else -c) ∧ (z ≤ |u| → clip c z u = 0) ∧
    |clip c z u| ≤ c := by
  have h1 : |u| < c → clip c z u = u := by
    intro h
    have := abs_lt.1 h
    unfold clip
    rw [if_neg (by rintro ⟨a, _⟩; linarith), if_neg (by rintro ⟨a, _⟩; linarith), if_neg (by linarith)]
  have h2 : c ≤ |u| → |u| < z → clip c z u = if 0 ≤ u then c else -c := by
    intro h h'
    unfold clip
    by_cases hu : 0 ≤ u
    · rw [abs_of_nonneg hu] at h h'
      rw [if_pos ⟨h, h'⟩, if_pos hu]
    · rw [abs_of_neg (not_le.1 hu)] at h h'
      rw [if_neg (by rintro ⟨a, _⟩; linarith), if_pos ⟨by linarith, by linarith⟩, if_neg hu]
  have h3 : z ≤ |u| → clip c z u = 0 := by
    intro h
    unfold clip
    rw [if_neg (by rintro ⟨a, b⟩; rw [abs_of_nonneg (by linarith)] at h; linarith),
      if_neg (by rintro ⟨a, b⟩; rw [abs_of_nonpos (by linarith)] at h; linarith), if_pos h]
  refine ⟨h1, h2, h3, ?_⟩
  rcases lt_or_ge |u| c with h | h
  · rw [h1 h]; exact le_of_lt h
  · rcases lt_or_ge |u| z with h' | h'
    · rw [h2 h h']
      split
      · rw [abs_of_nonneg h0]
      · rw [abs_neg, abs_of_nonneg h0]
    · rw [h3 h', abs_zero]; exact h0

/-- What can be done with a sensor after construction. -/
inductive Used {n : Nat} {γ : Type} (draw : γ → ℝ × γ) (start : Sensor n γ) : Sensor n γ → Prop
  | new : Used draw start start
  | measure (s : Sensor n γ) (x : Vec n) : Used draw start s → Used draw start (s.measure draw x).2
  | setBias (s : Sensor n γ) (b : Vec n) : Used draw start s → Used draw start (s.setBias b)
  | addBias (s : Sensor n γ) (b : Vec n) : Used draw start s → Used draw start (s.addBias b)

theorem used_ranges {n : Nat} {γ : Type} (draw : γ → ℝ × γ) (start s : Sensor n γ) (h : Used draw start s) :
    s.toConst = start.toConst ∧ s.toZero = start.toZero ∧ s.scale = start.scale := by
  induction h with
  | new => exact ⟨rfl, rfl, rfl⟩
  | measure s x _ ih => exact ih
  | setBias s b _ ih => exact ih
  | addBias s b _ ih => exact ih

/-- **C49.** For every configuration, every noise and every history of use, a measurement never exceeds the configured constant range in
magnitude, on any axis. -/
theorem C49_output {n : Nat} {γ : Type} (draw : γ → ℝ × γ) (scale : Mat n n) (toConst toZero bias : Vec n) (walkStep : ℝ) (walkLimit : Vec n)
    (noise walkG : Fin n → γ) (s : Sensor n γ) (x : Vec n) (i : Fin n)
    (h : Used draw (Sensor.new scale toConst toZero bias walkStep walkLimit noise walkG) s) :
    |(s.measure draw x).1 i| ≤ |toConst i| := by
  obtain ⟨h1, h2, _⟩ := used_ranges draw _ s h
  obtain ⟨a, b, c, _⟩ := C49_range_check (toConst i) (toZero i)
  have := (C49_clip _ _ (vadd (matVec s.scale x) s.bias i + s.walkX i + (draw (s.noise i)).1) a b).2.2.2
  rw [c] at this
  unfold Sensor.measure
  simp only
  rw [show s.toConst i = (rangeCheck (toConst i) (toZero i)).1 by rw [h1]; rfl,
    show s.toZero i = (rangeCheck (toConst i) (toZero i)).2 by rw [h2]; rfl, c]
  exact this

example : clip 2 5 1 = 1 ∧ clip 2 5 (-3) = -2 ∧ clip 2 5 7 = 0 ∧ rangeCheck (-3) 2 = (3, 6) := by
  refine ⟨?_, ?_, ?_, ?_⟩
  · unfold clip; norm_num
  · unfold clip; norm_num
  · unfold clip; norm_num
  · unfold rangeCheck; norm_num

/-! ## C50 the measurement model -/

/-- **C50.** A measurement is the clipped sum of scaled input, bias, current walk value and one draw per axis; afterwards the walk has advanced
by exactly one integration step and each noise source by one draw, whatever the input was. -/
theorem C50_measure {n : Nat} {γ : Type} (draw : γ → ℝ × γ) (s : Sensor n γ) (x : Vec n) :
    (∀ i, (s.measure draw x).1 i = clip (s.toConst i) (s.toZero i) ((∑ j, s.scale i j * x j) + s.bias i + s.walkX i + (draw (s.noise i)).1)) ∧
    (∀ i, (s.measure draw x).2.noise i = (draw (s.noise i)).2) ∧
    ((s.measure draw x).2.walkT, (s.measure draw x).2.walkX, (s.measure draw x).2.walkG) =
      rk4 s.walkStep (fun _ y g => walkDerivative draw s.walkLimit y g) s.walkT s.walkX s.walkG ∧
    (s.measure draw x).2.bias = s.bias := ⟨fun _ => rfl, fun _ => rfl, rfl, rfl⟩

theorem walk_zero {n : Nat} {γ : Type} (draw : γ → ℝ × γ) (hz : ∀ g, (draw g).1 = 0) (start s : Sensor n γ) (h0 : start.walkX = fun _ => 0)
    (h : Used draw start s) : s.walkX = fun _ => 0 := by
  induction h with
  | new => exact h0
  | measure s x _ ih =>
    have := (C48_zero_noise s.walkStep draw s.walkLimit hz 1 s.walkT s.walkX s.walkG).1
    exact this.trans ih
  | setBias s b _ ih => exact ih
  | addBias s b _ ih => exact ih

/-- **C50.** A sensor without noise (all draws 0) is the clipped affine map `scale·x + bias`, at every measurement of every history. -/
theorem C50_noise_free {n : Nat} {γ : Type} (draw : γ → ℝ × γ) (hz : ∀ g, (draw g).1 = 0) (scale : Mat n n) (toConst toZero bias : Vec n)
    (walkStep : ℝ) (walkLimit : Vec n) (noise walkG : Fin n → γ) (s : Sensor n γ) (x : Vec n) (i : Fin n)
    (h : Used draw (Sensor.new scale toConst toZero bias walkStep walkLimit noise walkG) s) :
    (s.measure draw x).1 i =
      clip (rangeCheck (toConst i) (toZero i)).1 (rangeCheck (toConst i) (toZero i)).2 ((∑ j, scale i j * x j) + s.bias i) := by
  obtain ⟨h1, h2, h3⟩ := used_ranges draw _ s h
  rw [(C50_measure draw s x).1 i, hz, walk_zero draw hz _ s rfl h, add_zero, add_zero, h1, h2, h3]
  rfl

/-- **C50.** A bias is applied from the next measurement on and lasts: after setting or adding, it is what was set resp. the sum. -/
theorem C50_bias {n : Nat} {γ : Type} (draw : γ → ℝ × γ) (s : Sensor n γ) (b x : Vec n) (i : Fin n) :
    ((s.setBias b).measure draw x).2.bias i = b i ∧ ((s.addBias b).measure draw x).2.bias i = s.bias i + b i := ⟨rfl, rfl⟩

/-- **C50.** A noise-free gyro or magnetometer with a unit mounting quaternion, default (absent) scale factor and no bias reports the true
vector in its own frame — same length — as long as no component reaches the constant range. -/
theorem C50_ideal_frame_sensor {γ : Type} (draw : γ → ℝ × γ) (hz : ∀ g, (draw g).1 = 0) (q : Quat) (hq : q.IsUnit) (toConst toZero : Vec 3)
    (walkStep : ℝ) (walkLimit : Vec 3) (noise walkG : Fin 3 → γ) (s : Sensor 3 γ) (v : Vec 3)
    (h : Used draw (Sensor.new (readScaleFactor 3 (fun _ => 0)) toConst toZero (fun _ => 0) walkStep walkLimit noise walkG) s)
    (hb : s.bias = fun _ => 0) (hr : ∀ i, |q.frameConversion v i| < |toConst i|) :
    (frameSensor draw q s v).1 = q.frameConversion v ∧ q.inverseFrameConversion (frameSensor draw q s v).1 = v := by
  have e : (frameSensor draw q s v).1 = q.frameConversion v := by
    funext i
    have hsc : readScaleFactor 3 (fun _ => 0) = makeIdentityMatrix 3 := by
      unfold readScaleFactor
      rw [if_pos]
      simp [calcNorm]
    unfold frameSensor
    rw [C50_noise_free draw hz _ _ _ _ _ _ _ _ s _ i h, hb, add_zero, hsc]
    have hs : (∑ j, makeIdentityMatrix 3 i j * q.frameConversion v j) = q.frameConversion v i := by
      simp [makeIdentityMatrix]
    obtain ⟨a, b, c, _⟩ := C49_range_check (toConst i) (toZero i)
    rw [hs]
    exact (C49_clip _ _ _ a b).1 (by rw [c]; exact hr i)
  exact ⟨e, by rw [e]; exact (C64_inverse q hq v).1⟩

example : (Quat.mk 0 0 0 1).IsUnit ∧ ∀ i : Fin 3, |(![1, 2, 3] : Vec 3) i| < |(fun _ => 10 : Vec 3) i| := by
  refine ⟨by unfold Quat.IsUnit; norm_num, fun i => ?_⟩
  fin_cases i <;> norm_num [abs_of_pos]

/-- A noise source that always yields 0, as a sensor with standard deviation 0 has (`C47_std_zero`). -/
example : ∀ g : Unit, ((fun _ => (0, ())) g : ℝ × Unit).1 = 0 := fun _ => rfl

end S2E.SensorBase
