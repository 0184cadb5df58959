import Verif.Model.StarSensor
import Verif.Props.RelativeInformation
import Verif.Props.Shadow
import Verif.Props.Quaternion3
import Verif.Props.SurfaceForce
/-!
# C133, C134, C135: star sensor
-/
namespace S2E.Star
open S2E.TwoBody S2E.Shadow Quat

/-! ## C133: what is measured -/

theorem inverse_dot (q : Quat) (hq : q.IsUnit) (a b : Vec 3) : dot3 (q.inverseFrameConversion a) (q.inverseFrameConversion b) = dot3 a b := by
  rw [← (C64_isometry q hq _ _).1, (C64_inverse q hq a).2, (C64_inverse q hq b).2]

theorem inverse_comb (q : Quat) (s t : ℝ) (a b : Vec 3) :
    q.inverseFrameConversion (s • a + t • b) = s • q.inverseFrameConversion a + t • q.inverseFrameConversion b := by
  simp only [inverse_explicit]
  apply vec3_ext <;> simp <;> ring

/-- The axis the sight is tilted about. -/
theorem axis_unit (r : ℝ) : dot3 (vadd (scale (Real.cos r) ![0, 1, 0]) (scale (Real.sin r) ![0, 0, 1])) (vadd (scale (Real.cos r) ![0, 1, 0])
    (scale (Real.sin r) ![0, 0, 1])) = 1 := by
  have := Real.sin_sq_add_cos_sq r
  simp [dot3, vadd, scale]
  linarith

theorem tilt_x (r o : ℝ) : (ofAxisAngle (vadd (scale (Real.cos r) ![0, 1, 0]) (scale (Real.sin r) ![0, 0, 1])) o).inverseFrameConversion ![1, 0, 0] =
    ![Real.cos o, Real.sin o * Real.sin r, -(Real.sin o * Real.cos r)] := by
  rw [(C69_axis_angle _ _ o (axis_unit r)).2.2.1]
  apply vec3_ext <;> simp [dot3, vadd, scale, outerProduct]

theorem roll (s : ℝ) (v : Vec 3) : (ofAxisAngle ![1, 0, 0] s).inverseFrameConversion v =
    ![v 0, Real.cos s * v 1 - Real.sin s * v 2, Real.cos s * v 2 + Real.sin s * v 1] := by
  rw [(C69_axis_angle _ _ s (by simp [dot3])).2.2.1]
  apply vec3_ext <;> simp [dot3, vadd, scale, outerProduct] <;> ring

theorem raw_inverse (c : Config) (i : Input) (v : Vec 3) : (raw c i).inverseFrameConversion v =
    i.i2b.inverseFrameConversion (c.b2c.inverseFrameConversion ((ofAxisAngle ![1, 0, 0] i.sightNoise).inverseFrameConversion
      ((ofAxisAngle (vadd (scale (Real.cos (tau * i.rotationNoise)) ![0, 1, 0]) (scale (Real.sin (tau * i.rotationNoise)) ![0, 0, 1]))
        i.orthogonalNoise).inverseFrameConversion v))) := by
  simp only [raw]
  rw [(C65_composition _ _ v).2, (C65_composition _ _ _).2, (C65_composition _ _ _).2]

theorem raw_unit (c : Config) (i : Input) (h1 : i.i2b.IsUnit) (h2 : c.b2c.IsUnit) : (raw c i).IsUnit := by
  have g := fun p q => (C65_group p q p).2.2.2.2.2.1
  exact g _ _ (g _ _ (g _ _ h1 h2) (C69_axis_angle _ ![0, 0, 0] _ (by simp [dot3])).1) (C69_axis_angle _ ![0, 0, 0] _ (axis_unit _)).1

/-- A direction of the sensor in inertial components: what the attitude and the mounting turn into the component-frame vector `v`. -/
def inertial (c : Config) (i : Input) (v : Vec 3) : Vec 3 := i.i2b.inverseFrameConversion (c.b2c.inverseFrameConversion v)

theorem dot3_dot (a b : Vec 3) : dot3 a b = dot a b := rfl

theorem len_one {a : Vec 3} (h : dot3 a a = 1) : len a = 1 := by
  have h1 := len_sq a
  have h2 : len a ^ 2 = 1 := by rw [h1, ← h]; rfl
  nlinarith [len_nonneg a]

/-- **C133.** The quaternion of one measurement is of unit length; without noise it converts inertial components to component-frame components. The sight
direction it states deviates from the true one exactly by the drawn cross-boresight angle (up to half a turn); without cross-boresight error the sight is exact
and the other axes are turned about it by the drawn boresight angle. -/
theorem C133_measurement (c : Config) (i : Input) (h1 : i.i2b.IsUnit) (h2 : c.b2c.IsUnit) :
    (raw c i).IsUnit ∧
    (i.sightNoise = 0 → i.orthogonalNoise = 0 → ∀ v, (raw c i).frameConversion v = c.b2c.frameConversion (i.i2b.frameConversion v)) ∧
    (|i.orthogonalNoise| ≤ Real.pi → angle ((raw c i).inverseFrameConversion ![1, 0, 0]) (inertial c i ![1, 0, 0]) = |i.orthogonalNoise|) ∧
    (i.orthogonalNoise = 0 → (raw c i).inverseFrameConversion ![1, 0, 0] = inertial c i ![1, 0, 0] ∧
      (raw c i).inverseFrameConversion ![0, 1, 0] =
        Real.cos i.sightNoise • inertial c i ![0, 1, 0] + Real.sin i.sightNoise • inertial c i ![0, 0, 1]) := by
  have hz : ∀ a v : Vec 3, (ofAxisAngle a 0).frameConversion v = v ∧ (ofAxisAngle a 0).inverseFrameConversion v = v := by
    intro a v
    constructor
    · rw [frame_explicit]; apply vec3_ext <;> simp [ofAxisAngle]
    · rw [inverse_explicit]; apply vec3_ext <;> simp [ofAxisAngle]
  refine ⟨raw_unit c i h1 h2, ?_, ?_, ?_⟩
  · intro e1 e2 v
    simp only [raw, e1, e2]
    rw [(C65_composition _ _ v).1, (hz _ _).1, (C65_composition _ _ v).1, (hz _ _).1, (C65_composition _ _ v).1]
  · intro ho
    have u : ∀ v, dot3 v v = 1 → len (inertial c i v) = 1 := by
      intro v hv
      apply len_one
      rw [inertial, inverse_dot _ h1, inverse_dot _ h2, hv]
    have e : (raw c i).inverseFrameConversion ![1, 0, 0] = inertial c i ((ofAxisAngle ![1, 0, 0] i.sightNoise).inverseFrameConversion
        ![Real.cos i.orthogonalNoise, Real.sin i.orthogonalNoise * Real.sin (tau * i.rotationNoise),
          -(Real.sin i.orthogonalNoise * Real.cos (tau * i.rotationNoise))]) := by
      rw [raw_inverse, tilt_x, inertial]
    have hu : len ((raw c i).inverseFrameConversion ![1, 0, 0]) = 1 :=
      len_one (by rw [inverse_dot _ (raw_unit c i h1 h2)]; simp [dot3])
    rw [angle, hu, u _ (by simp [dot3]), e, ← dot3_dot, inertial, inertial, inverse_dot _ h1, inverse_dot _ h2, roll]
    simp only [dot3, Matrix.cons_val_zero, Matrix.cons_val_one, Matrix.cons_val, mul_one, mul_zero, add_zero, div_one]
    rw [← Real.cos_abs, Real.arccos_cos (abs_nonneg _) ho]
  · intro e
    constructor
    · rw [raw_inverse, e, (hz _ _).2, roll]
      simp [inertial]
    · rw [raw_inverse, e, (hz _ _).2, roll, inertial, inertial, ← inverse_comb, ← inverse_comb]
      congr 2
      apply vec3_ext <;> simp

/-- A sensor looking along the body's z axis, with noise. -/
noncomputable def exampleConfig : Config := ⟨⟨0, -Real.sqrt (1 / 2), 0, Real.sqrt (1 / 2)⟩, 0.5, 0.2, 0.1, 0.02⟩

/-- An attitude turned by 120 degrees, 1 mrad of cross-boresight noise. -/
noncomputable def exampleInput : Input := ⟨⟨1/2, 1/2, 1/2, 1/2⟩, ![0, 0, 0.001], ![1.5e11, 0, 0], ![0, 7e6, 0], ![0, 0, 3.8e8], 0.002, 0.3, 0.001⟩

example : exampleInput.i2b.IsUnit ∧ exampleConfig.b2c.IsUnit ∧ |exampleInput.orthogonalNoise| ≤ Real.pi := by
  refine ⟨by norm_num [exampleInput, Quat.IsUnit], ?_, ?_⟩
  · have := Real.sq_sqrt (show (0:ℝ) ≤ 1 / 2 by norm_num)
    simp only [exampleConfig, Quat.IsUnit]
    nlinarith
  · have := Real.pi_gt_three
    norm_num [exampleInput]
    linarith

/-! ## C134: delay and output interval -/

/-- The length of the delay buffer: twice the delay in steps divided by the step time *in seconds*. -/
noncomputable def bufferSize (delay : ℕ) (step : ℝ) : ℕ := max 1 ⌊2 * delay / step⌋₊

/-- How old, in updates, the measurement output at update `k` (counted from 0) is: the delay while the write position is beyond it, otherwise the number of
updates since the buffer was last full. -/
def age (size delay k : ℕ) : ℕ := if (k + 1) % size > delay then delay else (k + 1) % size

/-- The interval in updates; 0 acts as the period of the 64-bit counter. -/
def period (interval : ℕ) : ℕ := if interval = 0 then 2 ^ 64 else interval

/-- The quaternion shown after update `n`: that of the last output update. -/
noncomputable def shown (c : Config) (size delay interval : ℕ) (f : ℕ → Input) (n : ℕ) : Quat :=
  let k := n - n % period interval
  if age size delay k ≤ k then raw c (f (k - age size delay k)) else ⟨0, 0, 0, 1⟩

/-- The invariant after `n` updates. -/
structure Inv (c : Config) (size delay interval : ℕ) (f : ℕ → Input) (n : ℕ) (s : Sensor) : Prop where
  hconfig : s.config = c
  hmaxDelay : s.maxDelay = size
  hdelay : s.delay = delay
  hinterval : s.interval = interval
  hposition : s.position = n % size
  hcount : s.count = n % period interval
  hlength : s.buffer.length = size
  hrecent : ∀ k < n, n ≤ k + size → s.buffer[k % size]? = some (raw c (f k))
  hfresh : ∀ j < size, n ≤ j → s.buffer[j]? = some identity
  hmeasured : ∀ k, n = k + 1 → s.measured = shown c size delay interval f k

theorem succ_mod (n p : ℕ) (hp : 0 < p) : (n + 1) % p = if n % p + 1 = p then 0 else n % p + 1 := by
  have h := Nat.mod_lt n hp
  have e : (n + 1) % p = (n % p + 1) % p := by rw [Nat.mod_add_mod]
  rw [e]
  split
  · rename_i h2; rw [h2, Nat.mod_self]
  · rw [Nat.mod_eq_of_lt (by omega)]

theorem mod_ne {k n p : ℕ} (h1 : k < n) (h2 : n < k + p) : k % p ≠ n % p := by
  intro h
  have := (Nat.modEq_iff_dvd' h1.le).1 h
  have := Nat.le_of_dvd (by omega) this
  omega

theorem shown_next (c : Config) (size delay interval : ℕ) (f : ℕ → Input) (k : ℕ) (h : (k + 1) % period interval ≠ 0) :
    shown c size delay interval f (k + 1) = shown c size delay interval f k := by
  have hp : 0 < period interval := by unfold period; split <;> omega
  have e : k + 1 - (k + 1) % period interval = k - k % period interval := by
    rw [succ_mod _ _ hp] at h ⊢
    split at h
    · exact absurd rfl h
    · rename_i h2; rw [if_neg h2]; omega
  simp only [shown, e]

theorem measure_inv (c : Config) (size delay interval : ℕ) (hs : 0 < size) (hs2 : size < 2 ^ 31) (hd : delay < 2 ^ 31) (hi : interval < 2 ^ 32)
    (f : ℕ → Input) (n : ℕ) (s : Sensor) (h : Inv c size delay interval f n s) :
    ∃ s', s.measure (f n) = .ok s' ∧ Inv c size delay interval f (n + 1) s' ∧ s'.error = allJudgement c (f n) := by
  have hp : 0 < period interval := by unfold period; split <;> omega
  have hlt : n % size < size := Nat.mod_lt _ hs
  -- the update
  have hu : s.update (f n) = .ok { s with error := allJudgement c (f n), buffer := s.buffer.set (n % size) (raw c (f n)), position := (n + 1) % size } := by
    rw [Sensor.update, h.hposition, h.hlength, if_pos hlt, h.hconfig, h.hmaxDelay, Nat.mod_add_mod]
  generalize hb : s.buffer.set (n % size) (raw c (f n)) = buf at hu
  have hlen : buf.length = size := by rw [← hb, List.length_set, h.hlength]
  have hrecent : ∀ k < n + 1, n + 1 ≤ k + size → buf[k % size]? = some (raw c (f k)) := by
    intro k hk1 hk2
    rw [← hb, List.getElem?_set]
    by_cases e : k = n
    · subst e
      rw [if_pos rfl, if_pos (by rw [h.hlength]; exact hlt)]
    · rw [if_neg (mod_ne (by omega) (by omega)).symm]
      exact h.hrecent k (by omega) (by omega)
  have hfresh : ∀ j < size, n + 1 ≤ j → buf[j]? = some identity := by
    intro j hj1 hj2
    rw [← hb, List.getElem?_set, if_neg (by have := Nat.mod_le n size; omega)]
    exact h.hfresh j hj1 (by omega)
  -- the output
  have hdm := Nat.div_add_mod (n + 1) size
  have hlt' : (n + 1) % size < size := Nat.mod_lt _ hs
  have hout : ∀ t : Sensor, t.position = (n + 1) % size → t.delay = delay → t.maxDelay = size → t.buffer = buf →
      t.buffer[t.history.toNat]? = some (if age size delay n ≤ n then raw c (f (n - age size delay n)) else ⟨0, 0, 0, 1⟩) := by
    intro t h1 h2 h3 h4
    rw [h4]
    generalize hq : (n + 1) / size = q at hdm
    obtain ⟨b, hbdef⟩ : ∃ b, b = (n + 1) % size := ⟨_, rfl⟩
    rw [← hbdef] at hdm hlt' h1
    simp only [Sensor.history, h1, h2, h3, age, ← hbdef]
    by_cases hbd : b > delay
    · have e1 : (((b : ℤ) - delay - 1) % 2 ^ 32 + 2 ^ 31) % 2 ^ 32 - 2 ^ 31 = b - delay - 1 := by omega
      rw [e1, if_neg (by omega), if_pos hbd]
      have hn : n + 1 ≥ b := by omega
      rw [if_pos (by omega)]
      have e2 : ((b : ℤ) - delay - 1).toNat = (n - delay) % size := by
        have e3 : n - delay = size * q + (b - delay - 1) := by omega
        rw [e3, Nat.mul_add_mod, Nat.mod_eq_of_lt (by omega)]
        omega
      rw [e2]
      exact hrecent _ (by omega) (by omega)
    · have e1 : (((b : ℤ) - delay - 1) % 2 ^ 32 + 2 ^ 31) % 2 ^ 32 - 2 ^ 31 = b - delay - 1 := by omega
      rw [e1, if_pos (by omega), if_neg hbd]
      have e2 : ((size : ℤ) - 1).toNat = size - 1 := by omega
      rw [e2]
      rcases Nat.eq_zero_or_pos q with hq0 | hq0
      · rw [hq0, mul_zero, zero_add] at hdm
        rw [if_neg (by omega)]
        exact hfresh _ (by omega) (by omega)
      · obtain ⟨q, rfl⟩ : ∃ p, q = p + 1 := ⟨q - 1, by omega⟩
        rw [Nat.mul_add, mul_one] at hdm
        rw [if_pos (by omega)]
        have e3 : n - b = size * q + (size - 1) := by omega
        have e4 : size - 1 = (n - b) % size := by rw [e3, Nat.mul_add_mod, Nat.mod_eq_of_lt (by omega)]
        rw [e4]
        exact hrecent _ (by omega) (by omega)
  -- the counter
  have hcount : ∀ t : Sensor, t.count = n % period interval → t.interval = interval → t.advance = { t with count := (n + 1) % period interval } := by
    intro t h1 h2
    have hc := Nat.mod_lt n hp
    have hp2 : period interval ≤ 2 ^ 64 := by unfold period; split <;> omega
    rw [Sensor.advance, h1, h2, succ_mod _ _ hp]
    by_cases e : n % period interval + 1 = period interval
    · rw [if_pos e, e, if_pos]
      unfold period
      split
      · rename_i h0; rw [h0]; exact Nat.mod_self _
      · exact Nat.mod_eq_of_lt (by omega)
    · rw [if_neg e, if_neg]
      · rw [Nat.mod_eq_of_lt (by omega)]
      · rw [Nat.mod_eq_of_lt (by omega)]
        intro h3
        apply e
        rw [h3]
        unfold period
        rw [if_neg (by omega)]
  by_cases h0 : n % period interval = 0
  · have hk : n - n % period interval = n := by omega
    have ho := hout { s with error := allJudgement c (f n), buffer := buf, position := (n + 1) % size } rfl h.hdelay h.hmaxDelay rfl
    refine ⟨{ s with error := allJudgement c (f n), buffer := buf, position := (n + 1) % size, count := (n + 1) % period interval,
                     measured := if age size delay n ≤ n then raw c (f (n - age size delay n)) else ⟨0, 0, 0, 1⟩ }, ?_, ?_, rfl⟩
    · rw [Sensor.measure, hu, Res.bind, Sensor.output, if_pos (by rw [← h0]; exact h.hcount), ho]
      exact congrArg Res.ok (hcount _ h.hcount h.hinterval)
    · refine ⟨h.hconfig, h.hmaxDelay, h.hdelay, h.hinterval, rfl, rfl, hlen, hrecent, hfresh, ?_⟩
      intro k hk2
      obtain rfl : n = k := by omega
      simp only [shown, hk]
  · refine ⟨{ s with error := allJudgement c (f n), buffer := buf, position := (n + 1) % size, count := (n + 1) % period interval }, ?_, ?_, rfl⟩
    · rw [Sensor.measure, hu, Res.bind, Sensor.output, if_neg (by rw [← h.hcount] at h0; exact h0)]
      exact congrArg Res.ok (hcount _ h.hcount h.hinterval)
    · refine ⟨h.hconfig, h.hmaxDelay, h.hdelay, h.hinterval, rfl, rfl, hlen, hrecent, hfresh, ?_⟩
      intro k hk2
      obtain rfl : n = k := by omega
      have hn : n ≠ 0 := by
        rintro rfl
        simp at h0
      obtain ⟨j, rfl⟩ : ∃ j, n = j + 1 := ⟨n - 1, by omega⟩
      rw [shown_next _ _ _ _ _ _ h0]
      exact h.hmeasured j rfl

theorem run_append (s : Sensor) (l : List Input) (i : Input) : s.run (l ++ [i]) = (s.run l).bind fun s => s.measure i := by
  induction l generalizing s with
  | nil =>
    show (s.measure i).bind _ = _
    simp only [Sensor.run, Res.bind]
    rcases s.measure i with v | _ | _ | _ <;> rfl
  | cons j l ih =>
    simp only [List.cons_append, Sensor.run]
    rcases s.measure j with v | _ | _ | _ <;> simp only [Res.bind]
    exact ih v

/-- **C134.** For every delay and interval in updates and every positive step time (with a buffer that fits into `int`), after any number of updates the sensor
shows the measurement of `age` updates before the last output update (output updates are the multiples of the interval), the identity before there is one, and
the error flag judges the situation at the last update, whatever the delay. -/
theorem C134_delay (c : Config) (step : ℝ) (delay interval : ℕ) (hstep : 0 < step) (hfit : 2 * delay / step < 2 ^ 31) (hd : delay < 2 ^ 31)
    (hi : interval < 2 ^ 32) :
    ∃ s0, Sensor.new c step delay interval = .ok s0 ∧ s0.error = true ∧ s0.measured = ⟨0, 0, 0, 1⟩ ∧
      ∀ (f : ℕ → Input) (n : ℕ), ∃ s, s0.run ((List.range (n + 1)).map f) = .ok s ∧
        s.measured = shown c (bufferSize delay step) delay interval f n ∧ s.error = allJudgement c (f n) := by
  have hnn : (0 : ℝ) ≤ 2 * delay / step := by positivity
  have hz : toInt32 (((delay * 2 % 2 ^ 32 : ℕ) : ℝ) / step) = .ok (⌊2 * (delay : ℝ) / step⌋₊ : ℤ) := by
    have e : (((delay * 2 % 2 ^ 32 : ℕ) : ℝ) / step) = 2 * delay / step := by
      rw [Nat.mod_eq_of_lt (by omega)]
      push_cast
      ring
    rw [e]
    have e2 : truncZ (2 * (delay : ℝ) / step) = (⌊2 * (delay : ℝ) / step⌋₊ : ℤ) := by
      rw [truncZ, if_pos hnn, Int.natCast_floor_eq_floor hnn]
    have e3 : ⌊2 * (delay : ℝ) / step⌋₊ < 2 ^ 31 := by
      rw [Nat.floor_lt hnn]
      norm_num at hfit ⊢
      exact hfit
    rw [toInt32, e2, if_pos (by constructor <;> omega)]
  have hsize : (if (⌊2 * (delay : ℝ) / step⌋₊ : ℤ) ≤ 0 then 1 else (⌊2 * (delay : ℝ) / step⌋₊ : ℤ).toNat) = bufferSize delay step := by
    rw [bufferSize]
    split
    · rename_i h; rw [max_eq_left (by omega)]
    · rename_i h; rw [max_eq_right (by omega)]; omega
  have hs : 0 < bufferSize delay step := by rw [bufferSize]; omega
  have hs2 : bufferSize delay step < 2 ^ 31 := by
    rw [bufferSize]
    have e3 : ⌊2 * (delay : ℝ) / step⌋₊ < 2 ^ 31 := by
      rw [Nat.floor_lt hnn]
      norm_num at hfit ⊢
      exact hfit
    omega
  refine ⟨{ config := c, measured := identity, maxDelay := bufferSize delay step, buffer := List.replicate (bufferSize delay step) identity, position := 0,
            delay := delay, interval := interval, count := 0, error := true }, ?_, rfl, rfl, ?_⟩
  · rw [Sensor.new, if_neg hstep.ne', hz]
    simp only [Res.bind, hsize]
  · intro f
    generalize hs0 : (Sensor.mk _ _ _ _ _ _ _ _ _) = s0
    have h0 : Inv c (bufferSize delay step) delay interval f 0 s0 := by
      subst hs0
      refine ⟨rfl, rfl, rfl, rfl, by simp, by simp, by simp, by intro k hk; omega, ?_, by intro k hk; omega⟩
      intro j hj _
      simp only
      rw [List.getElem?_replicate, if_pos hj]
    have key : ∀ n, ∃ s, s0.run ((List.range n).map f) = .ok s ∧ Inv c (bufferSize delay step) delay interval f n s := by
      intro n
      induction n with
      | zero => exact ⟨s0, rfl, h0⟩
      | succ n ih =>
        obtain ⟨s, h1, h2⟩ := ih
        obtain ⟨s', h3, h4, -⟩ := measure_inv c _ delay interval hs hs2 hd hi f n s h2
        refine ⟨s', ?_, h4⟩
        rw [List.range_succ, List.map_append, List.map_singleton, run_append, h1]
        exact h3
    intro n
    obtain ⟨s, h1, h2⟩ := key n
    obtain ⟨s', h3, h4, h5⟩ := measure_inv c _ delay interval hs hs2 hd hi f n s h2
    refine ⟨s', ?_, h4.hmeasured n rfl, h5⟩
    rw [List.range_succ, List.map_append, List.map_singleton, run_append, h1]
    exact h3

example : (0 : ℝ) < 0.5 ∧ 2 * ((2 : ℕ) : ℝ) / 0.5 < 2 ^ 31 ∧ bufferSize 2 0.5 = 8 := by
  refine ⟨by norm_num, by norm_num, ?_⟩
  rw [bufferSize, show 2 * ((2 : ℕ) : ℝ) / 0.5 = ((8 : ℕ) : ℝ) by norm_num, Nat.floor_natCast]
  rfl

/-- With output at every update: the configured delay is kept only while the write position is beyond it; whenever the buffer is full the current measurement
is shown without delay; and when the step time is two seconds or more (for one step of delay: when the buffer has no more than `delay` elements) the delay is
never the configured one. -/
theorem C134_delay_not_kept (c : Config) (size delay : ℕ) (hs : 0 < size) (f : ℕ → Input) (n : ℕ) :
    ((n + 1) % size > delay → shown c size delay 1 f n = raw c (f (n - delay))) ∧
    (size ∣ n + 1 → shown c size delay 1 f n = raw c (f n)) ∧
    (size ≤ delay → size ≤ n + 1 → shown c size delay 1 f n = raw c (f (n - (n + 1) % size))) := by
  have hp : period 1 = 1 := rfl
  have hk : n - n % period 1 = n := by rw [hp, Nat.mod_one]; rfl
  have hle := Nat.mod_le (n + 1) size
  have hlt := Nat.mod_lt (n + 1) hs
  refine ⟨?_, ?_, ?_⟩
  · intro h
    simp only [shown, hk, age, if_pos h]
    rw [if_pos (by omega)]
  · intro h
    have h0 := Nat.mod_eq_zero_of_dvd h
    simp only [shown, hk, age, h0]
    simp
  · intro h1 h2
    simp only [shown, hk, age]
    have h3 : ¬ (n + 1) % size > delay := by omega
    rw [if_neg h3, if_pos]
    omega

/-- A delay of 1 s with steps of 0.5 s: after 8 updates the delay of 2 updates is not kept. -/
example (c : Config) (f : ℕ → Input) : shown c 8 2 1 f 4 = raw c (f 2) ∧ shown c 8 2 1 f 7 = raw c (f 7) ∧ shown c 8 2 1 f 8 = raw c (f 7) ∧
    shown c 8 2 1 f 9 = raw c (f 7) ∧ shown c 8 2 1 f 10 = raw c (f 8) := by
  simp [shown, age, period]

/-! ## C135: error flag -/

theorem normalized_zero : calcNormalizedVector (0 : Vec 3) = 0 := by
  rw [calcNormalizedVector, if_pos (by rw [Kepler.calcNorm_len]; simp [len])]

theorem angleVector_eq (a b : Vec 3) : angleVector a b = angle a b := by
  rw [angleVector, angle, Kepler.innerProduct_dot]
  by_cases ha : a = 0
  · subst ha
    rw [normalized_zero]
    simp [dot]
  by_cases hb : b = 0
  · subst hb
    rw [normalized_zero]
    simp [dot]
  obtain ⟨-, h1⟩ := Dist.normalized_len ha
  obtain ⟨-, h2⟩ := Dist.normalized_len hb
  have la := len_pos ha
  have lb := len_pos hb
  congr 1
  rw [eq_div_iff (by positivity)]
  conv_rhs => rw [← h1, ← h2]
  simp only [dot, Pi.smul_apply, smul_eq_mul]
  ring

/-- **C135.** The error flag after an update is set exactly when the sight direction (the body direction that the mounting turns into the component x axis) is
closer than the limit to the Sun, to the Moon's centre, or to the Earth's limb as estimated by `arctan(R/d)`, or the body rate exceeds its limit. -/
theorem C135_error_flag (c : Config) (i : Input) :
    allJudgement c i = true ↔
      let sight := c.b2c.inverseFrameConversion ![1, 0, 0]
      angle i.sun sight < c.sunAngle ∨ angle i.earth sight - Complex.arg ⟨len i.earth, 6378136.6⟩ < c.earthAngle ∨ angle i.moon sight < c.moonAngle ∨
        c.rateLimit < len i.omega := by
  have hs : sightB c = c.b2c.inverseFrameConversion ![1, 0, 0] := (Rel.conj_frame _ _).1
  simp only [allJudgement, sunJudgement, earthJudgement, moonJudgement, rateJudgement, angleVector_eq, hs, Kepler.calcNorm_len, atan2]
  by_cases h1 : angle i.sun (c.b2c.inverseFrameConversion ![1, 0, 0]) < c.sunAngle <;>
  by_cases h2 : angle i.earth (c.b2c.inverseFrameConversion ![1, 0, 0]) - Complex.arg ⟨len i.earth, 6378136.6⟩ < c.earthAngle <;>
  by_cases h3 : angle i.moon (c.b2c.inverseFrameConversion ![1, 0, 0]) < c.moonAngle <;>
  by_cases h4 : c.rateLimit < len i.omega <;> simp [h1, h2, h3, h4]

theorem arg_arctan {d r : ℝ} (hd : 0 < d) : Complex.arg ⟨d, r⟩ = Real.arctan (r / d) := by
  rw [Real.arctan_eq_arcsin, Complex.arg_of_re_nonneg hd.le]
  congr 1
  have : ‖(⟨d, r⟩ : ℂ)‖ = d * Real.sqrt (1 + (r / d) ^ 2) := by
    rw [Complex.norm_eq_sqrt_sq_add_sq]
    have : d ^ 2 + r ^ 2 = d ^ 2 * (1 + (r / d) ^ 2) := by field_simp
    simp only
    rw [this, Real.sqrt_mul (by positivity), Real.sqrt_sq hd.le]
  rw [this]
  have := Real.sqrt_pos.2 (show 0 < 1 + (r / d) ^ 2 by positivity)
  field_simp

/-- The ray from the spacecraft along `sight` meets the ball of radius `r` about `centre`. -/
def Hits (sight centre : Fin 3 → ℝ) (r : ℝ) : Prop := ∃ t : ℝ, 0 < t ∧ len (fun k => t * sight k - centre k) < r

theorem hits_of_angle {sight centre : Fin 3 → ℝ} {r : ℝ} (hr : 0 < r) (hd : r < len centre) (hs : len sight = 1)
    (h : angle centre sight < apparent r centre) : Hits sight centre r := by
  have hlen : 0 < len centre := by linarith
  rw [angle, apparent, hs, mul_one] at h
  have hb := Env.dot_bound centre sight hlen (by rw [hs]; norm_num)
  rw [hs, mul_one] at hb
  have hx : r / len centre ≤ 1 := by rw [div_le_one hlen]; exact hd.le
  have h1 : Real.cos (Real.arcsin (r / len centre)) < dot centre sight / len centre := by
    have := Real.cos_lt_cos_of_nonneg_of_le_pi_div_two (Real.arccos_nonneg _) (Real.arcsin_le_pi_div_two _) h
    rwa [Real.cos_arccos hb.1 hb.2] at this
  rw [Real.cos_arcsin, lt_div_iff₀ hlen] at h1
  have hq : 0 ≤ 1 - (r / len centre) ^ 2 := by
    have : 0 ≤ r / len centre := by positivity
    nlinarith
  have hsq := Real.sq_sqrt hq
  have hn := Real.sqrt_nonneg (1 - (r / len centre) ^ 2)
  have h2 : (len centre) ^ 2 - r ^ 2 < (dot centre sight) ^ 2 := by
    have h3 : (Real.sqrt (1 - (r / len centre) ^ 2) * len centre) ^ 2 < (dot centre sight) ^ 2 := by
      apply pow_lt_pow_left₀ h1 (by positivity) (by norm_num)
    rw [mul_pow, hsq] at h3
    have : (1 - (r / len centre) ^ 2) * len centre ^ 2 = len centre ^ 2 - r ^ 2 := by field_simp
    linarith
  have hpos : 0 < dot centre sight := lt_of_le_of_lt (by positivity) h1
  refine ⟨dot centre sight, hpos, ?_⟩
  have e1 := len_sq centre
  have e2 := len_sq sight
  rw [hs] at e2
  have e3 := len_sq (fun k => dot centre sight * sight k - centre k)
  have e4 : len (fun k => dot centre sight * sight k - centre k) ^ 2 < r ^ 2 := by
    rw [e3]
    simp only [dot] at *
    nlinarith
  exact lt_of_pow_lt_pow_left₀ 2 hr.le e4

/-- The apparent radius of the Earth is underestimated at every altitude: there are sight directions that hit the Earth and for which the flag is not set even
though the angle to the limb must not be negative. -/
theorem C135_earth_limb (earth : Vec 3) (hd : 6378136.6 < len earth) :
    Complex.arg ⟨len earth, 6378136.6⟩ < apparent 6378136.6 earth ∧
    ∀ (c : Config) (i : Input), c.b2c.IsUnit → i.earth = earth → c.earthAngle = 0 → c.sunAngle = 0 → c.moonAngle = 0 → len i.omega ≤ c.rateLimit →
      let sight := c.b2c.inverseFrameConversion ![1, 0, 0]
      Complex.arg ⟨len earth, 6378136.6⟩ ≤ angle earth sight → angle earth sight < apparent 6378136.6 earth →
      Hits sight earth 6378136.6 ∧ allJudgement c i = false := by
  have hlen : (0:ℝ) < len earth := by linarith
  constructor
  · rw [arg_arctan hlen, apparent, Real.arctan_eq_arcsin]
    have hx : 0 < 6378136.6 / len earth := by positivity
    have hx1 : 6378136.6 / len earth < 1 := by rw [div_lt_one hlen]; exact hd
    have hsq : 1 < Real.sqrt (1 + (6378136.6 / len earth) ^ 2) := by
      rw [Real.lt_sqrt (by norm_num)]
      nlinarith [sq_nonneg (6378136.6 / len earth), mul_pos hx hx]
    apply Real.strictMonoOn_arcsin
    · constructor
      · have : 0 < 6378136.6 / len earth / Real.sqrt (1 + (6378136.6 / len earth) ^ 2) := by positivity
        linarith
      · rw [div_le_one (by linarith)]; linarith
    · constructor <;> linarith
    · exact div_lt_self hx hsq
  · intro c i hc he h0 h1 h2 h3 sight h4 h5
    constructor
    · apply hits_of_angle (by norm_num) hd _ h5
      apply len_one
      rw [inverse_dot _ hc]
      simp [dot3]
    · rw [Bool.eq_false_iff, Ne, C135_error_flag]
      have n1 := Real.arccos_nonneg (dot i.sun sight / (len i.sun * len sight))
      have n2 := Real.arccos_nonneg (dot i.moon sight / (len i.moon * len sight))
      rintro (h | h | h | h)
      · rw [h1] at h; exact absurd h (not_lt.2 n1)
      · rw [he, h0] at h
        linarith
      · rw [h2] at h; exact absurd h (not_lt.2 n2)
      · linarith

/-- At 7000 km from the centre the estimate is 42 degrees and the limb is 65 degrees from the centre: a direction 57 degrees from it meets the conditions. -/
example : ∃ (c : Config) (earth : Vec 3), c.b2c.IsUnit ∧ 6378136.6 < len earth ∧
    Complex.arg ⟨len earth, 6378136.6⟩ ≤ angle earth (c.b2c.inverseFrameConversion ![1, 0, 0]) ∧
    angle earth (c.b2c.inverseFrameConversion ![1, 0, 0]) < apparent 6378136.6 earth := by
  have hl : len (![4.2e6, 5.6e6, 0] : Vec 3) = 7e6 := by
    have h := len_sq (![4.2e6, 5.6e6, 0] : Vec 3)
    simp [dot] at h
    have := len_nonneg (![4.2e6, 5.6e6, 0] : Vec 3)
    nlinarith
  have hx : len (![1, 0, 0] : Vec 3) = 1 := len_one (by simp [dot3])
  have hs : Quat.inverseFrameConversion ⟨0, 0, 0, 1⟩ ![1, 0, 0] = ![1, 0, 0] := by
    rw [inverse_explicit]; apply vec3_ext <;> simp
  refine ⟨⟨⟨0, 0, 0, 1⟩, 0, 0, 0, 0⟩, ![4.2e6, 5.6e6, 0], by simp [Quat.IsUnit], by rw [hl]; norm_num, ?_, ?_⟩
  · rw [hs, hl, arg_arctan (by norm_num), angle, hl, hx]
    have e : dot (![4.2e6, 5.6e6, 0] : Vec 3) ![1, 0, 0] / (7e6 * 1) = 3 / 5 := by simp [dot]; norm_num
    rw [e]
    have h1 : Real.arctan (6378136.6 / 7e6) ≤ Real.pi / 4 := by
      rw [← Real.arctan_one]
      exact Real.arctan_strictMono.monotone (by norm_num)
    have h2 : Real.pi / 4 ≤ Real.arccos (3 / 5) := by
      have h3 : Real.arccos (Real.cos (Real.pi / 4)) = Real.pi / 4 := Real.arccos_cos (by linarith [Real.pi_pos]) (by linarith [Real.pi_pos])
      rw [← h3]
      apply Real.arccos_le_arccos
      rw [Real.cos_pi_div_four]
      nlinarith [Real.sq_sqrt (show (0:ℝ) ≤ 2 by norm_num), Real.sqrt_nonneg 2]
    linarith
  · rw [hs, apparent, hl, angle, hl, hx]
    have e : dot (![4.2e6, 5.6e6, 0] : Vec 3) ![1, 0, 0] / (7e6 * 1) = 3 / 5 := by simp [dot]; norm_num
    rw [e, Real.arccos_eq_arcsin (by norm_num), show Real.sqrt (1 - (3 / 5 : ℝ) ^ 2) = 4 / 5 by
      rw [show (1 - (3 / 5 : ℝ) ^ 2) = (4 / 5) ^ 2 by norm_num, Real.sqrt_sq (by norm_num)]]
    exact Real.strictMonoOn_arcsin (by constructor <;> norm_num) (by constructor <;> norm_num) (by norm_num)

end S2E.Star
