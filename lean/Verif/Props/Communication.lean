import Verif.Model.Communication
import Verif.Props.GroundStation
import Verif.Props.LinAlg
/-!
# C128, C129: link budget and antenna patterns
-/
namespace S2E.Comm
open S2E.Ground S2E.TwoBody S2E.Kepler S2E.Shadow

/-! ## Specification -/

/-- A quantity given in decibels, as a ratio. -/
noncomputable def ratio (x : ℝ) : ℝ := (10 : ℝ) ^ (x / 10)

/-- Friis' formula divided by the noise density: the carrier-to-noise-density ratio in Hz of a link with transmitted power `P`, total gain `G` (gains of
both antennas times all losses), wavelength `lam`, distance `d` and receiver temperature `T`. -/
noncomputable def friis (P G lam d k T : ℝ) : ℝ := P * G * (lam / (4 * Real.pi * d)) ^ 2 / (k * T)

theorem ratio_add (x y : ℝ) : ratio (x + y) = ratio x * ratio y := by
  rw [ratio, add_div, Real.rpow_add (by norm_num)]; rfl

theorem ratio_log {x : ℝ} (h : 0 < x) : ratio (10 * Real.logb 10 x) = x := by
  rw [ratio, mul_div_cancel_left₀ _ (by norm_num), Real.rpow_logb (by norm_num) (by norm_num) h]

theorem ratio_neg (x : ℝ) : ratio (-x) = (ratio x)⁻¹ := by
  rw [ratio, neg_div, Real.rpow_neg (by norm_num)]; rfl

theorem ratio_pos (x : ℝ) : 0 < ratio x := Real.rpow_pos_of_pos (by norm_num) _

theorem ratio_strictMono : StrictMono ratio := fun x y h => by
  unfold ratio
  exact Real.rpow_lt_rpow_of_exponent_lt (by norm_num) (by linarith)

/-- The receive margin and maximum bit rate reported for a carrier-to-noise-density ratio `C` (in Hz). -/
theorem ratio_ratioLog {C : ℝ} (h : 0 < C) (x : ℝ) : ratio x = C ↔ x = 10 * Real.logb 10 C := by
  constructor
  · intro hx
    rw [← hx, ratio, Real.logb_rpow (by norm_num) (by norm_num)]; ring
  · rintro rfl; exact ratio_log h

/-! ## C128 -/

theorem calcCn0_eq (k : Calculator) (c : Craft) (s : Station) (tx rx : Antenna) (gt gr : ℝ) (ht : tx.isTransmitter = true) (hr : rx.isReceiver = true)
    (h1 : calcAntennaGain tx.tx (antennaAngles (directionOnCraft c tx s)).1 (antennaAngles (directionOnCraft c tx s)).2 = .ok gt)
    (h2 : calcAntennaGain rx.rx (antennaAngles (directionOnStation c s rx)).1 (antennaAngles (directionOnStation c s rx)).2 = .ok gr) :
    k.calcCn0 c tx s rx = .ok (tx.eirp + gt + lossSpace c tx s + k.lossPolarization + k.lossAtmosphere + k.lossRainfall + k.lossOthers + (rx.gt + gr) -
      10 * Real.logb 10 boltzmann) := by
  simp only [Calculator.calcCn0, ht, hr, Antenna.calcTxEirp, Antenna.calcRxGt, h1, h2, Res.bind]
  rfl

theorem lossSpace_ratio (c : Craft) (tx : Antenna) (s : Station) (hf : 0 < tx.frequency) (hd : c.positionI ≠ s.positionI) :
    ratio (lossSpace c tx s) = (3e8 / (tx.frequency * 1e6) / (4 * Real.pi * len (c.positionI - s.positionI))) ^ 2 := by
  have hD : 0 < len (c.positionI - s.positionI) := len_pos (sub_ne_zero.2 hd)
  have hpi := Real.pi_pos
  simp only [lossSpace, calcNorm_len]
  rw [show (vsub c.positionI s.positionI : Fin 3 → ℝ) = c.positionI - s.positionI from rfl]
  generalize len (c.positionI - s.positionI) = D at *
  generalize tx.frequency = f at *
  have hx : 0 < 4 * Real.pi * (D / 1000) / (300 / f / 1000) := by positivity
  rw [show (-20 : ℝ) * Real.logb 10 (4 * Real.pi * (D / 1000) / (300 / f / 1000)) =
    -(10 * Real.logb 10 (4 * Real.pi * (D / 1000) / (300 / f / 1000)) + 10 * Real.logb 10 (4 * Real.pi * (D / 1000) / (300 / f / 1000))) by ring,
    ratio_neg, ratio_add, ratio_log hx]
  field_simp
  norm_num

theorem sum_ratio (P T K L gt gr a b c d e f g h : ℝ) (hP : 0 < P) (hT : 0 < T) (hK : 0 < K) :
    ratio (10 * Real.logb 10 P + a + b + gt + L + e + f + g + h + (c + d - 10 * Real.logb 10 T + gr) - 10 * Real.logb 10 K) =
      P * (ratio gt * ratio gr * ratio (a + b + c + d + e + f + g + h)) * ratio L / (K * T) := by
  simp only [sub_eq_add_neg, ratio_add, ratio_neg, ratio_log hP, ratio_log hT, ratio_log hK]
  field_simp

/-- **C128 (carrier to noise density).** For a transmitting antenna on the spacecraft and a receiving one on the ground whose gains in the calculated
directions are `gt`, `gr` (dB), the carrier-to-noise-density ratio the calculator works with is the one of Friis' formula: transmitter power, gains, all
configured losses (in decibels, added, so a loss is a negative number), wavelength `3e8 / f` (the speed of light rounded to 300 Mm/s), the distance of the
inertial positions, Boltzmann's constant and the receiver's noise temperature. -/
theorem C128_cn0 (k : Calculator) (c : Craft) (s : Station) (tx rx : Antenna) (bt br : Quat) (f B P T ft fr tT tP : ℝ) (txp rxp txr rxt : Params)
    (r1 t2 : Bool) (gt gr : ℝ) (htx : tx = Antenna.new bt true r1 f B P txp tT txr) (hrx : rx = Antenna.new br t2 true fr ft tP rxt T rxp)
    (hf : 0 < f) (hP : 0 < P) (hT : 0 < T) (hd : c.positionI ≠ s.positionI)
    (hgt : calcAntennaGain txp (antennaAngles (directionOnCraft c tx s)).1 (antennaAngles (directionOnCraft c tx s)).2 = .ok gt)
    (hgr : calcAntennaGain rxp (antennaAngles (directionOnStation c s rx)).1 (antennaAngles (directionOnStation c s rx)).2 = .ok gr) :
    ∃ cn0, k.calcCn0 c tx s rx = .ok cn0 ∧
      ratio cn0 = friis P (ratio gt * ratio gr * ratio (txp.lossFeeder + txp.lossPointing + rxp.lossFeeder + rxp.lossPointing + k.lossPolarization +
        k.lossAtmosphere + k.lossRainfall + k.lossOthers)) (3e8 / (f * 1e6)) (len (c.positionI - s.positionI)) boltzmann T := by
  have t1 : tx.isTransmitter = true := by rw [htx]; rfl
  have t2 : rx.isReceiver = true := by rw [hrx]; rfl
  have t3 : tx.tx = txp := by rw [htx]; rfl
  have t4 : rx.rx = rxp := by rw [hrx]; rfl
  have t5 : tx.frequency = f := by rw [htx]; rfl
  have t6 : tx.eirp = 10 * Real.logb 10 P + txp.lossFeeder + txp.lossPointing := by rw [htx]; rfl
  have t7 : rx.gt = rxp.lossFeeder + rxp.lossPointing - 10 * Real.logb 10 T := by rw [hrx]; rfl
  refine ⟨_, calcCn0_eq k c s tx rx gt gr t1 t2 (by rw [t3]; exact hgt) (by rw [t4]; exact hgr), ?_⟩
  have hk : 0 < boltzmann := by unfold boltzmann; norm_num
  have hs := lossSpace_ratio c tx s (by rw [t5]; exact hf) hd
  rw [t5] at hs
  rw [t6, t7]
  rw [friis, ← hs]
  exact sum_ratio P T boltzmann _ gt gr _ _ _ _ _ _ _ _ hP hT hk

/-- Non-vacuous: with isotropic antennas the hypotheses on the gains hold in every direction. -/
example (k : Calculator) (c : Craft) (s : Station) (q : Quat) (p : Pattern) (hd : c.positionI ≠ s.positionI) :
    ∃ cn0, k.calcCn0 c (Antenna.new q true false 8200 100000 1 ⟨8, -1.5, 0, .isotropic, p⟩ 0 ⟨0, 0, 0, .isotropic, p⟩) s
      (Antenna.new q false true 8200 0 0 ⟨0, 0, 0, .isotropic, p⟩ 230 ⟨43.27, -0.5, -0.5, .isotropic, p⟩) = .ok cn0 := by
  obtain ⟨cn0, h, -⟩ := C128_cn0 k c s _ _ q q 8200 100000 1 230 0 8200 0 0 ⟨8, -1.5, 0, .isotropic, p⟩ ⟨43.27, -0.5, -0.5, .isotropic, p⟩
    ⟨0, 0, 0, .isotropic, p⟩ ⟨0, 0, 0, .isotropic, p⟩ false false 8 43.27 rfl rfl (by norm_num) (by norm_num) (by norm_num) hd rfl rfl
  exact ⟨cn0, h⟩

/-- **C128 (maximum bit rate and margin).** For a positive carrier-to-noise-density ratio the reported maximum bit rate is the bit rate in Mbps at which
the energy per bit over noise density exceeds the requirement (Eb/N0, deterioration, coding gain) by the required margin, or zero if that rate is not above
1 bit per second; and a spacecraft antenna with more than 1 bit per second has at least the required margin exactly when its bit rate does not exceed the
reported maximum. -/
theorem C128_bitrate (k : Calculator) (tx : Antenna) (cn0 : ℝ) (hb : 1 < tx.bitrate) :
    (0 < k.bitrateOf cn0 → ratio cn0 / (k.bitrateOf cn0 * 1e6) = ratio (k.ebn0 + k.deterioration + k.codingGain + k.marginRequirement)) ∧
    (k.bitrateOf cn0 = 0 ↔ ratio cn0 / ratio (k.ebn0 + k.deterioration + k.codingGain + k.marginRequirement) ≤ 1) ∧
    (k.marginRequirement ≤ k.marginOf tx cn0 ↔ tx.bitrate ≤ k.bitrateOf cn0 * 1e6) ∧
    ratio (k.marginOf tx cn0) = ratio cn0 / tx.bitrate / ratio (k.ebn0 + k.deterioration + k.codingGain) := by
  have hb0 : 0 < tx.bitrate := by linarith
  set m := cn0 - (k.ebn0 + k.deterioration + k.codingGain) - k.marginRequirement with hm
  have hq : ratio cn0 / ratio (k.ebn0 + k.deterioration + k.codingGain + k.marginRequirement) = ratio m := by
    rw [hm, sub_sub, sub_eq_add_neg, ratio_add cn0, ratio_neg]; rfl
  have h1 : ratio 0 = 1 := by simp [ratio]
  have hbr : k.bitrateOf cn0 = if m > 0 then ratio m / 1000000 else 0 := rfl
  have hl : 10 * Real.logb 10 tx.bitrate > 0 := by
    have := Real.logb_pos (b := 10) (by norm_num) hb
    linarith
  have hmb : k.marginRequirement ≤ k.marginOf tx cn0 ↔ 10 * Real.logb 10 tx.bitrate ≤ m := by
    simp only [Calculator.marginOf, hm]
    constructor <;> intro <;> linarith
  have hrl : 10 * Real.logb 10 tx.bitrate ≤ m ↔ tx.bitrate ≤ ratio m := by
    rw [← ratio_strictMono.le_iff_le, ratio_log hb0]
  refine ⟨fun h => ?_, ?_, ?_, ?_⟩
  · have hp := ratio_pos cn0
    have hp2 := ratio_pos (k.ebn0 + k.deterioration + k.codingGain + k.marginRequirement)
    by_cases hm0 : m > 0
    · rw [hbr, if_pos hm0, ← hq]
      norm_num
      field_simp
    · rw [hbr, if_neg hm0] at h; exact absurd h (lt_irrefl _)
  · rw [hq, ← h1, ratio_strictMono.le_iff_le, hbr]
    by_cases hm0 : m > 0
    · rw [if_pos hm0]
      have := ratio_pos m
      constructor
      · intro h; exact absurd h (by positivity)
      · intro h; linarith
    · rw [if_neg hm0]; simp at hm0; simp [hm0]
  · rw [hmb, hrl, hbr]
    by_cases hm0 : m > 0
    · rw [if_pos hm0]
      norm_num
    · rw [if_neg hm0, ← hrl]
      constructor
      · intro h; linarith
      · intro h; linarith
  · simp only [Calculator.marginOf]
    rw [show cn0 - (k.ebn0 + k.deterioration + k.codingGain + 10 * Real.logb 10 tx.bitrate) =
      cn0 + -(10 * Real.logb 10 tx.bitrate) + -(k.ebn0 + k.deterioration + k.codingGain) by ring, ratio_add, ratio_add, ratio_neg, ratio_neg, ratio_log hb0]
    rfl

/-- Non-vacuous: with a ratio of 70 dBHz and a requirement of 10 dB in all the maximum is 1 Mbps. -/
example : (Calculator.new 0 0 0 0 7 1 0 2 1000).bitrateOf 70 = 1 := by
  simp only [Calculator.bitrateOf, Calculator.new]
  norm_num

/-- **C128 (update).** While the spacecraft is not visible from the station the maximum bit rate is 0 and the margin -10000 dB; while visible they are the
ones for the calculated ratio. For an antenna that does not transmit or one that does not receive the ratio is taken as 0 dBHz. -/
theorem C128_update (k : Calculator) (c : Craft) (tx rx : Antenna) (s : Station) :
    (s.isVisible c.id = .ok false → ∃ k', k.update c tx s rx = .ok k' ∧ k'.maxBitrate = 0 ∧ k'.receiveMargin = -10000) ∧
    (∀ cn0, s.isVisible c.id = .ok true → k.calcCn0 c tx s rx = .ok cn0 →
      ∃ k', k.update c tx s rx = .ok k' ∧ k'.maxBitrate = k.bitrateOf cn0 ∧ k'.receiveMargin = k.marginOf tx cn0) ∧
    (tx.isTransmitter = false ∨ rx.isReceiver = false → k.calcCn0 c tx s rx = .ok 0) ∧ (s.isVisible c.id = .throws → k.update c tx s rx = .throws) := by
  refine ⟨fun h => ?_, fun cn0 h1 h2 => ?_, fun h => ?_, fun h => ?_⟩
  · simp only [Calculator.update, h, Res.bind]; exact ⟨_, rfl, rfl, rfl⟩
  · simp only [Calculator.update, h1, h2, Res.bind]; exact ⟨_, rfl, rfl, rfl⟩
  · rw [Calculator.calcCn0, if_pos]
    rcases h with h | h <;> simp [h]
  · simp only [Calculator.update, h, Res.bind]

/-- **C128 (the downlink bit rate setting).** The setting described as "Downlink bitrate to calculate receive margin" has no effect on any result: the
margin uses the transmitting antenna's bit rate. -/
theorem C128_downlink_bitrate_ignored (k : Calculator) (b : ℝ) (c : Craft) (tx rx : Antenna) (s : Station) :
    (k.setDownlinkBitrate b).update c tx s rx = (k.update c tx s rx).bind fun k' => .ok (k'.setDownlinkBitrate b) := by
  rcases h1 : s.isVisible c.id with v | _ | _ | _ <;> simp only [Calculator.update, h1, Res.bind]
  cases v
  · rfl
  · have e : (k.setDownlinkBitrate b).calcCn0 c tx s rx = k.calcCn0 c tx s rx := rfl
    simp only [if_true, e]
    rcases k.calcCn0 c tx s rx with x | _ | _ | _ <;> rfl

/-! ### Antenna directions -/

/-- **C128 (directions).** The direction in which the spacecraft antenna's gain is looked up is the line of sight to the station converted by the antenna's
mounting first and the attitude second, and the station's the line of sight to the spacecraft converted by the antenna's mounting first and the local frame
second. These are the directions in the antennas' frames (attitude or local frame first, mounting second) for antennas aligned with the body or the local
frame. -/
theorem C128_directions (c : Craft) (tx rx : Antenna) (s : Station) :
    (directionOnCraft c tx s = c.i2b.frameConversion (tx.b2c.frameConversion (calcNormalizedVector (s.positionI - c.positionI)))) ∧
    (directionOnStation c s rx = s.geodetic.quaternionXcxfToLtc.frameConversion (rx.b2c.frameConversion
      (calcNormalizedVector (c.positionEcef - s.positionEcef)))) ∧
    (tx.b2c = ⟨0, 0, 0, 1⟩ → directionOnCraft c tx s = tx.b2c.frameConversion (c.i2b.frameConversion (calcNormalizedVector (s.positionI - c.positionI)))) ∧
    (rx.b2c = ⟨0, 0, 0, 1⟩ → directionOnStation c s rx = rx.b2c.frameConversion (s.geodetic.quaternionXcxfToLtc.frameConversion
      (calcNormalizedVector (c.positionEcef - s.positionEcef)))) := by
  have hid : ∀ v : Vec 3, Quat.frameConversion ⟨0, 0, 0, 1⟩ v = v := fun v => by
    rw [frame_explicit]; apply vec3_ext <;> simp
  have h1 : directionOnCraft c tx s = c.i2b.frameConversion (tx.b2c.frameConversion (calcNormalizedVector (s.positionI - c.positionI))) :=
    (C65_composition _ _ _).1
  have h2 : directionOnStation c s rx = s.geodetic.quaternionXcxfToLtc.frameConversion (rx.b2c.frameConversion
      (calcNormalizedVector (c.positionEcef - s.positionEcef))) := (C65_composition _ _ _).1
  refine ⟨h1, h2, fun h => ?_, fun h => ?_⟩
  · rw [h1, h, hid, hid]
  · rw [h2, h, hid, hid]

/-- **C128 (wrong direction).** An antenna mounted on the +x side (its z axis along body x), on a spacecraft turned so that its x axis points at the
station: the antenna points exactly at the station, and yet its gain is looked up 180 degrees off its axis. -/
theorem C128_direction_wrong : ∃ (c : Craft) (tx : Antenna) (s : Station), tx.b2c.IsUnit ∧ c.i2b.IsUnit ∧
    tx.b2c.frameConversion (c.i2b.frameConversion (calcNormalizedVector (s.positionI - c.positionI))) = ![0, 0, 1] ∧
    (antennaAngles (directionOnCraft c tx s)).1 = Real.pi := by
  have hn : calcNormalizedVector ((![-1, 0, 0] : Fin 3 → ℝ) - ![0, 0, 0]) = ![-1, 0, 0] := by
    have hl : len ((![-1, 0, 0] : Fin 3 → ℝ) - ![0, 0, 0]) = 1 := by simp [len]
    rw [OrbitProp.normalized_of_pos (by rw [hl]; norm_num), hl]
    funext i; fin_cases i <;> simp
  refine ⟨⟨0, ![0, 0, 0], ![0, 0, 0], ⟨0, 0, 1, 0⟩⟩,
    Antenna.new ⟨1 / 2, 1 / 2, 1 / 2, 1 / 2⟩ true true 1 1 1 ⟨0, 0, 0, .isotropic, ⟨0, 0, 0, 0, []⟩⟩ 1 ⟨0, 0, 0, .isotropic, ⟨0, 0, 0, 0, []⟩⟩,
    ⟨⟨0, 0, 0, ⟨0, 0, 0, 1⟩⟩, 0, ![-1, 0, 0], 0, fun _ => none⟩, ?_, ?_, ?_, ?_⟩
  · norm_num [Quat.IsUnit, Antenna.new]
  · norm_num [Quat.IsUnit]
  · simp only [hn, Antenna.new, frame_explicit]
    apply vec3_ext <;> simp <;> norm_num
  · rw [antennaAngles, (C128_directions _ _ (Antenna.new ⟨0, 0, 0, 1⟩ true true 1 1 1 ⟨0, 0, 0, .isotropic, ⟨0, 0, 0, 0, []⟩⟩ 1
      ⟨0, 0, 0, .isotropic, ⟨0, 0, 0, 0, []⟩⟩) _).1]
    simp only [hn, Antenna.new, frame_explicit]
    simp
    norm_num

/-! ## C129 radiation pattern -/

theorem clip_range {max : ℝ} (hm : 0 < max) (x : ℝ) : 0 ≤ clipAngle max x ∧ clipAngle max x ≤ max := by
  unfold clipAngle
  dsimp only
  split_ifs <;> constructor <;> linarith

theorem gridIndex_spec (n : ℕ) (hn : 0 < n) (max x : ℝ) (hm : 0 < max) :
    ∃ i, gridIndex n max x = .ok i ∧ i < n ∧ (n * clipAngle max x / max < n - 1 / 2 → |(i : ℝ) - n * clipAngle max x / max| ≤ 1 / 2) ∧
      (n - 1 / 2 ≤ n * clipAngle max x / max → i = n - 1) := by
  obtain ⟨c0, c1⟩ := clip_range hm x
  rw [gridIndex, if_neg hm.ne']
  set y := n * clipAngle max x / max with hy
  have y0 : 0 ≤ y := by positivity
  have f0 : (0 : ℤ) ≤ ⌊y + 0.5⌋ := Int.floor_nonneg.2 (by norm_num; linarith)
  have fl := Int.floor_le (y + 0.5)
  have fu := Int.lt_floor_add_one (y + 0.5)
  have ht : ((⌊y + 0.5⌋.toNat : ℕ) : ℝ) = (⌊y + 0.5⌋ : ℝ) := by
    have : ((⌊y + 0.5⌋.toNat : ℕ) : ℤ) = ⌊y + 0.5⌋ := Int.toNat_of_nonneg f0
    exact_mod_cast this
  rw [← ht] at fl fu
  norm_num at fl ⊢
  norm_num only at fu
  generalize ⌊y + 1 / 2⌋.toNat = j at *
  have hn1 : ((n - 1 : ℕ) : ℝ) = n - 1 := by rw [Nat.cast_sub hn]; simp
  refine ⟨?_, fun h => ?_, fun h => ?_⟩
  · split_ifs <;> omega
  · have hj : j < n := by
      by_contra hc
      have : (n : ℝ) ≤ j := by exact_mod_cast not_lt.1 hc
      linarith
    rw [if_neg (by omega), abs_le]
    constructor <;> linarith
  · by_cases hj : n ≤ j
    · rw [if_pos hj, if_neg (by omega)]
    · have h2 : (j : ℝ) + 1 ≤ n := by exact_mod_cast not_le.1 hj
      have : (n : ℝ) < j + 1 + 1 := by linarith
      have : n < j + 2 := by exact_mod_cast (by linarith : (n : ℝ) < (j : ℝ) + 2)
      rw [if_neg (by omega)]
      omega

/-- **C129 (gain lookup).** For a table with at least `lengthTheta` rows of at least `lengthPhi` gains and positive lengths and maximum angles, the gain is
the table entry whose row and column are nearest to `lengthTheta * θ / θmax` and `lengthPhi * φ / φmax`, with the angles clipped to `[0, max]` and the last
row and column used beyond: a grid step of `max / length` from 0. If a row or the column it needs is not in the table, the access is outside the table. -/
theorem C129_gain (p : Pattern) (theta phi : ℝ) (ht : 0 < p.lengthTheta) (hp : 0 < p.lengthPhi) (hmt : 0 < p.thetaMax) (hmp : 0 < p.phiMax) :
    ∃ i j : ℕ, i < p.lengthTheta ∧ j < p.lengthPhi ∧
      (p.lengthTheta * clipAngle p.thetaMax theta / p.thetaMax < p.lengthTheta - 1 / 2 →
        |(i : ℝ) - p.lengthTheta * clipAngle p.thetaMax theta / p.thetaMax| ≤ 1 / 2) ∧
      (p.lengthTheta - 1 / 2 ≤ p.lengthTheta * clipAngle p.thetaMax theta / p.thetaMax → i = p.lengthTheta - 1) ∧
      (p.lengthPhi * clipAngle p.phiMax phi / p.phiMax < p.lengthPhi - 1 / 2 → |(j : ℝ) - p.lengthPhi * clipAngle p.phiMax phi / p.phiMax| ≤ 1 / 2) ∧
      (p.lengthPhi - 1 / 2 ≤ p.lengthPhi * clipAngle p.phiMax phi / p.phiMax → j = p.lengthPhi - 1) ∧
      (∀ row g, p.gain[i]? = some row → row[j]? = some g → p.getGain theta phi = .ok g) ∧
      ((∀ row, p.gain[i]? = some row → row[j]? = none) → p.getGain theta phi = .ub) := by
  obtain ⟨i, e1, a1, a2, a3⟩ := gridIndex_spec p.lengthTheta ht p.thetaMax theta hmt
  obtain ⟨j, e2, b1, b2, b3⟩ := gridIndex_spec p.lengthPhi hp p.phiMax phi hmp
  refine ⟨i, j, a1, b1, a2, a3, b2, b3, fun row g h1 h2 => ?_, fun h => ?_⟩
  · simp only [Pattern.getGain, e1, e2, Res.bind, h1, h2]
  · simp only [Pattern.getGain, e1, e2, Res.bind]
    rcases h1 : p.gain[i]? with _ | row
    · rfl
    · simp only [h row h1]

/-- Non-vacuous: a 2 by 2 table. -/
example : (⟨2, 2, 2, 2, [[1, 2], [3, 4]]⟩ : Pattern).getGain 1 0 = .ok 3 := by
  norm_num [Pattern.getGain, gridIndex, clipAngle, Res.bind]

/-- **C129 (half of the directions share one cut).** The antenna angles of the link calculation are the angle off the antenna's z axis, in `[0, π]`, and the
azimuth in `(-π, π]`. For every direction with negative y component in the antenna's frame the azimuth is negative and the gain is read from the first
column of the table, the cut at azimuth 0, whatever the direction's azimuth. -/
theorem C129_negative_azimuth (p : Pattern) (d : Vec 3) (hy : d 1 < 0) :
    p.getGain (antennaAngles d).1 (antennaAngles d).2 = p.getGain (antennaAngles d).1 0 ∧
    (0 < p.phiMax → 0 < p.lengthPhi → gridIndex p.lengthPhi p.phiMax (antennaAngles d).2 = .ok 0) := by
  have hneg : (antennaAngles d).2 < 0 := by
    simp only [antennaAngles, atan2]
    exact Complex.arg_neg_iff.2 hy
  have hc : ∀ m, clipAngle m (antennaAngles d).2 = clipAngle m 0 := fun m => by
    simp only [clipAngle, hneg, if_true, lt_irrefl, if_false]
  have hi : ∀ n m, gridIndex n m (antennaAngles d).2 = gridIndex n m 0 := fun n m => by simp only [gridIndex, hc]
  refine ⟨by simp only [Pattern.getGain, hi], fun hm hn => ?_⟩
  rw [hi, gridIndex, if_neg hm.ne']
  have : clipAngle p.phiMax 0 = 0 := by simp [clipAngle, not_lt.2 hm.le]
  simp only [this, mul_zero, zero_div, zero_add]
  norm_num
  omega

/-- **C129 (grid with both ends).** With the default grid of 181 columns for azimuths from 0 to π, the column for the exact azimuth `m°` is `m` for
`m` below 90 and `m + 1` for `m` from 90 to 179: if the 181 columns of the file stand for 0°, 1°, …, 180°, the gain read from 90° on is the one for the next
degree. -/
theorem C129_default_grid (m : ℕ) : (m < 90 → gridIndex 181 Real.pi (m * (Real.pi / 180)) = .ok m) ∧
    (90 ≤ m → m ≤ 179 → gridIndex 181 Real.pi (m * (Real.pi / 180)) = .ok (m + 1)) := by
  have hpi := Real.pi_pos
  have key : m ≤ 180 → gridIndex 181 Real.pi (m * (Real.pi / 180)) = .ok (if ⌊(181 * m / 180 : ℝ) + 0.5⌋.toNat ≥ 181 then 180 else
      ⌊(181 * m / 180 : ℝ) + 0.5⌋.toNat) := fun hm => by
    have hm' : (m : ℝ) ≤ 180 := by exact_mod_cast hm
    have hm0 : (0 : ℝ) ≤ m := Nat.cast_nonneg m
    have hc : clipAngle Real.pi (m * (Real.pi / 180)) = m * (Real.pi / 180) := by
      have h1 : ¬ ((m : ℝ) * (Real.pi / 180) < 0) := not_lt.2 (by positivity)
      have h2 : ¬ ((m : ℝ) * (Real.pi / 180) > Real.pi) := not_lt.2 (by nlinarith)
      simp only [clipAngle, h1, h2, if_false]
    rw [gridIndex, if_neg hpi.ne', hc]
    have : ((181 : ℕ) : ℝ) * (m * (Real.pi / 180)) / Real.pi = 181 * m / 180 := by push_cast; field_simp
    rw [this]
    norm_num
  have fl : ∀ j : ℕ, (j : ℝ) ≤ 181 * m / 180 + 0.5 → (181 * m / 180 : ℝ) + 0.5 < j + 1 → ⌊(181 * m / 180 : ℝ) + 0.5⌋.toNat = j := fun j h1 h2 => by
    have : ⌊(181 * m / 180 : ℝ) + 0.5⌋ = (j : ℤ) := Int.floor_eq_iff.2 ⟨by exact_mod_cast h1, by exact_mod_cast h2⟩
    rw [this]; simp
  constructor
  · intro h
    have h' : (m : ℝ) + 1 ≤ 90 := by exact_mod_cast h
    rw [key (by omega), fl m (by norm_num; nlinarith [Nat.cast_nonneg (α := ℝ) m]) (by norm_num; linarith), if_neg (by omega)]
  · intro h1 h2
    have h1' : (90 : ℝ) ≤ m := by exact_mod_cast h1
    have h2' : (m : ℝ) ≤ 179 := by exact_mod_cast h2
    rw [key (by omega), fl (m + 1) (by push_cast; norm_num; linarith) (by push_cast; norm_num; linarith), if_neg (by omega)]

end S2E.Comm
