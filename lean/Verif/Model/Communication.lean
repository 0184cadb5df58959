import Verif.Model.GroundStation
import Mathlib.Analysis.SpecialFunctions.Log.Base
/-!
# `src/components/real/communication/{antenna_radiation_pattern,antenna,ground_station_calculator}.{cpp,hpp}`

Doubles are real numbers; the reading of the settings files is left out (the gain table of a CSV file is `Ini.readCsvDouble`, `Model/Ini.lean`), and so are
the log strings. `log10` of a number that is not positive (an infinity or NaN in the program) is the value `Real.logb` gives; the theorems suppose
positive arguments.
-/
namespace S2E.Comm
open S2E.Ground

/-- Members of `AntennaRadiationPattern`, antenna_radiation_pattern.hpp:59-64. -/
structure Pattern where
  lengthTheta : ℕ
  lengthPhi : ℕ
  thetaMax : ℝ
  phiMax : ℝ
  gain : List (List ℝ)

/-- The clipping in `GetGain_dBi`, antenna_radiation_pattern.cpp:29-32, for one angle. -/
noncomputable def clipAngle (max x : ℝ) : ℝ :=
  let y := if x < 0 then 0 else x
  if y > max then max else y

/-- The index of one direction in `GetGain_dBi`, antenna_radiation_pattern.cpp:35-38. A maximum of zero divides by zero and the conversion to `size_t` is
undefined; with length zero the index wraps around. -/
noncomputable def gridIndex (length : ℕ) (max x : ℝ) : Res ℕ :=
  if max = 0 then .ub
  else
    let i := ⌊length * clipAngle max x / max + 0.5⌋.toNat
    .ok (if i ≥ length then (if length = 0 then 2 ^ 64 - 1 else length - 1) else i)

/-- `GetGain_dBi`, antenna_radiation_pattern.cpp:25-41. -/
noncomputable def Pattern.getGain (p : Pattern) (theta phi : ℝ) : Res ℝ :=
  (gridIndex p.lengthTheta p.thetaMax theta).bind fun i =>
    (gridIndex p.lengthPhi p.phiMax phi).bind fun j =>
      match p.gain[i]? with
      | none => .ub
      | some row =>
        match row[j]? with
        | none => .ub
        | some g => .ok g

/-- `AntennaGainModel`, antenna.hpp:21-24. -/
inductive GainModel where
  | isotropic
  | pattern

/-- `AntennaParameters`, antenna.hpp:30-37. -/
structure Params where
  gain : ℝ
  lossFeeder : ℝ
  lossPointing : ℝ
  model : GainModel
  pattern : Pattern

/-- Members of `Antenna`, antenna.hpp:131-146. -/
structure Antenna where
  b2c : Quat
  isTransmitter : Bool
  isReceiver : Bool
  frequency : ℝ
  bitrate : ℝ
  power : ℝ
  tx : Params
  temperature : ℝ
  rx : Params
  eirp : ℝ
  gt : ℝ

/-- The second constructor, antenna.cpp:50-74. The first (16-48) is the same with both gain models isotropic. -/
noncomputable def Antenna.new (b2c : Quat) (isTransmitter isReceiver : Bool) (frequency bitrate power : ℝ) (tx : Params) (temperature : ℝ)
    (rx : Params) : Antenna where
  b2c := b2c
  isTransmitter := isTransmitter
  isReceiver := isReceiver
  frequency := frequency
  bitrate := bitrate
  power := power
  tx := tx
  temperature := temperature
  rx := rx
  eirp := if isTransmitter then 10 * Real.logb 10 power + tx.lossFeeder + tx.lossPointing else 0
  gt := if isReceiver then rx.lossFeeder + rx.lossPointing - 10 * Real.logb 10 temperature else 0

/-- `CalcAntennaGain`, antenna.cpp:78-91. -/
noncomputable def calcAntennaGain (p : Params) (theta phi : ℝ) : Res ℝ :=
  match p.model with
  | .isotropic => .ok p.gain
  | .pattern => p.pattern.getGain theta phi

/-- `CalcTxEirp_dBW`, antenna.cpp:93-95. -/
noncomputable def Antenna.calcTxEirp (a : Antenna) (theta phi : ℝ) : Res ℝ := (calcAntennaGain a.tx theta phi).bind fun g => .ok (a.eirp + g)

/-- `CalcRxGt_dB_K`, antenna.cpp:96-98. -/
noncomputable def Antenna.calcRxGt (a : Antenna) (theta phi : ℝ) : Res ℝ := (calcAntennaGain a.rx theta phi).bind fun g => .ok (a.gt + g)

/-- Members of `GroundStationCalculator`, ground_station_calculator.hpp:90-103. -/
structure Calculator where
  lossPolarization : ℝ
  lossAtmosphere : ℝ
  lossRainfall : ℝ
  lossOthers : ℝ
  ebn0 : ℝ
  deterioration : ℝ
  codingGain : ℝ
  marginRequirement : ℝ
  downlinkBitrate : ℝ
  receiveMargin : ℝ
  maxBitrate : ℝ

/-- The constructor, ground_station_calculator.cpp:14-28. -/
noncomputable def Calculator.new (lp la lr lo ebn0 det cg mr db : ℝ) : Calculator := ⟨lp, la, lr, lo, ebn0, det, cg, mr, db, -10000, 0⟩

/-- What the calculator reads of the spacecraft: number, inertial and Earth-fixed position, attitude. -/
structure Craft where
  id : ℕ
  positionI : Vec 3
  positionEcef : Vec 3
  i2b : Quat

/-- `boltzmann_constant_J_K`, physical_constants.hpp:23. -/
noncomputable def boltzmann : ℝ := 1.380649e-23

/-- The two antenna angles, ground_station_calculator.cpp:84-85, 92-93. -/
noncomputable def antennaAngles (d : Vec 3) : ℝ × ℝ := (Real.arccos (d 2), atan2 (d 1) (d 0))

/-- Direction to the station in what the code takes as the spacecraft antenna's frame, ground_station_calculator.cpp:80-83. -/
noncomputable def directionOnCraft (c : Craft) (tx : Antenna) (s : Station) : Vec 3 :=
  (tx.b2c.mul c.i2b).frameConversion (calcNormalizedVector (vsub s.positionI c.positionI))

/-- Direction to the spacecraft in what the code takes as the station antenna's frame, ground_station_calculator.cpp:88-91. -/
noncomputable def directionOnStation (c : Craft) (s : Station) (rx : Antenna) : Vec 3 :=
  (rx.b2c.mul s.geodetic.quaternionXcxfToLtc).frameConversion (calcNormalizedVector (vsub c.positionEcef s.positionEcef))

/-- `loss_space_dB`, ground_station_calculator.cpp:72-77. -/
noncomputable def lossSpace (c : Craft) (tx : Antenna) (s : Station) : ℝ :=
  -20 * Real.logb 10 (4 * Real.pi * (calcNorm (vsub c.positionI s.positionI) / 1000) / (300 / tx.frequency / 1000))

/-- `CalcCn0OnGs`, ground_station_calculator.cpp:65-101. -/
noncomputable def Calculator.calcCn0 (k : Calculator) (c : Craft) (tx : Antenna) (s : Station) (rx : Antenna) : Res ℝ :=
  if !tx.isTransmitter || !rx.isReceiver then .ok 0
  else
    let a := antennaAngles (directionOnCraft c tx s)
    let b := antennaAngles (directionOnStation c s rx)
    (tx.calcTxEirp a.1 a.2).bind fun eirp => (rx.calcRxGt b.1 b.2).bind fun gt =>
      .ok (eirp + lossSpace c tx s + k.lossPolarization + k.lossAtmosphere + k.lossRainfall + k.lossOthers + gt - 10 * Real.logb 10 boltzmann)

/-- `CalcMaxBitrate` from the ratio, ground_station_calculator.cpp:45-56. -/
noncomputable def Calculator.bitrateOf (k : Calculator) (cn0 : ℝ) : ℝ :=
  let m := cn0 - (k.ebn0 + k.deterioration + k.codingGain) - k.marginRequirement
  if m > 0 then (10 : ℝ) ^ (m / 10) / 1000000 else 0

/-- `CalcReceiveMarginOnGs` from the ratio, ground_station_calculator.cpp:58-63. -/
noncomputable def Calculator.marginOf (k : Calculator) (tx : Antenna) (cn0 : ℝ) : ℝ :=
  cn0 - (k.ebn0 + k.deterioration + k.codingGain + 10 * Real.logb 10 tx.bitrate)

/-- `Update`, ground_station_calculator.cpp:32-42. -/
noncomputable def Calculator.update (k : Calculator) (c : Craft) (tx : Antenna) (s : Station) (rx : Antenna) : Res Calculator :=
  (s.isVisible c.id).bind fun v =>
    if v then
      (k.calcCn0 c tx s rx).bind fun cn0 => .ok { k with maxBitrate := k.bitrateOf cn0, receiveMargin := k.marginOf tx cn0 }
    else .ok { k with maxBitrate := 0, receiveMargin := -10000 }

/-- `SetDownlinkBitrate_bps`, ground_station_calculator.hpp:86. -/
def Calculator.setDownlinkBitrate (k : Calculator) (b : ℝ) : Calculator := { k with downlinkBitrate := b }

end S2E.Comm
