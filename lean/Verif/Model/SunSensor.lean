import Verif.Model.Quaternion
/-!
# `src/components/real/aocs/sun_sensor.{cpp,hpp}`

Doubles are real numbers. The position of the Sun, the solar constant, the power density and the values drawn from the random sources are inputs of the
update. The log strings and the reading of the settings file are left out.
-/
namespace S2E.Sun

/-- `SunSensor`, sun_sensor.hpp:93-110, without the random sources. -/
structure Sensor where
  b2c : Quat
  threshold : ℝ
  detectable : ℝ
  biasAlpha : ℝ
  biasBeta : ℝ
  trueDirection : Vec 3
  measured : Vec 3
  alpha : ℝ
  beta : ℝ
  illuminance : ℝ
  detected : Bool

/-- The constructor with `Initialize`, sun_sensor.cpp:18-31, 48-57; the two biases are the values drawn. -/
def Sensor.new (b2c : Quat) (detectable threshold biasAlpha biasBeta : ℝ) : Sensor where
  b2c := b2c
  threshold := threshold
  detectable := detectable
  biasAlpha := 0 + biasAlpha
  biasBeta := 0 + biasBeta
  trueDirection := fun _ => 0
  measured := fun _ => 0
  alpha := 0
  beta := 0
  illuminance := 0
  detected := false

/-- What one update reads and draws: `GetPositionFromSpacecraft_b_m("SUN")`, `GetSolarConstant_W_m2()`, `GetPowerDensity_W_m2()`. -/
structure Input where
  sun : Vec 3
  solarConstant : ℝ
  power : ℝ
  noiseAlpha : ℝ
  noiseBeta : ℝ

/-- The angle in `SunDetectionJudgement` and `CalcSolarIlluminance`, sun_sensor.cpp:102-104, 118-119. -/
noncomputable def Sensor.sunAngle (s : Sensor) : ℝ := Real.arccos (calcNormalizedVector s.trueDirection 2)

/-- `SunDetectionJudgement`, sun_sensor.cpp:101-115. -/
noncomputable def Sensor.judge (s : Sensor) (i : Input) : Sensor :=
  { s with detected := if s.illuminance < s.threshold / 100 * i.solarConstant then false else if s.sunAngle < s.detectable then true else false }

/-- `CalcSolarIlluminance`, sun_sensor.cpp:117-129. -/
noncomputable def Sensor.calcIlluminance (s : Sensor) (i : Input) : Sensor :=
  { s with illuminance := if s.sunAngle > Real.pi / 2 then 0 else i.power * Real.cos s.sunAngle }

/-- `TanRange`, sun_sensor.cpp:131-135. -/
noncomputable def tanRange (x : ℝ) : ℝ :=
  let x := if x > Real.pi / 2 then Real.pi - x else x
  if x < -(Real.pi / 2) then -Real.pi - x else x

/-- The branches of `Measure`, sun_sensor.cpp:72-96. -/
noncomputable def Sensor.observe (s : Sensor) (i : Input) : Sensor :=
  if s.detected then
    let alpha := tanRange (atan2 (s.trueDirection 0) (s.trueDirection 2) + s.biasAlpha + i.noiseAlpha)
    let beta := tanRange (atan2 (s.trueDirection 1) (s.trueDirection 2) + s.biasBeta + i.noiseBeta)
    { s with alpha := alpha, beta := beta, measured := calcNormalizedVector ![Real.tan alpha, Real.tan beta, 1] }
  else { s with measured := fun _ => 0, alpha := 0, beta := 0 }

/-- `Measure`, sun_sensor.cpp:64-99. -/
noncomputable def Sensor.measure (s : Sensor) (i : Input) : Sensor :=
  (({ s with trueDirection := s.b2c.frameConversion (calcNormalizedVector i.sun) }.judge i).observe i).calcIlluminance i

/-- A history of updates. -/
noncomputable def Sensor.run (s : Sensor) (is : List Input) : Sensor := is.foldl Sensor.measure s

end S2E.Sun
