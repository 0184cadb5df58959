import Verif.Model.Quaternion
import Verif.Model.Quantization
/-!
# `src/components/real/aocs/star_sensor.{cpp,hpp}`

Doubles are real numbers. The values drawn from the three random sources in one update are inputs of the update, as are the positions of Sun, Earth and Moon
and the attitude. `int` is 32-bit, the conversion of an out-of-range unsigned value to `int` wraps. The log strings and the reading of the settings file are
left out (but see `steps`).
-/
namespace S2E.Star
open Quat

/-- The parameters, star_sensor.hpp:112, 137-140. -/
structure Config where
  b2c : Quat
  sunAngle : ℝ
  earthAngle : ℝ
  moonAngle : ℝ
  rateLimit : ℝ

/-- `StarSensor`, star_sensor.hpp:110-140, without the random sources. -/
structure Sensor where
  config : Config
  measured : Quat
  maxDelay : ℕ
  buffer : List Quat
  position : ℕ
  delay : ℕ
  interval : ℕ
  count : ℕ
  error : Bool

/-- What one update reads and draws. -/
structure Input where
  i2b : Quat
  omega : Vec 3
  sun : Vec 3
  earth : Vec 3
  moon : Vec 3
  sightNoise : ℝ
  rotationNoise : ℝ
  orthogonalNoise : ℝ

/-- `quaternion(0.0, 0.0, 0.0, 1.0)`, star_sensor.cpp:73. -/
def identity : Quat := ⟨0, 0, 0, 1⟩

/-- The constructor with `Initialize`, star_sensor.cpp:21-45, 72-93. `delay` and `interval` are 32-bit unsigned; with a step of zero the quotient is infinite or
NaN. -/
noncomputable def Sensor.new (config : Config) (step : ℝ) (delay interval : ℕ) : Res Sensor :=
  if step = 0 then .ub
  else
    (toInt32 (((delay * 2 % 2 ^ 32 : ℕ) : ℝ) / step)).bind fun m =>
      let max := if m ≤ 0 then 1 else m.toNat
      .ok { config := config, measured := identity, maxDelay := max, buffer := List.replicate max identity, position := 0, delay := delay,
            interval := interval, count := 0, error := true }

/-- `max(int(output_delay_sec / step_time_s), 1)` and the same for the interval, star_sensor.cpp:236-238. -/
noncomputable def steps (seconds step : ℝ) : Res ℤ :=
  if step = 0 then .ub else (toInt32 (seconds / step)).bind fun n => .ok (max n 1)

/-- The value written to the buffer, star_sensor.cpp:112-126. -/
noncomputable def raw (c : Config) (i : Input) : Quat :=
  let q := i.i2b.mul c.b2c
  let sight := ofAxisAngle ![1, 0, 0] i.sightNoise
  let rot := tau * i.rotationNoise
  let axis := vadd (scale (Real.cos rot) ![0, 1, 0]) (scale (Real.sin rot) ![0, 0, 1])
  let ortho := ofAxisAngle axis i.orthogonalNoise
  (q.mul sight).mul ortho

/-- `CalAngleVector_rad`, star_sensor.cpp:206-213. -/
noncomputable def angleVector (a b : Vec 3) : ℝ := Real.arccos (innerProduct (calcNormalizedVector a) (calcNormalizedVector b))

/-- `sight_b` in the judgements, star_sensor.cpp:146-147, 156-157, 169-170. -/
def sightB (c : Config) : Vec 3 := c.b2c.conjugate.frameConversion ![1, 0, 0]

/-- `SunJudgement`, star_sensor.cpp:145-153. -/
noncomputable def sunJudgement (c : Config) (sun : Vec 3) : ℕ := if angleVector sun (sightB c) < c.sunAngle then 1 else 0

/-- `EarthJudgement`, star_sensor.cpp:155-166, with `earth_equatorial_radius_m`, physical_constants.hpp:35. -/
noncomputable def earthJudgement (c : Config) (earth : Vec 3) : ℕ :=
  if angleVector earth (sightB c) - atan2 6378136.6 (calcNorm earth) < c.earthAngle then 1 else 0

/-- `MoonJudgement`, star_sensor.cpp:168-176. -/
noncomputable def moonJudgement (c : Config) (moon : Vec 3) : ℕ := if angleVector moon (sightB c) < c.moonAngle then 1 else 0

/-- `CaptureRateJudgement`, star_sensor.cpp:178-184. -/
noncomputable def rateJudgement (c : Config) (omega : Vec 3) : ℕ := if calcNorm omega > c.rateLimit then 1 else 0

/-- `AllJudgement`, star_sensor.cpp:132-143. -/
noncomputable def allJudgement (c : Config) (i : Input) : Bool :=
  if sunJudgement c i.sun + earthJudgement c i.earth + moonJudgement c i.moon + rateJudgement c i.omega > 0 then true else false

/-- `update`, star_sensor.cpp:111-130. -/
noncomputable def Sensor.update (s : Sensor) (i : Input) : Res Sensor :=
  if s.position < s.buffer.length then
    .ok { s with error := allJudgement s.config i, buffer := s.buffer.set s.position (raw s.config i), position := (s.position + 1) % s.maxDelay }
  else .ub

/-- The index of line 98-101: `int - unsigned - 1` is computed modulo 2^32 and converted to `int`. -/
def Sensor.history (s : Sensor) : ℤ :=
  let h := (((s.position : ℤ) - s.delay - 1) % 2 ^ 32 + 2 ^ 31) % 2 ^ 32 - 2 ^ 31
  if h < 0 then s.maxDelay - 1 else h

/-- The output, star_sensor.cpp:97-103. -/
def Sensor.output (s : Sensor) : Res Sensor :=
  if s.count = 0 then
    match s.buffer[s.history.toNat]? with
    | none => .ub
    | some q => .ok { s with measured := q }
  else .ok s

/-- The counter, star_sensor.cpp:104-106, a `size_t` compared with an `unsigned`. -/
def Sensor.advance (s : Sensor) : Sensor :=
  if (s.count + 1) % 2 ^ 64 = s.interval then { s with count := 0 } else { s with count := (s.count + 1) % 2 ^ 64 }

/-- `Measure`, star_sensor.cpp:94-109, and `MainRoutine`, star_sensor.cpp:215-219. -/
noncomputable def Sensor.measure (s : Sensor) (i : Input) : Res Sensor :=
  (s.update i).bind fun s => s.output.bind fun s => .ok s.advance

/-- A history of updates. -/
noncomputable def Sensor.run (s : Sensor) : List Input → Res Sensor
  | [] => .ok s
  | i :: rest => (s.measure i).bind fun s => s.run rest

end S2E.Star
