import Verif.Model.Basic
import Verif.Model.LinAlg
import Verif.Model.Quaternion
import Verif.Model.Quantization
import Mathlib.Analysis.SpecialFunctions.Trigonometric.Arctan
/-!
# `src/math_physics/geodesy/geodetic_position.cpp` and the two angle helpers of `src/math_physics/orbit/sgp4/sgp4ext.cpp`

Doubles are real numbers; `PI`, `TWOPI`, `PIO2`, `X3PIO2`, `pi_2`, `tau` are the exact multiples of π. At the poles the code divides
`r_m / cos(lat)` with `r_m = 0`: in doubles the cosine of the rounded π/2 is not zero and the quotient is 0, which is also the value of
`0 / 0` in Lean, so the model agrees with the program there.
-/
namespace S2E.Geodetic

/-- `AcTan`, sgp4ext.cpp:89-110. -/
noncomputable def acTan (sinx cosx : ℝ) : ℝ :=
  if cosx = 0 then
    if sinx > 0 then Real.pi / 2 else 3 * Real.pi / 2
  else if cosx > 0 then
    if sinx > 0 then Real.arctan (sinx / cosx) else 2 * Real.pi + Real.arctan (sinx / cosx)
  else Real.pi + Real.arctan (sinx / cosx)

/-- `FMod2p`, sgp4ext.cpp:113-125. The conversion of the quotient to `int` is undefined when it does not fit. -/
noncomputable def fMod2p (x : ℝ) : Res ℝ := do
  let i ← toInt32 (x / (2 * Real.pi))
  let r := x - i * (2 * Real.pi)
  .ok (if r < 0 then r + 2 * Real.pi else r)

/-- `earth_equatorial_radius_m`, physical_constants.hpp:33. -/
noncomputable def earthRadius : ℝ := 6378136.6

/-- `earth_flattening`, physical_constants.hpp:37. -/
noncomputable def flattening : ℝ := 3.352797e-3

/-- `e2`, geodetic_position.cpp:38, 62. -/
noncomputable def e2 : ℝ := flattening * (2 - flattening)

/-- `c`, geodetic_position.cpp:43, 63. -/
noncomputable def curvature (phi : ℝ) : ℝ := 1 / Real.sqrt (1 - e2 * Real.sin phi * Real.sin phi)

/-- The `do ... while` loop, geodetic_position.cpp:41-45; returns `lat_tmp_rad` and `c`. `stuck`: the loop has not ended. -/
noncomputable def latLoop (z r : ℝ) : ℕ → ℝ → Res (ℝ × ℝ)
  | 0, _ => .stuck
  | fuel + 1, lat =>
    let phi := lat
    let c := curvature phi
    let lat' := acTan (z + earthRadius * c * e2 * Real.sin phi) r
    if |lat' - phi| ≥ 1e-10 then latLoop z r fuel lat' else .ok (lat', c)

/-- `GeodeticPosition`, geodetic_position.hpp:70-74. -/
structure GeodeticPosition where
  latitude : ℝ
  longitude : ℝ
  altitude : ℝ
  quaternionXcxfToLtc : Quat

/-- The matrix of `CalcQuaternionXcxfToLtc`, geodetic_position.cpp:75-84. -/
noncomputable def dcmXcxfToLtc (lat lon : ℝ) : Mat 3 3 :=
  !![-Real.sin lon, Real.cos lon, 0;
     -Real.sin lat * Real.cos lon, -Real.sin lat * Real.sin lon, Real.cos lat;
     Real.cos lat * Real.cos lon, Real.cos lat * Real.sin lon, Real.sin lat]

/-- Constructor, geodetic_position.cpp:22-26, with `CalcQuaternionXcxfToLtc`, geodetic_position.cpp:74-87. -/
noncomputable def GeodeticPosition.new (lat lon alt : ℝ) : GeodeticPosition := ⟨lat, lon, alt, Quat.fromDcm (dcmXcxfToLtc lat lon)⟩

/-- `UpdateFromEcef`, geodetic_position.cpp:28-55 (the previous contents are all overwritten). -/
noncomputable def updateFromEcef (fuel : ℕ) (p : Vec 3) : Res GeodeticPosition := do
  let theta := acTan (p 1) (p 0)
  let lon ← fMod2p theta
  let r := Real.sqrt (p 0 * p 0 + p 1 * p 1)
  let lc ← latLoop (p 2) r fuel (acTan (p 2) r)
  let alt := r / Real.cos lc.1 - lc.2 * earthRadius
  let lat := if lc.1 > Real.pi / 2 then lc.1 - 2 * Real.pi else lc.1
  .ok (GeodeticPosition.new lat lon alt)

/-- `CalcEcefPosition`, geodetic_position.cpp:57-72. -/
noncomputable def GeodeticPosition.calcEcefPosition (g : GeodeticPosition) : Res (Vec 3) := do
  let theta ← fMod2p g.longitude
  let c := curvature g.latitude
  let n := c * earthRadius
  .ok ![(n + g.altitude) * Real.cos g.latitude * Real.cos theta, (n + g.altitude) * Real.cos g.latitude * Real.sin theta,
        (n * (1 - e2) + g.altitude) * Real.sin g.latitude]

end S2E.Geodetic
