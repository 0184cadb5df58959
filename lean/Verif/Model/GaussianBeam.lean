import Verif.Model.Basic
import Mathlib.Analysis.SpecialFunctions.Trigonometric.Basic
/-!
# `src/math_physics/optics/gaussian_beam_base.{cpp,hpp}`

Doubles are real numbers; `assert` is active (an abort is `throws`). The pointing vector and the position of the waist are stored and never read by the
calculations; they are left out.
-/
namespace S2E.Beam

/-- The members, gaussian_beam_base.hpp:104-106. -/
structure Beam where
  wavelength : ℝ
  waist : ℝ
  power : ℝ

/-- `SetWaveLength_m`, gaussian_beam_base.cpp:18-21. -/
noncomputable def Beam.setWavelength (b : Beam) (x : ℝ) : Res Beam := if x > 0 then .ok { b with wavelength := x } else .throws

/-- `SetBeamWaistRadius_m`, gaussian_beam_base.cpp:23-26. -/
noncomputable def Beam.setWaist (b : Beam) (x : ℝ) : Res Beam := if x > 0 then .ok { b with waist := x } else .throws

/-- `SetTotalPower_W`, gaussian_beam_base.cpp:28-31. -/
noncomputable def Beam.setPower (b : Beam) (x : ℝ) : Res Beam := if x ≥ 0 then .ok { b with power := x } else .throws

/-- `CalcBeamWidthRadius_m`, gaussian_beam_base.cpp:37-41. -/
noncomputable def Beam.width (b : Beam) (z : ℝ) : ℝ :=
  let rayleigh := Real.pi * b.waist * b.waist / b.wavelength
  b.waist * Real.sqrt (1 + (z / rayleigh) ^ 2)

/-- `CalcIntensity_W_m2`, gaussian_beam_base.cpp:43-50. -/
noncomputable def Beam.intensity (b : Beam) (z r : ℝ) : ℝ :=
  let w := b.width z
  let peak := 2 * b.power / (Real.pi * w * w)
  peak * Real.exp (-2 * r * r / (w * w))

end S2E.Beam
