import Mathlib.Analysis.SpecialFunctions.Exp
import Mathlib.Analysis.SpecialFunctions.Log.Basic
import Mathlib.Analysis.SpecialFunctions.Trigonometric.Basic
/-!
# The exponential atmosphere, independently of the model

Layers of the piecewise exponential model of Vallado, *Fundamentals of Astrodynamics and Applications*, table 8-4: between `base` and `top` [km] the density [kg/m^3]
is `rho` at the base and falls off with the scale height `scale` [km]. The last layer, from 1000 km on (3.019e-15, 268 km), has no top and is kept apart.
-/
namespace S2E.Atmosphere

/-- A layer. -/
structure Layer where
  base : ℝ
  top : ℝ
  rho : ℝ
  scale : ℝ

/-- The density a layer prescribes at altitude `h` [km]. -/
noncomputable def Layer.density (l : Layer) (h : ℝ) : ℝ := l.rho * Real.exp (-(h - l.base) / l.scale)

/-- The layers below 1000 km. -/
noncomputable def vallado : List Layer := [
  ⟨0, 25, 1.225, 7.249⟩,
  ⟨25, 30, 3.899e-2, 6.349⟩,
  ⟨30, 40, 1.774e-2, 6.682⟩,
  ⟨40, 50, 3.972e-3, 7.554⟩,
  ⟨50, 60, 1.057e-3, 8.382⟩,
  ⟨60, 70, 3.206e-4, 7.714⟩,
  ⟨70, 80, 8.770e-5, 6.549⟩,
  ⟨80, 90, 1.905e-5, 5.799⟩,
  ⟨90, 100, 3.396e-6, 5.382⟩,
  ⟨100, 110, 5.297e-7, 5.877⟩,
  ⟨110, 120, 9.661e-8, 7.263⟩,
  ⟨120, 130, 2.438e-8, 9.473⟩,
  ⟨130, 140, 8.484e-9, 12.636⟩,
  ⟨140, 150, 3.845e-9, 16.149⟩,
  ⟨150, 180, 2.070e-9, 22.523⟩,
  ⟨180, 200, 5.464e-10, 29.740⟩,
  ⟨200, 250, 2.789e-10, 37.105⟩,
  ⟨250, 300, 7.248e-11, 45.546⟩,
  ⟨300, 350, 2.418e-11, 53.628⟩,
  ⟨350, 400, 9.518e-12, 53.298⟩,
  ⟨400, 450, 3.725e-12, 58.515⟩,
  ⟨450, 500, 1.585e-12, 60.828⟩,
  ⟨500, 600, 6.967e-13, 63.822⟩,
  ⟨600, 700, 1.454e-13, 71.835⟩,
  ⟨700, 800, 3.614e-14, 88.667⟩,
  ⟨800, 900, 1.170e-14, 124.64⟩,
  ⟨900, 1000, 5.245e-15, 181.05⟩]

/-- The layer from 1000 km on. -/
noncomputable def exosphere : Layer := ⟨1000, 1000, 3.019e-15, 268⟩

/-- `v` is the value at height `h` of the interpolation of a table of heights and densities between neighbouring entries, linear in the logarithm of the density. -/
def LogLinear (t : List (ℝ × ℝ)) (h v : ℝ) : Prop :=
  ∃ (i : ℕ) (a b : ℝ × ℝ), t[i]? = some a ∧ t[i + 1]? = some b ∧ a.1 ≤ h ∧ h ≤ b.1 ∧ 0 < v ∧
    Real.log v = Real.log a.2 + (h - a.1) / (b.1 - a.1) * (Real.log b.2 - Real.log a.2)

/-- A direction turned eastward by 30 degrees about the Earth's axis: where the bulge of the atmosphere heated by the Sun has its apex. -/
noncomputable def lagged (sun : Fin 3 → ℝ) : Fin 3 → ℝ :=
  ![Real.cos (Real.pi / 6) * sun 0 - Real.sin (Real.pi / 6) * sun 1, Real.sin (Real.pi / 6) * sun 0 + Real.cos (Real.pi / 6) * sun 1, sun 2]

end S2E.Atmosphere
