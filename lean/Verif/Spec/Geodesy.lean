import Mathlib.Analysis.SpecialFunctions.Trigonometric.Basic
/-!
# Geodetic coordinates, independently of the model
-/
namespace S2E.Geodesy

/-- The point `s` lies on the ellipsoid of revolution with equatorial radius `a` and flattening `f`. -/
def OnEllipsoid (a f : ℝ) (s : Fin 3 → ℝ) : Prop := (s 0 ^ 2 + s 1 ^ 2) / a ^ 2 + s 2 ^ 2 / (a * (1 - f)) ^ 2 = 1

/-- The direction with latitude `lat` and longitude `lon`. -/
noncomputable def direction (lat lon : ℝ) : Fin 3 → ℝ := ![Real.cos lat * Real.cos lon, Real.cos lat * Real.sin lon, Real.sin lat]

/-- `p` has the geodetic latitude, longitude and altitude `lat`, `lon`, `alt`: it lies `alt` above the surface point whose outward normal
(the gradient of the ellipsoid's equation) has that latitude and longitude. -/
def HasGeodetic (a f : ℝ) (p : Fin 3 → ℝ) (lat lon alt : ℝ) : Prop :=
  ∃ s : Fin 3 → ℝ, OnEllipsoid a f s ∧
    (∃ κ : ℝ, 0 < κ ∧ ∀ i, κ * direction lat lon i = ![s 0 / a ^ 2, s 1 / a ^ 2, s 2 / (a * (1 - f)) ^ 2] i) ∧
    ∀ i, p i = s i + alt * direction lat lon i

end S2E.Geodesy
