import Verif.Spec.TwoBody
import Mathlib.MeasureTheory.Integral.IntervalIntegral.Basic
import Mathlib.MeasureTheory.Measure.Lebesgue.Basic
import Mathlib.Analysis.SpecialFunctions.Exp
/-!
# Momentum exchange between a plane facet and light or a dilute gas, independently of the model

Directions are unit vectors; `n` is the outward normal of the facet.
-/
namespace S2E.Surf
open S2E.TwoBody

/-- Mirror image of a direction of travel `d` at a plane with normal `n`. -/
def mirror (n d : Fin 3 → ℝ) : Fin 3 → ℝ := d - (2 * dot d n) • n

/-- Mean of the normal component of the direction of emission for diffuse (Lambertian) emission: a share `2 cos t sin t dt` leaves at the
angle `t` from the normal. -/
noncomputable def lambertMean : ℝ := ∫ t in (0)..(Real.pi / 2), 2 * Real.cos t * Real.sin t * Real.cos t

/-- Force on a facet lit by a source in direction `s` (a unit vector towards the source): the light carries the momentum flux `pressure`
along `-s` through the projected area; the share `rho * sp` leaves along the mirrored direction, the share `rho * (1 - sp)` leaves
diffusely, the rest is absorbed. Force = momentum in minus momentum out. -/
noncomputable def lightForce (pressure area rho sp : ℝ) (n s : Fin 3 → ℝ) : Fin 3 → ℝ :=
  (pressure * area * dot s n) • (-s - (rho * sp) • mirror n (-s) - (rho * (1 - sp) * lambertMean) • n)

/-- Density, with respect to the speed `c` towards the facet, of molecules of a Maxwellian gas approaching it with mean normal speed `u`;
`beta` is the inverse of the most probable thermal speed. -/
noncomputable def maxwell (beta u c : ℝ) : ℝ := beta / Real.sqrt Real.pi * Real.exp (-(beta * (c - u)) ^ 2)

/-- Mass flux onto the facet. -/
noncomputable def massFlux (rho beta u : ℝ) : ℝ := rho * ∫ c in Set.Ioi (0:ℝ), c * maxwell beta u c

/-- Flux of normal momentum onto the facet. -/
noncomputable def normalFlux (rho beta u : ℝ) : ℝ := rho * ∫ c in Set.Ioi (0:ℝ), c ^ 2 * maxwell beta u c

/-- Normal momentum per unit mass carried away by molecules leaving the facet with the Maxwellian distribution of the wall. -/
noncomputable def emissionSpeed (betaWall : ℝ) : ℝ :=
  (∫ c in Set.Ioi (0:ℝ), c ^ 2 * maxwell betaWall 0 c) / ∫ c in Set.Ioi (0:ℝ), c * maxwell betaWall 0 c

/-- Force per area on a facet moving with velocity `v` through the gas: the incident molecules bring the normal momentum and, per unit
mass, the tangential momentum `-(v - (v.n) n)`; the share `1 - sigma` is mirrored, the share `sigma` is emitted diffusely at wall
temperature. -/
noncomputable def gasPressure (rho beta betaWall sigma : ℝ) (n v : Fin 3 → ℝ) : Fin 3 → ℝ :=
  let u := dot v n
  let vt := v - u • n
  let incident := -(normalFlux rho beta u) • n - (massFlux rho beta u) • vt
  let mirrored := (normalFlux rho beta u) • n - (massFlux rho beta u) • vt
  let emitted := (massFlux rho beta u * emissionSpeed betaWall) • n
  incident - (1 - sigma) • mirrored - sigma • emitted

end S2E.Surf
