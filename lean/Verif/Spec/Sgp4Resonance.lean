import Verif.Model.Sgp4
import Mathlib.Analysis.Calculus.Deriv.Basic

/-!
# Resonance of the deep-space orbits

The mean motion `n` and the resonance angle `l` of a resonant orbit follow `l' = n + xfact`, `n' = F(w, l)`, where the force `F` is a sum of terms
`D sin(j w + k l - G)` and `w` is the argument of perigee, which moves at a constant rate. The published method integrates these equations from the epoch
with Taylor steps of second order and of 720 minutes, in which `w` is held at its value at the beginning of the step, and a last step of the time left.
-/
namespace S2E.Sgp4

/-- One term `D sin(j w + k l - G)` of the force. -/
structure Term where
  D : ℝ
  j : ℝ
  k : ℝ
  G : ℝ

/-- The terms of the half-day resonance (`irez` is 2) and of the synchronous resonance. -/
noncomputable def terms (s : Elset) : List Term :=
  if s.irez = 2 then
    [⟨s.d2201, 2, 1, 5.7686396⟩, ⟨s.d2211, 0, 1, 5.7686396⟩, ⟨s.d3210, 1, 1, 0.95240898⟩, ⟨s.d3222, -1, 1, 0.95240898⟩, ⟨s.d4410, 2, 2, 1.8014998⟩,
     ⟨s.d4422, 0, 2, 1.8014998⟩, ⟨s.d5220, 1, 1, 1.0508330⟩, ⟨s.d5232, -1, 1, 1.0508330⟩, ⟨s.d5421, 1, 2, 4.4108898⟩, ⟨s.d5433, -1, 2, 4.4108898⟩]
  else [⟨s.del1, 0, 1, 0.13130908⟩, ⟨s.del2, 0, 2, 2 * 2.8843198⟩, ⟨s.del3, 0, 3, 3 * 0.37448087⟩]

/-- The force. -/
noncomputable def force (s : Elset) (w l : ℝ) : ℝ := ((terms s).map fun x => x.D * Real.sin (x.j * w + x.k * l - x.G)).sum

/-- Time, angle, mean motion. -/
structure Angle where
  time : ℝ
  l : ℝ
  n : ℝ

/-- One Taylor step of second order. -/
noncomputable def taylor (s : Elset) (h : ℝ) (x : Angle) : Angle :=
  let w := s.argpo + s.argpdot * x.time
  let l' := x.n + s.xfact
  let n' := force s w x.l
  let n'' := deriv (force s w) x.l * l'
  { time := x.time + h, l := x.l + l' * h + n' * (h ^ 2 / 2), n := x.n + n' * h + n'' * (h ^ 2 / 2) }

/-- The step towards the time `t`. -/
noncomputable def stepTo (t : ℝ) : ℝ := if 0 < t then 720 else -720

/-- The number of whole steps. -/
noncomputable def steps (t : ℝ) : ℕ := ⌊|t| / 720⌋₊

/-- After the whole steps. -/
noncomputable def lastPoint (s : Elset) (t : ℝ) : Angle := (taylor s (stepTo t))^[steps t] ⟨0, s.xlamo, s.no⟩

/-- At the time `t`. -/
noncomputable def resonance (s : Elset) (t : ℝ) : Angle := taylor s (t - (lastPoint s t).time) (lastPoint s t)

end S2E.Sgp4
