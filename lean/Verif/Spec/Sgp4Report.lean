import Verif.Model.InitOrbit

/-!
# The near-Earth theory of Spacetrack Report No. 3

The equations of Hoots and Roehrich (1980), "6. The SGP4 model", in their notation, with the constants and the revisions of Vallado, Crawford, Hujsak and
Kelso (2006): the semi-major axis belongs to the recovered mean motion, `|1 - eta^2|` replaces `1 - eta^2`, and the drag terms with `e0` or `eta` in a
denominator are left out for `e0 <= 0.0001`. Units: Earth radii, minutes, radians. Nothing here refers to the model of the code, apart from the names
of the three sets of constants.
-/
namespace S2E.Sgp4.Report

open S2E.InitOrbit (Wgs)

/-- `ke` (Earth radii to the 3/2 per minute), the zonal harmonics, and kilometres per Earth radius. -/
structure Gravity where
  ke : ℝ
  J2 : ℝ
  J3 : ℝ
  J4 : ℝ
  radius : ℝ

/-- The published constants; `ke` is `sqrt(GM)` in Earth radii and minutes, except in the old set, where it is a rounded number. -/
noncomputable def gravity : Wgs → Gravity
  | .wgs72old => ⟨0.0743669161, 1.082616e-3, -2.53881e-6, -1.65597e-6, 6378.135⟩
  | .wgs72 => ⟨60 * Real.sqrt (398600.8 / 6378.135 ^ 3), 1.082616e-3, -2.53881e-6, -1.65597e-6, 6378.135⟩
  | .wgs84 => ⟨60 * Real.sqrt (398600.5 / 6378.137 ^ 3), 1.08262998905e-3, -2.53215306e-6, -1.61098761e-6, 6378.137⟩

/-- A set of mean elements: mean motion (radians per minute), eccentricity, inclination, mean anomaly, argument of perigee, node, `B*`. -/
structure Elements where
  no : ℝ
  e : ℝ
  i : ℝ
  M : ℝ
  w : ℝ
  node : ℝ
  B : ℝ

variable (g : Gravity) (x : Elements)

noncomputable def k2 : ℝ := g.J2 / 2
noncomputable def k4 : ℝ := -3 / 8 * g.J4
noncomputable def A30 : ℝ := -g.J3
noncomputable def th : ℝ := Real.cos x.i
noncomputable def beta : ℝ := Real.sqrt (1 - x.e ^ 2)

/-- Recovery of the mean motion. -/
noncomputable def a1 : ℝ := (g.ke / x.no) ^ (2 / 3 : ℝ)
noncomputable def delta1 : ℝ := 3 / 2 * (k2 g / (a1 g x) ^ 2) * ((3 * th x ^ 2 - 1) / beta x ^ 3)
noncomputable def aOld : ℝ := a1 g x * (1 - delta1 g x / 3 - delta1 g x ^ 2 - 134 / 81 * delta1 g x ^ 3)
noncomputable def delta0 : ℝ := 3 / 2 * (k2 g / (aOld g x) ^ 2) * ((3 * th x ^ 2 - 1) / beta x ^ 3)
noncomputable def n : ℝ := x.no / (1 + delta0 g x)
noncomputable def a : ℝ := (g.ke / n g x) ^ (2 / 3 : ℝ)

/-- Perigee radius, and height in kilometres. -/
noncomputable def perigee : ℝ := a g x * (1 - x.e)
noncomputable def height : ℝ := (perigee g x - 1) * g.radius

/-- The parameters of the density. -/
noncomputable def s : ℝ :=
  if height g x < 98 then 20 / g.radius + 1 else if height g x < 156 then perigee g x - (78 / g.radius + 1) + 1 else 78 / g.radius + 1
noncomputable def q0 : ℝ := 1 + 120 / g.radius
noncomputable def q4 : ℝ := (q0 g - s g x) ^ 4

noncomputable def xi : ℝ := 1 / (a g x - s g x)
noncomputable def eta : ℝ := a g x * x.e * xi g x
noncomputable def psi : ℝ := |1 - eta g x ^ 2|

noncomputable def C2 : ℝ :=
  q4 g x * xi g x ^ 4 * n g x * psi g x ^ (-7 / 2 : ℝ) *
    (a g x * (1 + 3 / 2 * eta g x ^ 2 + 4 * x.e * eta g x + x.e * eta g x ^ 3)
      + 3 / 2 * (k2 g * xi g x / psi g x) * (-1 / 2 + 3 / 2 * th x ^ 2) * (8 + 24 * eta g x ^ 2 + 3 * eta g x ^ 4))
noncomputable def C1 : ℝ := x.B * C2 g x
noncomputable def C3 : ℝ := if 0.0001 < x.e then q4 g x * xi g x ^ 5 * A30 g * n g x * Real.sin x.i / (k2 g * x.e) else 0
noncomputable def C4 : ℝ :=
  2 * n g x * q4 g x * xi g x ^ 4 * a g x * beta x ^ 2 * psi g x ^ (-7 / 2 : ℝ) *
    ((2 * eta g x * (1 + x.e * eta g x) + 1 / 2 * x.e + 1 / 2 * eta g x ^ 3)
      - 2 * k2 g * xi g x / (a g x * psi g x) *
        (3 * (1 - 3 * th x ^ 2) * (1 + 3 / 2 * eta g x ^ 2 - 2 * x.e * eta g x - 1 / 2 * x.e * eta g x ^ 3)
          + 3 / 4 * (1 - th x ^ 2) * (2 * eta g x ^ 2 - x.e * eta g x - x.e * eta g x ^ 3) * Real.cos (2 * x.w)))
noncomputable def C5 : ℝ :=
  2 * q4 g x * xi g x ^ 4 * a g x * beta x ^ 2 * psi g x ^ (-7 / 2 : ℝ) * (1 + 11 / 4 * eta g x * (eta g x + x.e) + x.e * eta g x ^ 3)
noncomputable def D2 : ℝ := 4 * a g x * xi g x * C1 g x ^ 2
noncomputable def D3 : ℝ := 4 / 3 * a g x * xi g x ^ 2 * (17 * a g x + s g x) * C1 g x ^ 3
noncomputable def D4 : ℝ := 2 / 3 * a g x ^ 2 * xi g x ^ 3 * (221 * a g x + 31 * s g x) * C1 g x ^ 4

/-- Secular effects of gravity. -/
noncomputable def M' : ℝ :=
  (1 + 3 * k2 g * (-1 + 3 * th x ^ 2) / (2 * a g x ^ 2 * beta x ^ 3)
    + 3 * k2 g ^ 2 * (13 - 78 * th x ^ 2 + 137 * th x ^ 4) / (16 * a g x ^ 4 * beta x ^ 7)) * n g x
noncomputable def w' : ℝ :=
  (-3 * k2 g * (1 - 5 * th x ^ 2) / (2 * a g x ^ 2 * beta x ^ 4)
    + 3 * k2 g ^ 2 * (7 - 114 * th x ^ 2 + 395 * th x ^ 4) / (16 * a g x ^ 4 * beta x ^ 8)
    + 5 * k4 g * (3 - 36 * th x ^ 2 + 49 * th x ^ 4) / (4 * a g x ^ 4 * beta x ^ 8)) * n g x
noncomputable def node' : ℝ :=
  (-3 * k2 g * th x / (a g x ^ 2 * beta x ^ 4)
    + 3 * k2 g ^ 2 * (4 * th x - 19 * th x ^ 3) / (2 * a g x ^ 4 * beta x ^ 8)
    + 5 * k4 g * th x * (3 - 7 * th x ^ 2) / (2 * a g x ^ 4 * beta x ^ 8)) * n g x

/-- Perigee below 220 km: the equations for `a` and `IL` are truncated after the terms in `C1`, and the terms in `C5`, `dw` and `dM` are dropped. -/
def Low : Prop := perigee g x < 220 / g.radius + 1

open Classical in
/-- `y` unless the perigee is low. -/
noncomputable def unlessLow (y : ℝ) : ℝ := if Low g x then 0 else y

variable (t : ℝ)

/-- Secular effects of drag, at `t` minutes after the epoch. -/
noncomputable def MDF : ℝ := x.M + M' g x * t
noncomputable def dw : ℝ := x.B * C3 g x * Real.cos x.w * t
noncomputable def dM : ℝ :=
  if 0.0001 < x.e then -2 / 3 * q4 g x * x.B * xi g x ^ 4 * (1 / (x.e * eta g x)) * ((1 + eta g x * Real.cos (MDF g x t)) ^ 3 - (1 + eta g x * Real.cos x.M) ^ 3)
  else 0
noncomputable def Mp : ℝ := MDF g x t + unlessLow g x (dw g x t + dM g x t)
noncomputable def w : ℝ := x.w + w' g x * t - unlessLow g x (dw g x t + dM g x t)
noncomputable def node : ℝ := x.node + node' g x * t - 21 / 2 * (n g x * k2 g * th x / (a g x ^ 2 * beta x ^ 2)) * C1 g x * t ^ 2
noncomputable def eRaw : ℝ := x.e - x.B * C4 g x * t - unlessLow g x (x.B * C5 g x * (Real.sin (Mp g x t) - Real.sin x.M))
noncomputable def e : ℝ := if eRaw g x t < 0 then 1e-6 else eRaw g x t
noncomputable def aT : ℝ := a g x * (1 - C1 g x * t - unlessLow g x (D2 g x * t ^ 2 + D3 g x * t ^ 3 + D4 g x * t ^ 4)) ^ 2
noncomputable def IL : ℝ :=
  Mp g x t + w g x t + node g x t
    + n g x * (3 / 2 * C1 g x * t ^ 2
      + unlessLow g x ((D2 g x + 2 * C1 g x ^ 2) * t ^ 3 + 1 / 4 * (3 * D3 g x + 12 * C1 g x * D2 g x + 10 * C1 g x ^ 3) * t ^ 4
        + 1 / 5 * (3 * D4 g x + 12 * C1 g x * D3 g x + 6 * D2 g x ^ 2 + 30 * C1 g x ^ 2 * D2 g x + 15 * C1 g x ^ 4) * t ^ 5))
noncomputable def nT : ℝ := g.ke / aT g x t ^ (3 / 2 : ℝ)

/-- Long-period periodics. -/
noncomputable def axN : ℝ := e g x t * Real.cos (w g x t)
noncomputable def ILL : ℝ :=
  A30 g * Real.sin x.i / (8 * k2 g * aT g x t * (1 - e g x t ^ 2)) * (e g x t * Real.cos (w g x t)) * ((3 + 5 * th x) / (1 + th x))
noncomputable def ayN : ℝ := e g x t * Real.sin (w g x t) + A30 g * Real.sin x.i / (4 * k2 g * aT g x t * (1 - e g x t ^ 2))
/-- The right side of Kepler's equation. -/
noncomputable def U : ℝ := IL g x t + ILL g x t - node g x t

variable (E : ℝ)

/-- Preliminary quantities for the short-period periodics, for a solution `E` (the Report's `E + w`) of Kepler's equation. -/
noncomputable def ecosE : ℝ := axN g x t * Real.cos E + ayN g x t * Real.sin E
noncomputable def esinE : ℝ := axN g x t * Real.sin E - ayN g x t * Real.cos E
noncomputable def eL : ℝ := Real.sqrt (axN g x t ^ 2 + ayN g x t ^ 2)
noncomputable def pL : ℝ := aT g x t * (1 - eL g x t ^ 2)
noncomputable def r : ℝ := aT g x t * (1 - ecosE g x t E)
noncomputable def rdot : ℝ := g.ke * (Real.sqrt (aT g x t) / r g x t E) * esinE g x t E
noncomputable def rfdot : ℝ := g.ke * (Real.sqrt (pL g x t) / r g x t E)
noncomputable def cosu : ℝ :=
  aT g x t / r g x t E * (Real.cos E - axN g x t + ayN g x t * esinE g x t E / (1 + Real.sqrt (1 - eL g x t ^ 2)))
noncomputable def sinu : ℝ :=
  aT g x t / r g x t E * (Real.sin E - ayN g x t - axN g x t * esinE g x t E / (1 + Real.sqrt (1 - eL g x t ^ 2)))
noncomputable def u : ℝ := Complex.arg ⟨cosu g x t E, sinu g x t E⟩

/-- Short-period periodics. -/
noncomputable def rk : ℝ :=
  r g x t E * (1 - 3 / 2 * k2 g * (Real.sqrt (1 - eL g x t ^ 2) / pL g x t ^ 2) * (3 * th x ^ 2 - 1))
    + k2 g / (2 * pL g x t) * (1 - th x ^ 2) * Real.cos (2 * u g x t E)
noncomputable def uk : ℝ := u g x t E - k2 g / (4 * pL g x t ^ 2) * (7 * th x ^ 2 - 1) * Real.sin (2 * u g x t E)
noncomputable def nodek : ℝ := node g x t + 3 * k2 g * th x / (2 * pL g x t ^ 2) * Real.sin (2 * u g x t E)
noncomputable def ik : ℝ := x.i + 3 * k2 g * th x / (2 * pL g x t ^ 2) * Real.sin x.i * Real.cos (2 * u g x t E)
noncomputable def rdotk : ℝ := rdot g x t E - k2 g * nT g x t / pL g x t * (1 - th x ^ 2) * Real.sin (2 * u g x t E)
noncomputable def rfdotk : ℝ :=
  rfdot g x t E + k2 g * nT g x t / pL g x t * ((1 - th x ^ 2) * Real.cos (2 * u g x t E) - 3 / 2 * (1 - 3 * th x ^ 2))

/-- The orientation vectors `M` and `N`, `U` and `V`. -/
noncomputable def Mv (node i : ℝ) : Fin 3 → ℝ := ![-Real.sin node * Real.cos i, Real.cos node * Real.cos i, Real.sin i]
noncomputable def Nv (node : ℝ) : Fin 3 → ℝ := ![Real.cos node, Real.sin node, 0]
noncomputable def Uv (node i u : ℝ) (k : Fin 3) : ℝ := Mv node i k * Real.sin u + Nv node k * Real.cos u
noncomputable def Vv (node i u : ℝ) (k : Fin 3) : ℝ := Mv node i k * Real.cos u - Nv node k * Real.sin u

/-- Position in kilometres. -/
noncomputable def position (k : Fin 3) : ℝ := g.radius * (rk g x t E * Uv (nodek g x t E) (ik g x t E) (uk g x t E) k)

/-- Velocity in kilometres per second. -/
noncomputable def velocity (k : Fin 3) : ℝ :=
  g.radius / 60 * (rdotk g x t E * Uv (nodek g x t E) (ik g x t E) (uk g x t E) k + rfdotk g x t E * Vv (nodek g x t E) (ik g x t E) (uk g x t E) k)

/-! ## The numerical solution of Kepler's equation -/

/-- The correction of one Newton step for `E - ax sin E + ay cos E = U`, limited to 0.95. -/
noncomputable def correction (U ax ay E : ℝ) : ℝ :=
  let d := (U - (E - ax * Real.sin E + ay * Real.cos E)) / (1 - ax * Real.cos E - ay * Real.sin E)
  max (-0.95) (min 0.95 d)

/-- `E` is found by at most nine steps from `U`: it is the first point whose correction is below `1e-12`, or the last one. -/
def Solved (U ax ay E : ℝ) : Prop :=
  ∃ k ≤ 9, E = (fun y => y + correction U ax ay y)^[k] U ∧ (|correction U ax ay E| < 1e-12 ∨ k = 9) ∧
    ∀ j < k, 1e-12 ≤ |correction U ax ay ((fun y => y + correction U ax ay y)^[j] U)|

/-! ## Where the equations hold -/

/-- A regular near-Earth element set: an ellipse, a positive mean motion, a period below 225 minutes, not exactly retrograde equatorial, and nothing
divided by zero. -/
structure Regular : Prop where
  e0 : 0 ≤ x.e
  e1 : x.e < 1
  no_pos : 0 < x.no
  n_pos : 0 < n g x
  near : 2 * Real.pi / n g x < 225
  incl : 1.5e-12 < |1 + th x|
  aOld_ne : aOld g x ≠ 0
  s_ne : a g x ≠ s g x
  psi_ne : psi g x ≠ 0

/-- The code of the 2006 revision: 1 for mean elements out of range, 6 for a satellite below the surface. -/
noncomputable def code : ℕ := if rk g x t E < 1 then 6 else if 1 ≤ eRaw g x t ∨ eRaw g x t < -0.001 ∨ aT g x t < 0.95 then 1 else 0

end S2E.Sgp4.Report
