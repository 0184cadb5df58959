import Verif.Spec.Sgp4Report
import Verif.Spec.ThirdBody

/-!
# The deep-space theory

Sets with a period of 225 minutes and more: "8. The SDP4 model" and the deep-space equations of Spacetrack Report No. 3 with the revisions of Vallado,
Crawford, Hujsak and Kelso (2006). Sun and Moon enter through the averaged potential of Spec/ThirdBody. Nothing here refers to the model of the code.
-/
namespace S2E.Sgp4.Deep

open S2E.Sgp4.Report
open S2E.ThirdBody

variable (g : Gravity) (x : Elements)

/-- `day` is the number of days from 1900 January 0.5 to the epoch of the set. -/
noncomputable def meanRates (b : Body) : Rates := lagrange (double b) (n g x) (a g x) x.e x.i x.node x.w

variable (day : ℝ)

/-- The mean rates of Sun and Moon together. -/
noncomputable def eRate : ℝ := (meanRates g x sun).e + (meanRates g x (moon day)).e
noncomputable def iRate : ℝ := (meanRates g x sun).i + (meanRates g x (moon day)).i
noncomputable def MRate : ℝ := (meanRates g x sun).M + (meanRates g x (moon day)).M

/-- Within 3 degrees of the equator the node is not moved. -/
def Equatorial : Prop := x.i < 5.2359877e-2 ∨ Real.pi - 5.2359877e-2 < x.i

open Classical in
noncomputable def nodeRate : ℝ := if Equatorial x then 0 else ((meanRates g x sun).node + (meanRates g x (moon day)).node) / Real.sin x.i
noncomputable def wRate : ℝ := (meanRates g x sun).wn + (meanRates g x (moon day)).wn - Real.cos x.i * nodeRate g x day

/-! ## Resonance with the rotation of the Earth -/

/-- Radians per minute. -/
noncomputable def rotation : ℝ := 4.37526908801129966e-3

/-- Greenwich sidereal time, `day` days after 1900 January 0.5 (the formula counts from 1970 January 0). -/
noncomputable def sidereal : ℝ :=
  let d := day - 18261.5 - 7305
  1.7321343856509374 + (1.72027916940703639e-2 + 2 * Real.pi) * d + 5.07551419432269442e-15 * d ^ 2

/-- Half-day resonance: 12 hours, eccentric; synchronous resonance: 24 hours. -/
def HalfDay : Prop := 8.26e-3 ≤ n g x ∧ n g x ≤ 9.24e-3 ∧ 0.5 ≤ x.e
def Synchronous : Prop := 0.0034906585 < n g x ∧ n g x < 0.0052359877

/-- One term `D sin(j w + k l - G)` of the force. -/
structure Wave where
  D : ℝ
  j : ℤ
  k : ℤ
  G : ℝ

/-- The inclination functions `F_lmp`. -/
noncomputable def F220 (i : ℝ) : ℝ := 3 / 4 * (1 + Real.cos i) ^ 2
noncomputable def F221 (i : ℝ) : ℝ := 3 / 2 * Real.sin i ^ 2
noncomputable def F311 (i : ℝ) : ℝ := 15 / 16 * Real.sin i ^ 2 * (1 + 3 * Real.cos i) - 3 / 4 * (1 + Real.cos i)
noncomputable def F321 (i : ℝ) : ℝ := 15 / 8 * Real.sin i * (1 - 2 * Real.cos i - 3 * Real.cos i ^ 2)
noncomputable def F322 (i : ℝ) : ℝ := -15 / 8 * Real.sin i * (1 + 2 * Real.cos i - 3 * Real.cos i ^ 2)
noncomputable def F330 (i : ℝ) : ℝ := 15 / 8 * (1 + Real.cos i) ^ 3
noncomputable def F441 (i : ℝ) : ℝ := 105 / 4 * Real.sin i ^ 2 * (1 + Real.cos i) ^ 2
noncomputable def F442 (i : ℝ) : ℝ := 315 / 8 * Real.sin i ^ 4
noncomputable def F522 (i : ℝ) : ℝ :=
  315 / 32 * Real.sin i * (Real.sin i ^ 2 * (1 - 2 * Real.cos i - 5 * Real.cos i ^ 2) + 0.33333333 * (-2 + 4 * Real.cos i + 6 * Real.cos i ^ 2))
noncomputable def F523 (i : ℝ) : ℝ :=
  Real.sin i * (4.92187512 * Real.sin i ^ 2 * (-2 - 4 * Real.cos i + 10 * Real.cos i ^ 2) + 6.56250012 * (1 + 2 * Real.cos i - 3 * Real.cos i ^ 2))
noncomputable def F542 (i : ℝ) : ℝ :=
  945 / 32 * Real.sin i * (2 - 8 * Real.cos i + Real.cos i ^ 2 * (-12 + 8 * Real.cos i + 10 * Real.cos i ^ 2))
noncomputable def F543 (i : ℝ) : ℝ :=
  945 / 32 * Real.sin i * (-2 - 8 * Real.cos i + Real.cos i ^ 2 * (12 + 8 * Real.cos i - 10 * Real.cos i ^ 2))

/-- A polynomial in the eccentricity. -/
def poly (c0 c1 c2 c3 e : ℝ) : ℝ := c0 + c1 * e + c2 * e ^ 2 + c3 * e ^ 3

/-- The eccentricity functions `G_lpq` of the Report. -/
noncomputable def G200 (e : ℝ) : ℝ := 1 - 5 / 2 * e ^ 2 + 13 / 16 * e ^ 4
noncomputable def G300 (e : ℝ) : ℝ := 1 - 6 * e ^ 2 + 6.60937 * e ^ 4
noncomputable def G310' (e : ℝ) : ℝ := 1 + 2 * e ^ 2
noncomputable def G201 (e : ℝ) : ℝ := -0.306 - 0.44 * (e - 0.64)
noncomputable def G211 (e : ℝ) : ℝ := if e ≤ 0.65 then poly 3.616 (-13.247) 16.29 0 e else poly (-72.099) 331.819 (-508.738) 266.724 e
noncomputable def G310 (e : ℝ) : ℝ := if e ≤ 0.65 then poly (-19.302) 117.39 (-228.419) 156.591 e else poly (-346.844) 1582.851 (-2415.925) 1246.113 e
noncomputable def G322 (e : ℝ) : ℝ := if e ≤ 0.65 then poly (-18.9068) 109.7927 (-214.6334) 146.5816 e else poly (-342.585) 1554.908 (-2366.899) 1215.972 e
noncomputable def G410 (e : ℝ) : ℝ := if e ≤ 0.65 then poly (-41.122) 242.694 (-471.094) 313.953 e else poly (-1052.797) 4758.686 (-7193.992) 3651.957 e
noncomputable def G422 (e : ℝ) : ℝ := if e ≤ 0.65 then poly (-146.407) 841.88 (-1629.014) 1083.435 e else poly (-3581.69) 16178.11 (-24462.77) 12422.52 e
noncomputable def G520 (e : ℝ) : ℝ :=
  if e ≤ 0.65 then poly (-532.114) 3017.977 (-5740.032) 3708.276 e
  else if e ≤ 0.715 then poly 1464.74 (-4664.75) 3763.64 0 e else poly (-5149.66) 29936.92 (-54087.36) 31324.56 e
noncomputable def G521 (e : ℝ) : ℝ := if e < 0.7 then poly (-822.71072) 4568.6173 (-8491.4146) 5337.524 e else poly (-51752.104) 218913.95 (-309468.16) 146349.42 e
noncomputable def G532 (e : ℝ) : ℝ := if e < 0.7 then poly (-853.666) 4690.25 (-8624.77) 5341.4 e else poly (-40023.88) 170470.89 (-242699.48) 115605.82 e
noncomputable def G533 (e : ℝ) : ℝ := if e < 0.7 then poly (-919.2277) 4988.61 (-9064.77) 5542.21 e else poly (-37995.78) 161616.52 (-229838.2) 109377.94 e

/-- `3 n^2 a^(-l) q`, the strength of a tesseral harmonic of degree `l`. -/
noncomputable def strength (l : ℕ) (q : ℝ) : ℝ := 3 * n g x ^ 2 / a g x ^ l * q

noncomputable def halfDayWaves : List Wave :=
  [⟨strength g x 2 1.7891679e-6 * F220 x.i * G201 x.e, 2, 1, 5.7686396⟩,
   ⟨strength g x 2 1.7891679e-6 * F221 x.i * G211 x.e, 0, 1, 5.7686396⟩,
   ⟨strength g x 3 3.7393792e-7 * F321 x.i * G310 x.e, 1, 1, 0.95240898⟩,
   ⟨strength g x 3 3.7393792e-7 * F322 x.i * G322 x.e, -1, 1, 0.95240898⟩,
   ⟨2 * strength g x 4 7.3636953e-9 * F441 x.i * G410 x.e, 2, 2, 1.8014998⟩,
   ⟨2 * strength g x 4 7.3636953e-9 * F442 x.i * G422 x.e, 0, 2, 1.8014998⟩,
   ⟨strength g x 5 1.1428639e-7 * F522 x.i * G520 x.e, 1, 1, 1.0508330⟩,
   ⟨strength g x 5 1.1428639e-7 * F523 x.i * G532 x.e, -1, 1, 1.0508330⟩,
   ⟨2 * strength g x 5 2.1765803e-9 * F542 x.i * G521 x.e, 1, 2, 4.4108898⟩,
   ⟨2 * strength g x 5 2.1765803e-9 * F543 x.i * G533 x.e, -1, 2, 4.4108898⟩]

noncomputable def synchronousWaves : List Wave :=
  [⟨strength g x 3 2.1460748e-6 * F311 x.i * G310' x.e, 0, 1, 0.13130908⟩,
   ⟨2 * strength g x 2 1.7891679e-6 * F220 x.i * G200 x.e, 0, 2, 2 * 2.8843198⟩,
   ⟨3 * strength g x 3 2.2123015e-7 * F330 x.i * G300 x.e, 0, 3, 3 * 0.37448087⟩]

/-- A resonant motion: the waves of the force, the rate of the angle without the change of the mean motion (less the mean motion), and the angle at the epoch. -/
structure Motion where
  waves : List Wave
  drift : ℝ
  angle : ℝ

/-- The angle is `M + 2 W - 2 theta`. -/
noncomputable def halfDay : Motion :=
  ⟨halfDayWaves g x, M' g x + MRate g x day + 2 * (node' g x + nodeRate g x day - rotation) - n g x, x.M + 2 * x.node - 2 * sidereal day⟩

/-- The angle is `M + W + w - theta`. -/
noncomputable def synchronous : Motion :=
  ⟨synchronousWaves g x, M' g x + MRate g x day + (w' g x + wRate g x day) + (node' g x + nodeRate g x day) - rotation - n g x,
   x.M + x.node + x.w - sidereal day⟩

/-- The force at an argument of perigee and an angle. -/
noncomputable def push (m : Motion) (w l : ℝ) : ℝ := (m.waves.map fun v => v.D * Real.sin (v.j * w + v.k * l - v.G)).sum

/-- One Taylor step of second order of `l' = n + drift`, `n' = push w l`, from the time `s`: time, angle, mean motion. -/
noncomputable def taylor (m : Motion) (h : ℝ) (y : ℝ × ℝ × ℝ) : ℝ × ℝ × ℝ :=
  let w := x.w + w' g x * y.1
  let l' := y.2.2 + m.drift
  let n' := push m w y.2.1
  let n'' := deriv (push m w) y.2.1 * l'
  (y.1 + h, y.2.1 + l' * h + n' * (h ^ 2 / 2), y.2.2 + n' * h + n'' * (h ^ 2 / 2))

/-- Steps of 720 minutes towards `t` and a last one of the time left. -/
noncomputable def integrate (m : Motion) (t : ℝ) : ℝ × ℝ × ℝ :=
  let y := (taylor g x m (if 0 < t then 720 else -720))^[⌊|t| / 720⌋₊] (0, m.angle, n g x)
  taylor g x m (t - y.1) y

/-! ## Mean elements at a time -/

variable (t : ℝ)

noncomputable def e1 : ℝ := x.e + eRate g x day * t
noncomputable def i1 : ℝ := x.i + iRate g x day * t
noncomputable def w1 : ℝ := x.w + (w' g x + wRate g x day) * t
noncomputable def node1 : ℝ := x.node + (node' g x + nodeRate g x day) * t - 21 / 2 * (n g x * k2 g * th x / (a g x ^ 2 * beta x ^ 2)) * C1 g x * t ^ 2

open Classical in
/-- The mean motion with resonance. -/
noncomputable def n1 : ℝ :=
  if HalfDay g x then (integrate g x (halfDay g x day) t).2.2 else if Synchronous g x then (integrate g x (synchronous g x day) t).2.2 else n g x

open Classical in
/-- The mean anomaly with resonance. -/
noncomputable def M1 : ℝ :=
  if HalfDay g x then (integrate g x (halfDay g x day) t).2.1 - 2 * node1 g x day t + 2 * (sidereal day + rotation * t)
  else if Synchronous g x then (integrate g x (synchronous g x day) t).2.1 - node1 g x day t - w1 g x day t + (sidereal day + rotation * t)
  else x.M + (M' g x + MRate g x day) * t

/-- Drag. -/
noncomputable def a2 : ℝ := (g.ke / n1 g x day t) ^ (2 / 3 : ℝ) * (1 - C1 g x * t) ^ 2
noncomputable def e2Raw : ℝ := e1 g x day t - x.B * C4 g x * t
noncomputable def e2 : ℝ := if e2Raw g x day t < 0 then 1e-6 else e2Raw g x day t
noncomputable def M2 : ℝ := M1 g x day t + n g x * (3 / 2 * C1 g x * t ^ 2)

/-! ## Periodics of Sun and Moon -/

/-- The longitude of a body from its perigee, for the mean anomaly `m`. -/
noncomputable def longitude (b : Body) (m : ℝ) : ℝ := m + 2 * b.ecc * Real.sin m
noncomputable def sunLongitude : ℝ := longitude sun (6.2565837 + 0.017201977 * day + sun.n * t)
noncomputable def moonLongitude : ℝ := longitude (moon day) (4.7199672 + 0.22997150 * day - moonPerigee day + (moon day).n * t)

/-- The corrections of two bodies together. -/
def together (b c : Rates) : Rates := ⟨b.e + c.e, b.i + c.i, b.M + c.M, b.wn + c.wn, b.node + c.node⟩

/-- The elements of the last part. -/
structure Last where
  a : ℝ
  e : ℝ
  i : ℝ
  node : ℝ
  w : ℝ
  M : ℝ

/-- The mean elements at the time `t`. -/
noncomputable def mean : Last := ⟨a2 g x day t, e2 g x day t, i1 g x day t, node1 g x day t, w1 g x day t, M2 g x day t⟩

/-- `y` differs from `x` by whole turns. -/
def Same (x y : ℝ) : Prop := ∃ k : ℤ, y = x + 2 * Real.pi * k

/-- The corrections `c` (those of both bodies together) are applied to the mean elements. From 0.2 rad on directly, below by Lyddane's modification: the corrections
are applied to `sin i sin W` and `sin i cos W`, and the mean longitude is kept; the node is counted from 0 to one turn before the corrections, and within half
a turn of that after them. -/
inductive Corrected (c : Rates) (p q : Last) : Prop
  | direct (far : 0.2 ≤ p.i + c.i) (ha : q.a = p.a) (he : q.e = p.e + c.e) (hi : q.i = p.i + c.i)
      (hnode : Same (p.node + c.node / Real.sin q.i) q.node) (hw : Same (p.w + c.wn - Real.cos q.i * (c.node / Real.sin q.i)) q.w) (hM : Same (p.M + c.M) q.M)
  | lyddane (W : ℝ) (near : p.i + c.i < 0.2) (ha : q.a = p.a) (he : q.e = p.e + c.e) (hi : q.i = p.i + c.i) (hW : Same p.node W) (hW0 : 0 ≤ W) (hW1 : W < 2 * Real.pi)
      (hnode : Same (Complex.arg ⟨Real.sin q.i * Real.cos W - c.node * Real.sin W + c.i * Real.cos q.i * Real.cos W,
        Real.sin q.i * Real.sin W + c.node * Real.cos W + c.i * Real.cos q.i * Real.sin W⟩) q.node) (hclose : |q.node - W| ≤ Real.pi)
      (hM : Same (p.M + c.M) q.M)
      (hw : Same (p.M + p.w + Real.cos q.i * W + (c.M + c.wn - c.i * W * Real.sin q.i)) (q.M + q.w + Real.cos q.i * q.node))

/-- A negative inclination is turned over. -/
noncomputable def positive (q : Last) : Last := if q.i < 0 then { q with i := -q.i, node := q.node + Real.pi, w := q.w - Real.pi } else q

/-! ## The last part, for elements `q`: the equations of Spec/Sgp4Report after the secular ones -/

variable (q : Last) (E : ℝ)

noncomputable def mm : ℝ := g.ke / q.a ^ (3 / 2 : ℝ)
noncomputable def ax : ℝ := q.e * Real.cos q.w
noncomputable def ay : ℝ := q.e * Real.sin q.w + A30 g * Real.sin q.i / (4 * k2 g * q.a * (1 - q.e ^ 2))
noncomputable def Ul : ℝ :=
  q.M + q.w + A30 g * Real.sin q.i / (8 * k2 g * q.a * (1 - q.e ^ 2)) * (q.e * Real.cos q.w) * ((3 + 5 * Real.cos q.i) / (1 + Real.cos q.i))
noncomputable def ecE : ℝ := ax q * Real.cos E + ay g q * Real.sin E
noncomputable def esE : ℝ := ax q * Real.sin E - ay g q * Real.cos E
noncomputable def el : ℝ := Real.sqrt (ax q ^ 2 + ay g q ^ 2)
noncomputable def pl : ℝ := q.a * (1 - el g q ^ 2)
noncomputable def rl : ℝ := q.a * (1 - ecE g q E)
noncomputable def rldot : ℝ := g.ke * (Real.sqrt q.a / rl g q E) * esE g q E
noncomputable def rlfdot : ℝ := g.ke * (Real.sqrt (pl g q) / rl g q E)
noncomputable def cu : ℝ := q.a / rl g q E * (Real.cos E - ax q + ay g q * esE g q E / (1 + Real.sqrt (1 - el g q ^ 2)))
noncomputable def su : ℝ := q.a / rl g q E * (Real.sin E - ay g q - ax q * esE g q E / (1 + Real.sqrt (1 - el g q ^ 2)))
noncomputable def ul : ℝ := Complex.arg ⟨cu g q E, su g q E⟩
noncomputable def rs : ℝ :=
  rl g q E * (1 - 3 / 2 * k2 g * (Real.sqrt (1 - el g q ^ 2) / pl g q ^ 2) * (3 * Real.cos q.i ^ 2 - 1))
    + k2 g / (2 * pl g q) * (1 - Real.cos q.i ^ 2) * Real.cos (2 * ul g q E)
noncomputable def us : ℝ := ul g q E - k2 g / (4 * pl g q ^ 2) * (7 * Real.cos q.i ^ 2 - 1) * Real.sin (2 * ul g q E)
noncomputable def nodes : ℝ := q.node + 3 * k2 g * Real.cos q.i / (2 * pl g q ^ 2) * Real.sin (2 * ul g q E)
noncomputable def is : ℝ := q.i + 3 * k2 g * Real.cos q.i / (2 * pl g q ^ 2) * Real.sin q.i * Real.cos (2 * ul g q E)
noncomputable def rsdot : ℝ := rldot g q E - k2 g * mm g q / pl g q * (1 - Real.cos q.i ^ 2) * Real.sin (2 * ul g q E)
noncomputable def rsfdot : ℝ :=
  rlfdot g q E + k2 g * mm g q / pl g q * ((1 - Real.cos q.i ^ 2) * Real.cos (2 * ul g q E) - 3 / 2 * (1 - 3 * Real.cos q.i ^ 2))

/-- Position in kilometres. -/
noncomputable def place (k : Fin 3) : ℝ := g.radius * (rs g q E * Uv (nodes g q E) (is g q E) (us g q E) k)

/-- Velocity in kilometres per second. -/
noncomputable def speed (k : Fin 3) : ℝ :=
  g.radius / 60 * (rsdot g q E * Uv (nodes g q E) (is g q E) (us g q E) k + rsfdot g q E * Vv (nodes g q E) (is g q E) (us g q E) k)

/-- The code for a positive mean motion: 6 for a satellite below the surface, 3 for an eccentricity out of range after the periodics, 1 for mean elements out
of range. -/
noncomputable def code : ℕ :=
  if rs g q E < 1 then 6 else if q.e < 0 ∨ 1 < q.e then 3
  else if 1 ≤ e2Raw g x day t ∨ e2Raw g x day t < -0.001 ∨ a2 g x day t < 0.95 then 1 else 0

/-! ## Where the equations hold -/

/-- A regular deep-space set: an ellipse that is no circle, a positive mean motion, a period of 225 minutes or more, not exactly equatorial, and nothing divided
by zero. -/
structure Regular : Prop where
  e0 : 0 < x.e
  e1 : x.e < 1
  no_pos : 0 < x.no
  n_pos : 0 < n g x
  deep : 225 ≤ 2 * Real.pi / n g x
  incl : 1.5e-12 < |1 + th x|
  sin_ne : Real.sin x.i ≠ 0
  aOld_ne : aOld g x ≠ 0
  s_ne : a g x ≠ s g x
  psi_ne : psi g x ≠ 0

end S2E.Sgp4.Deep
