import Mathlib.Analysis.SpecialFunctions.Trigonometric.Deriv
import Mathlib.MeasureTheory.Integral.IntervalIntegral.Basic
import Mathlib.Analysis.SpecialFunctions.Complex.Arg
import Mathlib.Data.Fin.VecNotation
import Mathlib.Algebra.BigOperators.Fin

/-!
# Sun and Moon in the deep-space theory

The attraction of a distant body on an Earth orbit, as celestial mechanics has it: the quadrupole term of its potential, averaged over the mean anomaly of
the satellite (and over the longitude of the body), and Lagrange's planetary equations for the averaged potential. Nothing here refers to the code: the
numbers are the published mean orbits of Sun and Moon of Spacetrack Report No. 3. Time is in minutes, angles are in radians.
-/
namespace S2E.ThirdBody

/-- Scalar product. -/
def dot (x y : Fin 3 → ℝ) : ℝ := x 0 * y 0 + x 1 * y 1 + x 2 * y 2

/-- The unit vector to the perigee of an orbit with node `W`, inclination `i` and argument of perigee `w`. -/
noncomputable def P (i W w : ℝ) : Fin 3 → ℝ :=
  ![Real.cos W * Real.cos w - Real.sin W * Real.cos i * Real.sin w, Real.sin W * Real.cos w + Real.cos W * Real.cos i * Real.sin w, Real.sin i * Real.sin w]

/-- The unit vector 90 degrees ahead of the perigee in the plane of the orbit. -/
noncomputable def Q (i W w : ℝ) : Fin 3 → ℝ :=
  ![-Real.cos W * Real.sin w - Real.sin W * Real.cos i * Real.cos w, -Real.sin W * Real.sin w + Real.cos W * Real.cos i * Real.cos w, Real.sin i * Real.cos w]

/-- The position on the orbit at the eccentric anomaly `E`. -/
noncomputable def point (a e i W w E : ℝ) (k : Fin 3) : ℝ :=
  a * (Real.cos E - e) * P i W w k + a * Real.sqrt (1 - e ^ 2) * Real.sin E * Q i W w k

/-- A distant body: the two axes of its orbit (towards its perigee, and 90 degrees ahead), its mean motion, its eccentricity and the perturbation coefficient
`C` of the Report, for which `GM / r^3` of the body is `4 C n`. -/
structure Body where
  A : Fin 3 → ℝ
  B : Fin 3 → ℝ
  n : ℝ
  ecc : ℝ
  C : ℝ

/-- The direction to the body at its longitude `f` from its perigee. -/
noncomputable def Body.direction (b : Body) (f : ℝ) (k : Fin 3) : ℝ := Real.cos f * b.A k + Real.sin f * b.B k

/-- The disturbing function of the body at longitude `f`, averaged over the mean anomaly of the satellite (`(1 - e cos E) dE` is the differential of the mean
anomaly). Of the varying distance of the body the Report keeps the first order, `1 + 3 ecc cos f`, in the part that does not depend on the direction. -/
noncomputable def single (b : Body) (f a e i W w : ℝ) : ℝ :=
  1 / (2 * Real.pi) * ∫ E in (0 : ℝ)..2 * Real.pi,
    4 * b.C * b.n * ((3 * dot (point a e i W w E) (b.direction f) ^ 2 - (1 + 3 * b.ecc * Real.cos f) * dot (point a e i W w E) (point a e i W w E)) / 2) * (1 - e * Real.cos E)

/-- The disturbing function averaged over the longitude of the body too. -/
noncomputable def double (b : Body) (a e i W w : ℝ) : ℝ := 1 / (2 * Real.pi) * ∫ f in (0 : ℝ)..2 * Real.pi, single b f a e i W w

/-- The rates of eccentricity, inclination and mean anomaly; the rate of the perigee with the cosine of the inclination times that of the node; and the sine of
the inclination times the rate of the node. -/
@[ext] structure Rates where
  e : ℝ
  i : ℝ
  M : ℝ
  wn : ℝ
  node : ℝ

/-- Lagrange's planetary equations for a disturbing function `R a e i W w` that does not depend on the mean anomaly, and the mean motion `n`. -/
noncomputable def lagrange (R : ℝ → ℝ → ℝ → ℝ → ℝ → ℝ) (n a e i W w : ℝ) : Rates where
  e := -(Real.sqrt (1 - e ^ 2) / (n * a ^ 2 * e)) * deriv (fun w => R a e i W w) w
  i := (Real.cos i * deriv (fun w => R a e i W w) w - deriv (fun W => R a e i W w) W) / (n * a ^ 2 * Real.sqrt (1 - e ^ 2) * Real.sin i)
  M := -((1 - e ^ 2) / (n * a ^ 2 * e)) * deriv (fun e => R a e i W w) e - 2 / (n * a) * deriv (fun a => R a e i W w) a
  wn := Real.sqrt (1 - e ^ 2) / (n * a ^ 2 * e) * deriv (fun e => R a e i W w) e
  node := 1 / (n * a ^ 2 * Real.sqrt (1 - e ^ 2)) * deriv (fun i => R a e i W w) i

/-- `c` is the periodic integral of `excess`: its derivative is `excess`, and its mean over a revolution of the body is zero. (There is only one such `c`.) -/
def IsPeriodic (excess c : ℝ → ℝ) : Prop := (∀ f, HasDerivAt c (excess f) f) ∧ ∫ f in (0 : ℝ)..2 * Real.pi, c f = 0

/-- The periodic corrections of one body, as functions of its longitude: the integrals of the excess of the rates over the mean rates, in revolutions of the
body at its mean motion. -/
structure Periodics (b : Body) (n a e i W w : ℝ) (c : ℝ → Rates) : Prop where
  ecc : IsPeriodic (fun f => ((lagrange (single b f) n a e i W w).e - (lagrange (double b) n a e i W w).e) / b.n) fun f => (c f).e
  incl : IsPeriodic (fun f => ((lagrange (single b f) n a e i W w).i - (lagrange (double b) n a e i W w).i) / b.n) fun f => (c f).i
  anomaly : IsPeriodic (fun f => ((lagrange (single b f) n a e i W w).M - (lagrange (double b) n a e i W w).M) / b.n) fun f => (c f).M
  perigee : IsPeriodic (fun f => ((lagrange (single b f) n a e i W w).wn - (lagrange (double b) n a e i W w).wn) / b.n) fun f => (c f).wn
  ascending : IsPeriodic (fun f => ((lagrange (single b f) n a e i W w).node - (lagrange (double b) n a e i W w).node) / b.n) fun f => (c f).node

/-! ## Sun and Moon -/

/-- The axes of an orbit with the given cosines and sines of the argument of perigee, the inclination and the node. -/
def axisA (cg sg ci si ch sh : ℝ) : Fin 3 → ℝ := ![cg * ch - sg * ci * sh, cg * sh + sg * ci * ch, sg * si]
def axisB (cg sg ci si ch sh : ℝ) : Fin 3 → ℝ := ![-sg * ch - cg * ci * sh, -sg * sh + cg * ci * ch, cg * si]

/-- The Sun: the ecliptic, with its perigee. -/
noncomputable def sun : Body where
  A := axisA 0.1945905 (-0.98088458) 0.91744867 0.39785416 1 0
  B := axisB 0.1945905 (-0.98088458) 0.91744867 0.39785416 1 0
  n := 1.19459e-5
  ecc := 0.01675
  C := 2.9864797e-6

/-- The longitude of the ascending node of the Moon on the ecliptic, `day` days after 1900 January 0.5. -/
noncomputable def moonNode (day : ℝ) : ℝ := 4.5236020 - 9.2422029e-4 * day
/-- The inclination to the equator: cosine and sine. -/
noncomputable def moonCosI (day : ℝ) : ℝ := 0.91375164 - 0.03568096 * Real.cos (moonNode day)
noncomputable def moonSinI (day : ℝ) : ℝ := Real.sqrt (1 - moonCosI day ^ 2)
/-- The node on the equator: sine and cosine. -/
noncomputable def moonSinH (day : ℝ) : ℝ := 0.089683511 * Real.sin (moonNode day) / moonSinI day
noncomputable def moonCosH (day : ℝ) : ℝ := Real.sqrt (1 - moonSinH day ^ 2)
/-- The arc between the nodes on the ecliptic and on the equator. -/
noncomputable def moonArc (day : ℝ) : ℝ :=
  Complex.arg ⟨moonCosH day * Real.cos (moonNode day) + 0.91744867 * moonSinH day * Real.sin (moonNode day), 0.39785416 * Real.sin (moonNode day) / moonSinI day⟩
/-- The longitude of the perigee. -/
noncomputable def moonPerigee (day : ℝ) : ℝ := 5.8351514 + 0.0019443680 * day
/-- The argument of perigee from the node on the equator. -/
noncomputable def moonG (day : ℝ) : ℝ := moonPerigee day + moonArc day - moonNode day

/-- The Moon. -/
noncomputable def moon (day : ℝ) : Body where
  A := axisA (Real.cos (moonG day)) (Real.sin (moonG day)) (moonCosI day) (moonSinI day) (moonCosH day) (moonSinH day)
  B := axisB (Real.cos (moonG day)) (Real.sin (moonG day)) (moonCosI day) (moonSinI day) (moonCosH day) (moonSinH day)
  n := 1.5835218e-4
  ecc := 0.05490
  C := 4.7968065e-7

end S2E.ThirdBody
