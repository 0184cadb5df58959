import Verif.Model.LinAlg
import Mathlib.Analysis.SpecialFunctions.Pow.Real

/-!
# `src/math_physics/numerical_integration/*` and `src/math_physics/math/ordinary_differential_equation*.hpp`

`Vector<N>` is `Vec n`; doubles are real numbers (no rounding). The coefficient literals of the tableaux are exact rational numbers.
`operator+` and `scalar *` on vectors are the pointwise `+` and `•` of functions. `InterfaceOde::DerivativeFunction` is `const`, so the
differential equation is a function `f : ℝ → Vec n → Vec n` of the independent variable and the state.
-/
namespace S2E.Integ

/-- Settings and coefficients of a `RungeKutta<N>` object, runge_kutta.hpp:38-46. `assign(number_of_stages_, 0.0)` followed by element
assignments is a function that is `0` at the indices which are not assigned; every access in the code is below `number_of_stages_`. -/
structure Tableau where
  /-- `number_of_stages_` -/
  stages : ℕ
  /-- `approximation_order_` -/
  order : ℕ
  /-- `nodes_` -/
  nodes : ℕ → ℚ
  /-- `weights_` -/
  weights : ℕ → ℚ
  /-- `rk_matrix_` -/
  matrix : ℕ → ℕ → ℚ

/-- `RungeKutta4` constructor, runge_kutta_4.hpp:27-45. -/
def rk4 : Tableau where
  stages := 4
  order := 4
  nodes := fun
    | 1 => 1 / 2
    | 2 => 1 / 2
    | 3 => 1
    | _ => 0
  weights := fun
    | 0 => 1 / 6
    | 3 => 1 / 6
    | 1 => 1 / 3
    | 2 => 1 / 3
    | _ => 0
  matrix := fun
    | 1, 0 => 1 / 2
    | 2, 1 => 1 / 2
    | 3, 2 => 1
    | _, _ => 0

/-- `RungeKuttaFehlberg` constructor, runge_kutta_fehlberg_implementation.hpp:14-63 (`weights_`, `nodes_`, `rk_matrix_`). -/
def rkf : Tableau where
  stages := 6
  order := 4
  nodes := fun
    | 1 => 1 / 4
    | 2 => 3 / 8
    | 3 => 12 / 13
    | 4 => 1
    | 5 => 1 / 2
    | _ => 0
  weights := fun
    | 0 => 25 / 216
    | 1 => 0
    | 2 => 1408 / 2565
    | 3 => 2197 / 4104
    | 4 => -1 / 5
    | 5 => 0
    | _ => 0
  matrix := fun
    | 1, 0 => 1 / 4
    | 2, 0 => 3 / 32
    | 2, 1 => 9 / 32
    | 3, 0 => 1932 / 2197
    | 3, 1 => -7200 / 2197
    | 3, 2 => 7296 / 2197
    | 4, 0 => 439 / 216
    | 4, 1 => -8
    | 4, 2 => 3680 / 513
    | 4, 3 => -845 / 4104
    | 5, 0 => -8 / 27
    | 5, 1 => 2
    | 5, 2 => -3544 / 2565
    | 5, 3 => 1859 / 4104
    | 5, 4 => -11 / 40
    | _, _ => 0

/-- `higher_order_weights_` of `RungeKuttaFehlberg`, runge_kutta_fehlberg_implementation.hpp:30-35. -/
def rkfHigher : ℕ → ℚ
  | 0 => 16 / 135
  | 1 => 0
  | 2 => 6656 / 12825
  | 3 => 28561 / 56430
  | 4 => -9 / 50
  | 5 => 2 / 55
  | _ => 0

/-- `DormandPrince5` constructor, dormand_prince_5_implementation.hpp:17-75 (`weights_`, `nodes_`, `rk_matrix_`). -/
def dp5 : Tableau where
  stages := 7
  order := 5
  nodes := fun
    | 0 => 0
    | 1 => 1 / 5
    | 2 => 3 / 10
    | 3 => 4 / 5
    | 4 => 8 / 9
    | 5 => 1
    | 6 => 1
    | _ => 0
  weights := fun
    | 0 => 5179 / 57600
    | 1 => 0
    | 2 => 7571 / 16695
    | 3 => 393 / 640
    | 4 => -92097 / 339200
    | 5 => 187 / 2100
    | 6 => 1 / 40
    | _ => 0
  matrix := fun
    | 1, 0 => 1 / 5
    | 2, 0 => 3 / 40
    | 2, 1 => 9 / 40
    | 3, 0 => 44 / 45
    | 3, 1 => -56 / 15
    | 3, 2 => 32 / 9
    | 4, 0 => 19372 / 6561
    | 4, 1 => -25360 / 2187
    | 4, 2 => 64448 / 6561
    | 4, 3 => -212 / 729
    | 5, 0 => 9017 / 3168
    | 5, 1 => -355 / 33
    | 5, 2 => 46732 / 5247
    | 5, 3 => 49 / 176
    | 5, 4 => -5103 / 18656
    | 6, 0 => 35 / 384
    | 6, 1 => 0
    | 6, 2 => 500 / 1113
    | 6, 3 => 125 / 192
    | 6, 4 => -2187 / 6784
    | 6, 5 => 11 / 84
    | _, _ => 0

/-- `higher_order_weights_` of `DormandPrince5`, dormand_prince_5_implementation.hpp:42-48. -/
def dp5Higher : ℕ → ℚ
  | 0 => 35 / 384
  | 1 => 0
  | 2 => 500 / 1113
  | 3 => 125 / 192
  | 4 => -2187 / 6784
  | 5 => 11 / 84
  | 6 => 0
  | _ => 0

/-- `coefficients_` of `DormandPrince5`, dormand_prince_5_implementation.hpp:78-120: one `Vector<5>` per stage `0..5`. -/
def dp5Coefficients : ℕ → ℕ → ℚ
  | 0, 0 => 1 / 11282082432 * 11282082432
  | 0, 1 => 1 / 11282082432 * -32272833064
  | 0, 2 => 1 / 11282082432 * 34969693132
  | 0, 3 => 1 / 11282082432 * -13107642775
  | 0, 4 => 1 / 11282082432 * 157015080
  | 2, 1 => -100 / 32700410799 * -1323431896
  | 2, 2 => -100 / 32700410799 * 2074956840
  | 2, 3 => -100 / 32700410799 * -914128567
  | 2, 4 => -100 / 32700410799 * 15701508
  | 3, 1 => 25 / 5641041216 * -889289856
  | 3, 2 => 25 / 5641041216 * 2460397220
  | 3, 3 => 25 / 5641041216 * -1518414297
  | 3, 4 => 25 / 5641041216 * 94209048
  | 4, 1 => -2187 / 199316789632 * -259006536
  | 4, 2 => -2187 / 199316789632 * 687873124
  | 4, 3 => -2187 / 199316789632 * -451824525
  | 4, 4 => -2187 / 199316789632 * 52338360
  | 5, 1 => 11 / 2467955532 * -361440756
  | 5, 2 => 11 / 2467955532 * 946554244
  | 5, 3 => 11 / 2467955532 * -661884105
  | 5, 4 => 11 / 2467955532 * 106151040
  | _, _ => 0

/-- The data of a `NumericalIntegrator<N>` object (numerical_integrator.hpp:68-75) together with `slope_` (runge_kutta.hpp:47) and
`local_truncation_error_` (embedded_runge_kutta.hpp:48), which no constructor initialises: `none` until the first `Integrate`. -/
structure Integrator (n : ℕ) where
  stepWidth : ℝ
  time : ℝ
  current : Vec n
  previous : Vec n
  slope : List (Vec n)
  error : Option ℝ

variable {n : ℕ}

/-- The state at which the slope of stage `i` is evaluated: inner loop of `CalcSlope`, runge_kutta_template.hpp:28-31. `ks` holds the
slopes computed so far. -/
noncomputable def stageState (T : Tableau) (h : ℝ) (x : Vec n) (ks : List (Vec n)) (i : ℕ) : Vec n :=
  (List.range i).foldl (fun state j => state + (((T.matrix i j : ℚ) : ℝ) * h) • ks.getD j 0) x

/-- `CalcSlope`, runge_kutta_template.hpp:23-35: the list `slope_` after the loop over the first `m` stages. `slope_.assign` gives zero
vectors; element `i` is written before it is read (`j < i`), so the list is built up one element at a time. -/
noncomputable def slopes (T : Tableau) (f : ℝ → Vec n → Vec n) (h t : ℝ) (x : Vec n) (m : ℕ) : List (Vec n) :=
  (List.range m).foldl (fun ks i => ks ++ [f (t + ((T.nodes i : ℚ) : ℝ) * h) (stageState T h x ks i)]) []

/-- `CalcSlope` on the object, runge_kutta_template.hpp:23-35. -/
noncomputable def calcSlope (T : Tableau) (f : ℝ → Vec n → Vec n) (s : Integrator n) : Integrator n :=
  { s with slope := slopes T f s.stepWidth s.time s.current T.stages }

/-- Constructors: numerical_integrator.hpp:29-30 followed by the `CalcSlope()` at the end of each method's constructor
(runge_kutta_4.hpp:44, runge_kutta_fehlberg_implementation.hpp:62, dormand_prince_5_implementation.hpp:122). -/
noncomputable def new (T : Tableau) (f : ℝ → Vec n → Vec n) (h : ℝ) : Integrator n :=
  calcSlope T f { stepWidth := h, time := 0, current := 0, previous := 0, slope := [], error := none }

/-- `SetState`, numerical_integrator.hpp:47-51. -/
def setState (s : Integrator n) (t : ℝ) (x : Vec n) : Integrator n :=
  { s with time := t, current := x, previous := x }

/-- The weighted sum over the stages: loops at runge_kutta_template.hpp:17-19 and embedded_runge_kutta_implementation.hpp:20-23. -/
noncomputable def combine (w : ℕ → ℚ) (h : ℝ) (x : Vec n) (ks : List (Vec n)) (m : ℕ) : Vec n :=
  (List.range m).foldl (fun state i => state + (((w i : ℚ) : ℝ) * h) • ks.getD i 0) x

/-- `RungeKutta<N>::Integrate`, runge_kutta_template.hpp:12-21 (used by `RungeKutta4`). -/
noncomputable def integrate (T : Tableau) (f : ℝ → Vec n → Vec n) (s : Integrator n) : Integrator n :=
  let s := calcSlope T f s
  { s with
    previous := s.current
    current := combine T.weights s.stepWidth s.current s.slope T.stages
    time := s.time + s.stepWidth }

/-- `EmbeddedRungeKutta<N>::Integrate`, embedded_runge_kutta_implementation.hpp:12-32. -/
noncomputable def integrateEmbedded (T : Tableau) (higher : ℕ → ℚ) (f : ℝ → Vec n → Vec n) (s : Integrator n) : Integrator n :=
  let s := calcSlope T f s
  let lower := combine T.weights s.stepWidth s.current s.slope T.stages
  let high := combine higher s.stepWidth s.current s.slope T.stages
  { s with
    previous := s.current
    error := some (calcNorm (lower - high))
    current := high
    time := s.time + s.stepWidth }

/-- `EmbeddedRungeKutta<N>::ControlStepWidth`, embedded_runge_kutta_implementation.hpp:34-39. Reading `local_truncation_error_` before
any `Integrate` reads an uninitialised double: `ub`. `none` stands for a step width that is infinite or NaN: division by a zero error
estimate (`tol / 0` is an infinity or NaN, and so is its power times the step width) and `pow` of a negative base. -/
noncomputable def controlStepWidth (T : Tableau) (tol : ℝ) (s : Integrator n) : Res (Option (Integrator n)) :=
  match s.error with
  | none => .ub
  | some e =>
    if e = 0 ∨ tol / e < 0 then .ok none
    else
      let updated := (tol / e) ^ (1 / ((T.order + 1 : ℕ) : ℝ)) * s.stepWidth
      if updated ≤ 0 then .ok (some s) else .ok (some { s with stepWidth := updated })

/-- `RungeKutta4::CalcInterpolationState`, runge_kutta_4.hpp:47-51. -/
def interpolateRk4 (s : Integrator n) (_sigma : ℝ) : Vec n := s.current

/-- `RungeKuttaFehlberg::CalcInterpolationWeights`, runge_kutta_fehlberg_implementation.hpp:83-97. -/
noncomputable def rkfInterpolationWeights (sigma : ℝ) : ℕ → ℝ
  | 0 => 1 - sigma * (301 / 120 + sigma * (-269 / 108 + sigma * 311 / 360))
  | 1 => 0
  | 2 => sigma * (7168 / 1425 + sigma * (-4096 / 513 + sigma * 14848 / 4275))
  | 3 => sigma * (-28561 / 8360 + sigma * (199927 / 22572 - sigma * 371293 / 75240))
  | 4 => sigma * (57 / 50 + sigma * (-3 + sigma * 42 / 25))
  | 5 => sigma * (-96 / 55 + sigma * (40 / 11 - sigma * 102 / 55))
  | 6 => sigma * (3 / 2 + sigma * (-4 + sigma * 5 / 2))
  | _ => 0

/-- `RungeKuttaFehlberg::CalcInterpolationState`, runge_kutta_fehlberg_implementation.hpp:65-81. -/
noncomputable def interpolateRkf (f : ℝ → Vec n → Vec n) (s : Integrator n) (sigma : ℝ) : Vec n :=
  let state7 := s.previous + s.stepWidth • ((1 / 6 : ℝ) • s.slope.getD 0 0 + (1 / 6 : ℝ) • s.slope.getD 4 0
    + (2 / 3 : ℝ) • s.slope.getD 5 0)
  let k7 := f s.time state7
  let w := rkfInterpolationWeights sigma
  let state := (List.range rkf.stages).foldl
    (fun state i => state + (sigma * s.stepWidth * w i) • s.slope.getD i 0) s.previous
  state + (sigma * s.stepWidth) • (w 6 • k7)

/-- `DormandPrince5::CalcInterpolationWeights`, dormand_prince_5_implementation.hpp:137-150. -/
noncomputable def dp5InterpolationWeights (sigma : ℝ) (stage : ℕ) : ℝ :=
  if stage < dp5.stages - 1 then
    (List.range 5).foldl (fun w j => w + sigma ^ j * ((dp5Coefficients stage j : ℚ) : ℝ)) 0
  else if stage = dp5.stages - 1 then
    sigma * (1 - sigma) * (8293050 * sigma ^ 2 - 82437520 * sigma + 44764047) / 29380423
  else 0

/-- `DormandPrince5::CalcInterpolationState`, dormand_prince_5_implementation.hpp:125-135. -/
noncomputable def interpolateDp5 (s : Integrator n) (sigma : ℝ) : Vec n :=
  (List.range dp5.stages).foldl
    (fun state i => state + (sigma * s.stepWidth * dp5InterpolationWeights sigma i) • s.slope.getD i 0) s.previous

/-- `OrdinaryDifferentialEquation<N>::Update`, ordinary_differential_equation_template_functions.hpp:29-48, for a derivative function
without side effects: the new independent variable and state. -/
noncomputable def odeUpdate (f : ℝ → Vec n → Vec n) (h t : ℝ) (x : Vec n) : ℝ × Vec n :=
  let k1 := h • f t x
  let k2 := h • f (t + 1 / 2 * h) (x + (1 / 2 : ℝ) • k1)
  let k3 := h • f (t + 1 / 2 * h) (x + (1 / 2 : ℝ) • k2)
  let k4 := h • f (t + h) (x + k3)
  (t + h, x + (1 / 6 : ℝ) • (k1 + (2 : ℝ) • (k2 + k3) + k4))

end S2E.Integ
