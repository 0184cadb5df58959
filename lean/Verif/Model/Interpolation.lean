import Verif.Model.Basic
import Verif.Model.LinAlg
import Mathlib.Analysis.SpecialFunctions.Trigonometric.Basic

/-!
# `src/math_physics/math/interpolation.{hpp,cpp}` and `src/math_physics/orbit/interpolation_orbit.{hpp,cpp}`

Doubles are elements of an ordered field `K` (real numbers for the trigonometric interpolation), without rounding. `none` stands for a
result that is not a finite number: it is returned when a division by zero happens. (An infinity or NaN created by such a division stays
one: the code only adds, subtracts and multiplies it afterwards and divides it by finite numbers.)
-/
namespace S2E.Interp

/-- The data of an `Interpolation` object, interpolation.hpp:70-72. -/
structure Interpolation (K : Type) where
  /-- `independent_variables_` -/
  xs : List K
  /-- `dependent_variables_` -/
  ys : List K
  /-- `degree_` -/
  degree : ℕ
  deriving DecidableEq

/-- Constructor, interpolation.hpp:29-35 (the two lists are not checked to have the same length; the warning is console output). -/
def new {K : Type} (xs ys : List K) : Interpolation K := ⟨xs, ys, xs.length⟩

variable {K : Type} [Field K] [LinearOrder K]

/-- The loop of `FindNearestPoint`, interpolation.cpp:85-93: `(output, difference1)`. -/
def nearestLoop (v : ℕ → K) (n : ℕ) (x : K) : ℕ × K :=
  (List.range n).foldl (fun p i => if |x - v i| < p.2 then (i, |x - v i|) else p) (0, |x - v 0|)

/-- `FindNearestPoint`, interpolation.cpp:84-95. The list is non-empty and has `degree_` elements or more in every call below. -/
def findNearestPoint (s : Interpolation K) (x : K) : ℕ := (nearestLoop (fun i => s.xs.getD i 0) s.degree x).1

/-- Inner loop of `CalcPolynomial`, interpolation.cpp:23-28, after the first `k` values of `i`: the arrays `(down_diff, up_diff)`,
updated in place. -/
def innerLoop (v : ℕ → K) (x : K) (m k : ℕ) (st : Option ((ℕ → K) × (ℕ → K))) : Option ((ℕ → K) × (ℕ → K)) :=
  (List.range k).foldl (fun st i => st.bind fun (down, up) =>
    let denominator := v i - v (i + m)
    if denominator = 0 then none
    else
      let downMinusUp := down (i + 1) - up i
      some (Function.update down i ((v i - x) * downMinusUp / denominator),
        Function.update up i ((v (i + m) - x) * downMinusUp / denominator))) st

/-- State of the outer loop of `CalcPolynomial`: `y_output`, `down_diff`, `up_diff`, `d_idx`. -/
structure Neville (K : Type) where
  y : K
  down : ℕ → K
  up : ℕ → K
  dIdx : ℕ

/-- Outer loop body of `CalcPolynomial`, interpolation.cpp:21-39. -/
def outerBody (v : ℕ → K) (n : ℕ) (x : K) (nearest : ℕ) (st : Option (Neville K)) (m : ℕ) : Option (Neville K) :=
  st.bind fun s => (innerLoop v x m (n - m) (some (s.down, s.up))).map fun (down, up) =>
    if nearest ≥ m then ⟨s.y + up (nearest - s.dIdx), down, up, s.dIdx + 1⟩
    else ⟨s.y + down 0, down, up, s.dIdx⟩

/-- `CalcPolynomial`, interpolation.cpp:12-42. Element 0 of an empty list, or an element behind the end of a list of dependent
variables shorter than `degree_`, is read out of range (for `degree_ ≥ 2` every element is read, for `degree_ = 1` element 0). -/
def calcPolynomial (s : Interpolation K) (x : K) : Res (Option K) :=
  if s.xs = [] ∨ s.xs.length < s.degree ∨ s.ys.length < s.degree then .ub
  else
    let v := fun i => s.xs.getD i 0
    let y := fun i => s.ys.getD i 0
    let nearest := findNearestPoint s x
    .ok (((List.range' 1 (s.degree - 1)).foldl (outerBody v s.degree x nearest) (some ⟨y nearest, y, y, 1⟩)).map Neville.y)

/-- `PushAndPopData`, interpolation.cpp:73-82: the returned flag and the object afterwards. `back()` and `erase(begin())` of an empty
vector are undefined. -/
def pushAndPop (s : Interpolation K) (x y : K) : Res (Bool × Interpolation K) :=
  match s.xs.getLast? with
  | none => .ub
  | some last =>
    if x ≤ last then .ok (false, s)
    else if s.ys = [] then .ub
    else .ok (true, { s with xs := s.xs.tail ++ [x], ys := s.ys.tail ++ [y] })

/-- Index range used by `CalcTrigonometric`, interpolation.cpp:46-59: `(start_id, end_id)`. -/
noncomputable def trigRange (s : Interpolation ℝ) (x : ℝ) : ℕ × ℕ :=
  if s.degree % 2 = 0 then
    if findNearestPoint s x * 2 < s.degree then (0, s.degree - 1) else (1, s.degree)
  else (0, s.degree)

/-- Inner loop of `CalcTrigonometric`, interpolation.cpp:62-66. -/
noncomputable def trigFactor (v : ℕ → ℝ) (x period : ℝ) (a b i : ℕ) : Option ℝ :=
  (List.range' a (b - a)).foldl (fun t j => t.bind fun t =>
    if i = j then some t
    else if Real.sin (period * (v i - v j) / 2) = 0 then none
    else some (t * (Real.sin (period * (x - v j) / 2) / Real.sin (period * (v i - v j) / 2)))) (some 1)

/-- `CalcTrigonometric`, interpolation.cpp:44-71. An empty list is read out of range by `FindNearestPoint` (degree 0 is even), a list
of dependent variables shorter than the range by the sum. -/
noncomputable def calcTrigonometric (s : Interpolation ℝ) (x period : ℝ) : Res (Option ℝ) :=
  let r := trigRange s x
  if s.xs = [] ∨ s.xs.length < s.degree ∨ s.ys.length < r.2 then .ub
  else
    .ok ((List.range' r.1 (r.2 - r.1)).foldl (fun acc i => acc.bind fun acc =>
      (trigFactor (fun i => s.xs.getD i 0) x period r.1 r.2 i).map fun t => acc + t * s.ys.getD i 0) (some 0))

/-! ## `InterpolationOrbit` -/

/-- The three `Interpolation` objects, interpolation_orbit.hpp:79. -/
structure Orbit (K : Type) where
  axis : Fin 3 → Interpolation K

/-- Constructor, interpolation_orbit.cpp:10-19. -/
def newOrbit (degree : ℕ) : Orbit K := ⟨fun _ => new (List.replicate degree (-1)) (List.replicate degree 0)⟩

/-- `InterpolationOrbit::PushAndPopData`, interpolation_orbit.cpp:21-30: axis after axis, leaving at the first refusal. -/
def pushAndPopOrbit (s : Orbit K) (time : K) (position : Fin 3 → K) : Res (Bool × Orbit K) := do
  let r0 ← pushAndPop (s.axis 0) time (position 0)
  if r0.1 = false then .ok (false, ⟨Function.update s.axis 0 r0.2⟩)
  else
    let r1 ← pushAndPop (s.axis 1) time (position 1)
    if r1.1 = false then .ok (false, ⟨Function.update (Function.update s.axis 0 r0.2) 1 r1.2⟩)
    else
      let r2 ← pushAndPop (s.axis 2) time (position 2)
      .ok (r2.1, ⟨Function.update (Function.update (Function.update s.axis 0 r0.2) 1 r1.2) 2 r2.2⟩)

/-- `GetTimeList`, interpolation_orbit.hpp:64. -/
def timeList (s : Orbit K) : List K := (s.axis 0).xs

/-- `GetPositionDataList`, interpolation_orbit.hpp:71-76: `interpolation_position_[3]` does not exist. -/
def positionDataList (s : Orbit K) (axis : ℕ) : Res (List K) :=
  if axis > 3 then .ok (s.axis 2).ys
  else if h : axis < 3 then .ok (s.axis ⟨axis, h⟩).ys
  else .ub

/-- Evaluate three components that may be undefined or not finite. -/
def three (f : Fin 3 → Res (Option K)) : Res (Fin 3 → Option K) := do
  let a ← f 0
  let b ← f 1
  let c ← f 2
  .ok ![a, b, c]

/-- `CalcPositionWithTrigonometric`, interpolation_orbit.cpp:32-38. -/
noncomputable def positionTrigonometric (s : Orbit ℝ) (time period : ℝ) : Res (Fin 3 → Option ℝ) :=
  three fun i => calcTrigonometric (s.axis i) time period

/-- `CalcPositionWithPolynomial`, interpolation_orbit.cpp:40-46. -/
def positionPolynomial (s : Orbit K) (time : K) : Res (Fin 3 → Option K) :=
  three fun i => calcPolynomial (s.axis i) time

end S2E.Interp
