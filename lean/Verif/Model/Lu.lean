import Verif.Model.Basic
import Mathlib.Algebra.Order.Field.Basic
import Mathlib.Algebra.Order.Ring.Abs
import Mathlib.Algebra.BigOperators.Group.Finset.Basic
import Mathlib.Data.Rat.Cast.Order
import Mathlib.Data.Matrix.Mul
import Mathlib.Order.Interval.Finset.Nat
/-!
# `src/math_physics/math/matrix_vector_template_functions.hpp`: LU decomposition, linear solve, inverse

Arithmetic is exact, in any linearly ordered field `K` (ℝ for the theorems' reading, ℚ to evaluate examples): rounding, infinities and NaN
are not modelled. `a[i][j]` is `a i j` with natural-number indices; the loops only use indices below `N`. An accumulation loop
`sum -= x_k` is the initial value minus a finite sum.
-/
namespace S2E.Lu

variable {K : Type} [Field K] [LinearOrder K] [IsStrictOrderedRing K]

/-- `a[i][j] = v`. -/
def setAt (a : ℕ → ℕ → K) (i j : ℕ) (v : K) : ℕ → ℕ → K := fun r c => if r = i ∧ c = j then v else a r c

/-- The scan of one row for its largest magnitude, matrix_vector_template_functions.hpp:47-53: the value of `biggest` after `n` elements. -/
def rowBiggest (a : ℕ → ℕ → K) (i : ℕ) : ℕ → K
  | 0 => 0
  | n + 1 => let b := rowBiggest a i n; if |a i n| > b then |a i n| else b

/-- The loop filling `coef`, matrix_vector_template_functions.hpp:45-59: `coef` after `n` rows, or the exception for a zero row. -/
def scaling (N : ℕ) (a : ℕ → ℕ → K) : ℕ → Res (ℕ → K)
  | 0 => .ok fun _ => 0
  | n + 1 => (scaling N a n).bind fun coef =>
      if rowBiggest a n N = 0 then .throws
      else .ok fun r => if r = n then 1 / rowBiggest a n N else coef r

/-- The loop over `i < j`, matrix_vector_template_functions.hpp:62-68: the matrix after `n` iterations. -/
def upper (j : ℕ) (a : ℕ → ℕ → K) : ℕ → ℕ → ℕ → K
  | 0 => a
  | i + 1 => let b := upper j a i; setAt b i j (b i j - ∑ k ∈ Finset.range i, b i k * b k j)

/-- State of the pivot search loop. -/
structure Pivot (K : Type) where
  a : ℕ → ℕ → K
  biggest : K
  imax : ℕ

/-- The loop over `i = j .. N-1`, matrix_vector_template_functions.hpp:70-84: the state after `n` iterations (`i = j + n` next). -/
def lower (j : ℕ) (coef : ℕ → K) (a : ℕ → ℕ → K) : ℕ → Pivot K
  | 0 => ⟨a, 0, j⟩
  | n + 1 =>
    let s := lower j coef a n
    let i := j + n
    let sum := s.a i j - ∑ k ∈ Finset.range j, s.a i k * s.a k j
    let a' := setAt s.a i j sum
    if coef i * |sum| ≥ s.biggest then ⟨a', coef i * |sum|, i⟩ else ⟨a', s.biggest, s.imax⟩

/-- Row exchange, matrix_vector_template_functions.hpp:86-93 (exchanging a row with itself does nothing, so the test `j != imax` only
saves time). Only columns below `N` are exchanged. -/
def swapRows (N : ℕ) (a : ℕ → ℕ → K) (j p : ℕ) : ℕ → ℕ → K :=
  fun r c => if c < N then (if r = j then a p c else if r = p then a j c else a r c) else a r c

/-- `coef[imax] = coef[j]`, matrix_vector_template_functions.hpp:94 (only if `j != imax`; otherwise it is a self-assignment). -/
def setCoef (coef : ℕ → K) (j p : ℕ) : ℕ → K := fun r => if r = p then coef j else coef r

/-- Division of the column below the pivot, matrix_vector_template_functions.hpp:101-106 (`j != N` always holds). -/
def divideColumn (N : ℕ) (a : ℕ → ℕ → K) (j : ℕ) : ℕ → ℕ → K :=
  fun r c => if c = j ∧ j < r ∧ r < N then a r c * (1 / a j j) else a r c

/-- State of the column loop. -/
structure LuState (K : Type) where
  a : ℕ → ℕ → K
  coef : ℕ → K
  index : ℕ → ℕ

/-- One iteration of the column loop, matrix_vector_template_functions.hpp:61-107. -/
def column (N j : ℕ) (s : LuState K) : Res (LuState K) :=
  let p := lower j s.coef (upper j s.a j) (N - j)
  let a := swapRows N p.a j p.imax
  if a j j = 0 then .throws
  else .ok ⟨divideColumn N a j, setCoef s.coef j p.imax, fun r => if r = j then p.imax else s.index r⟩

/-- The first `n` iterations of the column loop. -/
def columns (N : ℕ) (s : LuState K) : ℕ → Res (LuState K)
  | 0 => .ok s
  | j + 1 => (columns N s j).bind (column N j)

/-- `LuDecomposition`, matrix_vector_template_functions.hpp:43-109: the decomposed matrix and the pivot indices. -/
def luDecomposition (N : ℕ) (a : ℕ → ℕ → K) : Res (LuState K) :=
  (scaling N a N).bind fun coef => columns N ⟨a, coef, fun _ => 0⟩ N

/-- State of the forward loop of `SolveLinearSystemWithLu`. -/
structure Fwd (K : Type) where
  b : ℕ → K
  nonZero : Bool
  mark : ℕ

/-- Forward loop, matrix_vector_template_functions.hpp:113-129, after `n` iterations. -/
def forward (a : ℕ → ℕ → K) (index : ℕ → ℕ) (b : ℕ → K) : ℕ → Fwd K
  | 0 => ⟨b, false, 0⟩
  | i + 1 =>
    let s := forward a index b i
    let sum := s.b (index i)
    let b1 := fun r => if r = index i then s.b i else s.b r
    if s.nonZero then
      let sum := sum - ∑ j ∈ Finset.Ico s.mark i, a i j * b1 j
      ⟨fun r => if r = i then sum else b1 r, true, s.mark⟩
    else if sum ≠ 0 then ⟨fun r => if r = i then sum else b1 r, true, i⟩
    else ⟨fun r => if r = i then sum else b1 r, false, s.mark⟩

/-- Backward loop, matrix_vector_template_functions.hpp:131-137, after `n` iterations (the next index is `N - 1 - n`). -/
def backward (N : ℕ) (a : ℕ → ℕ → K) (b : ℕ → K) : ℕ → ℕ → K
  | 0 => b
  | n + 1 =>
    let c := backward N a b n
    let i := N - 1 - n
    let sum := c i - ∑ j ∈ Finset.Ico (i + 1) N, a i j * c j
    fun r => if r = i then sum / a i i else c r

/-- `SolveLinearSystemWithLu`, matrix_vector_template_functions.hpp:111-140. -/
def solveLinearSystemWithLu (N : ℕ) (a : ℕ → ℕ → K) (index : ℕ → ℕ) (b : ℕ → K) : ℕ → K :=
  backward N a (forward a index b N).b N

/-- A `Matrix<N, N>` as the function used above. -/
def ofMatrix {N : ℕ} (m : Matrix (Fin N) (Fin N) K) : ℕ → ℕ → K := fun i j => if h : i < N ∧ j < N then m ⟨i, h.1⟩ ⟨j, h.2⟩ else 0

/-- `CalcInverseMatrix`, matrix_vector_template_functions.hpp:24-41. -/
def calcInverseMatrix {N : ℕ} (m : Matrix (Fin N) (Fin N) K) : Res (Matrix (Fin N) (Fin N) K) :=
  (luDecomposition N (ofMatrix m)).bind fun s =>
    .ok fun j i => solveLinearSystemWithLu N s.a s.index (fun r => if r = i.val then 1 else 0) j.val

end S2E.Lu
