import Verif.Model.GeomagneticField
import Verif.Spec.Gravity
import Verif.Spec.Geodesy
/-!
# The main magnetic field, independently of the code

The field is minus the gradient of a potential given by Gauss coefficients, in Schmidt's semi-normalisation. The coefficients are read off the numbers of a
coefficient file, whose lines are in the order g(1,0), g(1,1), h(1,1), g(2,0), g(2,1), h(2,1), g(2,2), h(2,2), g(3,0), ...
-/
namespace S2E.Igrf
open TwoBody Gravity

/-- Schmidt's factor. -/
noncomputable def schmidt (n m : ℕ) : ℝ := Real.sqrt ((if m = 0 then 1 else 2) * ((n - m).factorial : ℝ) / ((n + m).factorial : ℝ))

/-- The magnetic potential of the coefficients up to degree `N`, reference radius `a`. -/
noncomputable def magneticPotential (a : ℝ) (N : ℕ) (g h : ℕ → ℕ → ℝ) (p : Fin 3 → ℝ) : ℝ :=
  a * ∑ n ∈ Finset.Icc 1 N, ∑ m ∈ Finset.range (n + 1),
    (a / len p) ^ (n + 1) * (schmidt n m * associated n m (p 2 / len p)) * (g n m * Real.cos (m * longitude p) + h n m * Real.sin (m * longitude p))

/-- Line (from 0) of the coefficient g(n,m). -/
def gLine (n m : ℕ) : ℕ := n ^ 2 - 1 + (2 * m - 1)

/-- Line (from 0) of the coefficient h(n,m). -/
def hLine (n m : ℕ) : ℕ := n ^ 2 - 1 + 2 * m

/-- Number in line `i` and column `j` of the file. -/
def Table.entry (t : Table) (i j : ℕ) : ℝ := (t.rows.getD i []).getD j 0

/-- Year of column `j`. -/
def Table.year (t : Table) (j : ℕ) : ℝ := t.years.getD j 0

/-- A table with all coefficients up to degree `N` in `c` columns, the last of which is the yearly change after the last epoch. -/
structure Table.Complete (t : Table) (N c : ℕ) : Prop where
  degree : t.maxod = N
  degree_range : 8 ≤ N ∧ N ≤ 18
  columns : t.ncol = c
  columns_range : 2 ≤ c ∧ c ≤ 50
  years : c - 1 ≤ t.years.length
  increasing : ∀ j, j + 2 < c → t.year j < t.year (j + 1)
  rows : (N + 1) ^ 2 - 1 ≤ t.rows.length
  full : ∀ i, i < (N + 1) ^ 2 - 1 → c ≤ (t.rows.getD i []).length

/-- Column `j` is the one for the year `y`: the last epoch not after `y` (the first one for earlier years). -/
def Table.Column (t : Table) (c : ℕ) (y : ℝ) (j : ℕ) : Prop := j + 2 ≤ c ∧ (∀ i, 1 ≤ i → i ≤ j → t.year i ≤ y) ∧ (j + 2 < c → y < t.year (j + 1))

/-- The coefficient of line `i` in the year `y`, from column `j` on: linear to the next epoch, or with the yearly change. -/
noncomputable def Table.value (t : Table) (c j : ℕ) (y : ℝ) (i : ℕ) : ℝ :=
  t.entry i j + (if j + 2 = c then t.entry i (j + 1) else (t.entry i (j + 1) - t.entry i j) / (t.year (j + 1) - t.year j)) * (y - t.year j)

/-- The coefficient of line `i` vanishes around column `j`. -/
def Table.Zero (t : Table) (j i : ℕ) : Prop := t.entry i j = 0 ∧ t.entry i (j + 1) = 0

/-- The last line that does not vanish is not that of a coefficient of order 0. -/
def Table.EndsWithOrder (t : Table) (N j : ℕ) : Prop :=
  ∀ n, 1 ≤ n → n ≤ N → ¬t.Zero j (gLine n 0) → ∃ i, gLine n 0 < i ∧ i < (N + 1) ^ 2 - 1 ∧ ¬t.Zero j i

/-- States before the first evaluation: only paths have been set. -/
inductive Before : List Char → Igrf → Prop
  | initial : Before [] Igrf.initial
  | path {old name s s'} : Before old s → s.setFilePath name = .ok s' → Before name s'

/-- States after a first evaluation in the year `y` with the path `path`, and any further evaluations and changes of the path. -/
inductive After (files : List Char → Option Table) (path : List Char) (y : ℝ) : Igrf → Prop
  | first {s s' junk lat lon alt side B} : Before path s → s.igrfCalc files junk y lat lon alt side = .ok (s', B) → After files path y s'
  | next {s s' junk year lat lon alt side B} : After files path y s → s.igrfCalc files junk year lat lon alt side = .ok (s', B) → After files path y s'
  | path {s s' name} : After files path y s → s.setFilePath name = .ok s' → After files path y s'

/-- The factor between the two values of π in use. -/
noncomputable def kappa : ℝ := 3.14159265359 / Real.pi

/-- Components after turning the axes about the third one. -/
noncomputable def turned (a : ℝ) (v : Fin 3 → ℝ) : Fin 3 → ℝ := ![Real.cos a * v 0 + Real.sin a * v 1, -Real.sin a * v 0 + Real.cos a * v 1, v 2]

end S2E.Igrf

namespace S2E.Geomag

/-- The noise source after `k` draws. -/
def source {γ : Type} (draw : γ → ℝ × γ) (g : γ) : ℕ → γ
  | 0 => g
  | k + 1 => (draw (source draw g k)).2

/-- Draw number `k`, from 0. -/
def white {γ : Type} (draw : γ → ℝ × γ) (g : γ) (k : ℕ) : ℝ := (draw (source draw g k)).1

/-- One component of a random walk (from 0) after `n` steps of length 0.1, and its noise source: in a step the rate is drawn four times and averaged with the weights 1, 2, 2, 1; beyond the
limit the rate points back. -/
noncomputable def walk {γ : Type} (draw : γ → ℝ × γ) (limit : ℝ) (g : γ) : ℕ → ℝ × γ
  | 0 => (0, g)
  | n + 1 =>
    let (x, g) := walk draw limit g n
    let rate (x : ℝ) (k : ℕ) : ℝ := if limit < x then -|white draw g k| else if x < -limit then |white draw g k| else white draw g k
    let r0 := rate x 0
    let r1 := rate (x + 0.05 * r0) 1
    let r2 := rate (x + 0.05 * r1) 2
    let r3 := rate (x + 0.1 * r2) 3
    (x + 0.1 * (r0 + 2 * r1 + 2 * r2 + r3) / 6, source draw g 4)

/-- Worlds after `n` evaluations of the field by any objects, `o` being the object that made the first one. -/
inductive Ran {γ : Type} (draw : ℝ → γ → ℝ × γ) (fresh : (Fin 3 → γ) × γ) (files : List Char → Option Igrf.Table) : Option GeoField → ℕ → World γ → Prop
  | start : Ran draw fresh files none 0 World.initial
  | object {o n w w' f file a b c} : Ran draw fresh files o n w → create w file a b c = .ok (w', f) → Ran draw fresh files o n w'
  | call {o n w w' f f' junk a} : Ran draw fresh files o n w → f.enabled = true → calcMagneticField draw fresh files junk w f a = .ok (w', f') →
      Ran draw fresh files (some (o.getD f)) (n + 1) w'

end S2E.Geomag
