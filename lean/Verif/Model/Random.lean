import Verif.Model.Quantization
import Mathlib.Analysis.SpecialFunctions.Log.Basic
import Mathlib.Data.Real.Sqrt
/-!
# `src/math_physics/randomization/` and the Runge-Kutta step of `OrdinaryDifferentialEquation` it is driven by

`long` is a 64-bit signed integer (Linux); theorem `C43_no_overflow` shows that no operation of the generator overflows it, and for valid
seeds not even 32 bits. Doubles are exact (a field `K` with floor, ℝ where `sqrt` and `log` occur).
-/
namespace S2E.Random

/-- `kA`, `kM`, `q_`, `r_`, minimal_standard_linear_congruential_generator.hpp:18-19, 49-50. -/
def kA : Int := 16807
@[inherit_doc kA] def kM : Int := 2147483647
@[inherit_doc kA] def q : Int := 127773
@[inherit_doc kA] def r : Int := 2836

/-- `0xdeadbeef`, the default seed, minimal_standard_linear_congruential_generator.cpp:14, global_randomization.cpp:23. -/
def deadbeef : Int := 3735928559

/-- `MinimalStandardLcg(seed)` and `Initialize(seed)`, minimal_standard_linear_congruential_generator.cpp:16-26: the new `seed_`. -/
def lcgInit (seed : Int) : Res Int := if seed = 0 then .throws else .ok seed

/-- The update of `seed_` in `operator double`, minimal_standard_linear_congruential_generator.cpp:29-33. -/
def lcgNext (s : Int) : Int :=
  let k := s.tdiv q
  let t := kA * (s - k * q) - r * k
  if t < 0 then t + kM else t

/-- Every integer value computed on the way, same lines. -/
def lcgIntermediates (s : Int) : List Int :=
  let k := s.tdiv q
  let t := kA * (s - k * q) - r * k
  [k, k * q, s - k * q, kA * (s - k * q), r * k, t, lcgNext s]

variable {K : Type} [Field K] [LinearOrder K] [IsStrictOrderedRing K] [FloorRing K]

/-- The value returned for state `s`: `a_m_ * seed_` with `a_m_ = 1.0 / kM`, minimal_standard_linear_congruential_generator.cpp:12, 34. -/
def lcgOut (s : Int) : K := 1 / ((kM : Int) : K) * ((s : Int) : K)

/-- `MinimalStandardLcg::operator double`, minimal_standard_linear_congruential_generator.cpp:28-35. -/
def lcgDraw (s : Int) : K × Int := (lcgOut (lcgNext s), lcgNext s)

/-- `MinimalStandardLcgWithShuffle`, minimal_standard_linear_congruential_generator_with_shuffle.hpp:55-58. -/
structure Shuffle (K : Type) where
  lcg : Int
  pos : Nat
  table : List K    -- mixing_table_, 32 elements

/-- The filling loop of `Initialize`, ..._with_shuffle.cpp:26-28: `n` further draws and the generator after them. -/
def fill : Nat → Int → List K × Int
  | 0, s => ([], s)
  | n + 1, s =>
    let d := lcgDraw (K := K) s
    let rest := fill n d.2
    (d.1 :: rest.1, rest.2)

/-- `Initialize`, ..._with_shuffle.cpp:19-29: eight discarded draws, then the table. `table_position_` is not touched. -/
def Shuffle.initialize (lcg : Int) (pos : Nat) : Shuffle K :=
  let warm := (fill (K := K) 8 lcg).2
  let t := fill (K := K) 32 warm
  ⟨t.2, pos, t.1⟩

/-- Default constructor, ..._with_shuffle.cpp:10. -/
def Shuffle.default : Shuffle K := Shuffle.initialize deadbeef 0

/-- `MinimalStandardLcgWithShuffle(seed)`, ..._with_shuffle.cpp:12. -/
def Shuffle.new (seed : Int) : Res (Shuffle K) := do
  let s ← lcgInit seed
  .ok (Shuffle.initialize s 0)

/-- `InitSeed`, ..._with_shuffle.cpp:14-17. -/
def Shuffle.initSeed (g : Shuffle K) (seed : Int) : Res (Shuffle K) := do
  let s ← lcgInit seed
  .ok (Shuffle.initialize s g.pos)

/-- `operator double`, ..._with_shuffle.cpp:31-38. The cast binds tighter than the product: `((size_t)out) * kM`. Reading outside the table
and converting a value outside the range of `size_t` are undefined. -/
def Shuffle.draw (g : Shuffle K) : Res (K × Shuffle K) :=
  match g.table[g.pos]? with
  | none => .ub
  | some out =>
    let d := lcgDraw (K := K) g.lcg
    if out ≤ -1 ∨ 2 ^ 64 ≤ out then .ub
    else .ok (out, ⟨d.2, ((⌊out⌋.toNat * 2147483647) % 2 ^ 64) % 32, g.table.set g.pos d.1⟩)

/-- `GlobalRandomization::MakeSeed`, global_randomization.cpp:19-26: the seed and the new state of the base generator. The product is within
the range of `long` for every base state in range (`C46`); otherwise the conversion is not modelled. -/
def makeSeed (K : Type) [Field K] [LinearOrder K] [IsStrictOrderedRing K] [FloorRing K] (base : Int) : Int × Int :=
  let d := lcgDraw (K := K) base
  let seed := truncZ ((d.1 - 1 / 2) * 4294967295)
  (if seed = 0 then deadbeef else seed, d.2)

/-- `NormalRand`, normal_randomization.hpp:100-106. -/
structure NormalRand where
  average : ℝ
  std : ℝ
  rnd : Shuffle ℝ
  holder : ℝ
  isEmpty : Bool

/-- `NormalRand(average, standard_deviation)` and `NormalRand()`, normal_randomization.cpp:12-15. -/
noncomputable def NormalRand.new (average std : ℝ) : NormalRand := ⟨average, std, Shuffle.default, 0, true⟩

/-- `NormalRand(average, standard_deviation, seed)`, normal_randomization.cpp:17-18. -/
noncomputable def NormalRand.newSeeded (average std : ℝ) (seed : Int) : Res NormalRand := do
  let g ← Shuffle.new seed
  .ok ⟨average, std, g, 0, true⟩

/-- `SetParameters(average, standard_deviation)`, normal_randomization.hpp:82-85. -/
def NormalRand.setParameters (n : NormalRand) (average std : ℝ) : NormalRand := { n with average := average, std := std }

/-- `SetParameters(average, standard_deviation, seed)`, normal_randomization.hpp:93-97: the holder is kept. -/
noncomputable def NormalRand.setParametersSeed (n : NormalRand) (average std : ℝ) (seed : Int) : Res NormalRand := do
  let g ← n.rnd.initSeed seed
  .ok { n with average := average, std := std, rnd := g }

/-- The rejection loop, normal_randomization.cpp:23-27: the accepted point. `fuel` bounds the number of rounds. -/
noncomputable def polarLoop (eps : ℝ) : Nat → Shuffle ℝ → Res (ℝ × ℝ × Shuffle ℝ)
  | 0, _ => .stuck
  | fuel + 1, g => do
    let (u1, g) ← g.draw
    let (u2, g) ← g.draw
    let v1 := 2 * u1 - 1
    let v2 := 2 * u2 - 1
    let rsq := v1 * v1 + v2 * v2
    if rsq ≥ 1 ∨ rsq < eps then polarLoop eps fuel g else .ok (v1, v2, g)

/-- `NormalRand::operator double`, normal_randomization.cpp:20-38; `eps` is `DBL_EPSILON`. -/
noncomputable def NormalRand.draw (eps : ℝ) (fuel : Nat) (n : NormalRand) : Res (ℝ × NormalRand) :=
  if n.isEmpty then do
    let (v1, v2, g) ← polarLoop eps fuel n.rnd
    let rsq := v1 * v1 + v2 * v2
    let fac := Real.sqrt (-2 * Real.log rsq / rsq)
    .ok (v2 * fac * n.std + n.average, { n with rnd := g, holder := v1 * fac, isEmpty := false })
  else .ok (n.holder * n.std + n.average, { n with isEmpty := true })

/-- `RandomWalk::DerivativeFunction`, random_walk_template_functions.hpp:23-35, for one component: the rate for the drawn noise. -/
noncomputable def walkRate (state limit noise : ℝ) : ℝ :=
  if state > limit then -|noise| else if state < -limit then |noise| else noise

/-- `RandomWalk::DerivativeFunction` for all components. The noise sources `normal_randomizer_[i]` are arbitrary states with a drawing
function; each component draws once from its own source. -/
noncomputable def walkDerivative {γ : Type} {n : Nat} (draw : γ → ℝ × γ) (limit : Fin n → ℝ) (state : Fin n → ℝ) (g : Fin n → γ) :
    (Fin n → ℝ) × (Fin n → γ) :=
  (fun i => walkRate (state i) (limit i) (draw (g i)).1, fun i => (draw (g i)).2)

/-- `OrdinaryDifferentialEquation::Update`, ordinary_differential_equation_template_functions.hpp:26-45: classical Runge-Kutta step; the
derivative function may have side effects, here the hidden state `g`. Returns the new independent variable, state and hidden state. -/
noncomputable def rk4 {γ : Type} {n : Nat} (h : ℝ) (deriv : ℝ → (Fin n → ℝ) → γ → (Fin n → ℝ) × γ) (t : ℝ) (x : Fin n → ℝ) (g : γ) :
    ℝ × (Fin n → ℝ) × γ :=
  let d1 := deriv t x g
  let k1 := fun i => d1.1 i * h
  let d2 := deriv (t + 1 / 2 * h) (fun i => x i + 1 / 2 * k1 i) d1.2
  let k2 := fun i => d2.1 i * h
  let d3 := deriv (t + 1 / 2 * h) (fun i => x i + 1 / 2 * k2 i) d2.2
  let k3 := fun i => d3.1 i * h
  let d4 := deriv (t + h) (fun i => x i + k3 i) d3.2
  let k4 := fun i => d4.1 i * h
  (t + h, (fun i => x i + 1 / 6 * (k1 i + 2 * (k2 i + k3 i) + k4 i)), d4.2)

end S2E.Random
