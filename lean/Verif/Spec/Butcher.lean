import Mathlib.Algebra.BigOperators.Fin
import Mathlib.Data.Rat.Defs
import Mathlib.Algebra.Field.Rat

/-!
# Rooted trees and the order conditions of Runge-Kutta methods (specification)

Textbook material (Butcher; Hairer, Norsett, Wanner, "Solving Ordinary Differential Equations I",
II.2), independent of the simulator: a Runge-Kutta method with matrix `a` and weights `b` has
order `p` when `∑ᵢ bᵢ Φᵢ(τ) = 1 / γ(τ)` for every rooted tree `τ` with at most `p` vertices.
The children of a vertex are kept in a sequence; permuting them changes none of the numbers below.
-/

namespace S2E.Butcher

/-- A rooted tree: a root with `m` subtrees. -/
inductive Tree : Type
  | node (m : ℕ) (child : Fin m → Tree) : Tree

namespace Tree

/-- Number of vertices. -/
def size : Tree → ℕ
  | node _ c => 1 + ∑ l, (c l).size

/-- Density `γ`: the product over all vertices of the size of the subtree above it. -/
def density : Tree → ℚ
  | node _ c => ((1 + ∑ l, (c l).size : ℕ) : ℚ) * ∏ l, (c l).density

/-- Elementary weight `Φᵢ` of stage `i` for the Runge-Kutta matrix `a` with `s` stages. -/
def weight (s : ℕ) (a : ℕ → ℕ → ℚ) : Tree → ℕ → ℚ
  | node _ c => fun i => ∏ l, ∑ j ∈ Finset.range s, a i j * (c l).weight s a j

end Tree

/-- The method `(a, b)` with `s` stages has order at least `p`. -/
def HasOrder (s : ℕ) (a : ℕ → ℕ → ℚ) (b : ℕ → ℚ) (p : ℕ) : Prop :=
  ∀ τ : Tree, τ.size ≤ p → ∑ i ∈ Finset.range s, b i * τ.weight s a i = 1 / τ.density

end S2E.Butcher
