import Mathlib.Analysis.ODE.ExistUnique
import Mathlib.Analysis.Calculus.ContDiff.RCLike
import Mathlib.Analysis.Calculus.Deriv.Prod
import Mathlib.Analysis.Calculus.Deriv.Pi
import Mathlib.Analysis.SpecialFunctions.Sqrt
import Mathlib.Tactic.FinCases
/-!
# The two-body problem, independently of the model

Vectors are `Fin 3 → ℝ`; length, scalar and vector product are written out.
-/
namespace S2E.TwoBody

/-- Scalar product. -/
def dot (a b : Fin 3 → ℝ) : ℝ := a 0 * b 0 + a 1 * b 1 + a 2 * b 2

/-- Vector product. -/
def cross (a b : Fin 3 → ℝ) : Fin 3 → ℝ := ![a 1 * b 2 - a 2 * b 1, a 2 * b 0 - a 0 * b 2, a 0 * b 1 - a 1 * b 0]

/-- Length. -/
noncomputable def len (a : Fin 3 → ℝ) : ℝ := Real.sqrt (a 0 ^ 2 + a 1 ^ 2 + a 2 ^ 2)

/-- `R` (position) and `V` (velocity) as functions of time move under the attraction of a centre with gravity constant `mu`, without ever
reaching the centre: `R' = V`, `V' = -mu R / |R|^3`. -/
structure Motion (mu : ℝ) (R V : ℝ → Fin 3 → ℝ) : Prop where
  away : ∀ t, R t ≠ 0
  vel : ∀ t, HasDerivAt R (V t) t
  acc : ∀ t, HasDerivAt V (-(mu / len (R t) ^ 3) • R t) t

theorem len_sq (a : Fin 3 → ℝ) : len a ^ 2 = dot a a := by
  rw [len, Real.sq_sqrt (by positivity), dot]; ring

theorem len_nonneg (a : Fin 3 → ℝ) : 0 ≤ len a := Real.sqrt_nonneg _

theorem len_pos {a : Fin 3 → ℝ} (h : a ≠ 0) : 0 < len a := by
  rcases (len_nonneg a).lt_or_eq with h1 | h1
  · exact h1
  · exfalso
    apply h
    have h2 := len_sq a
    rw [← h1, dot] at h2
    have h0 : a 0 = 0 := by nlinarith [mul_self_nonneg (a 0), mul_self_nonneg (a 1), mul_self_nonneg (a 2)]
    have h3 : a 1 = 0 := by nlinarith [mul_self_nonneg (a 0), mul_self_nonneg (a 1), mul_self_nonneg (a 2)]
    have h4 : a 2 = 0 := by nlinarith [mul_self_nonneg (a 0), mul_self_nonneg (a 1), mul_self_nonneg (a 2)]
    funext i
    fin_cases i <;> assumption

/-- The vector field of the two-body problem on position-velocity pairs. -/
noncomputable def field (mu : ℝ) (z : (Fin 3 → ℝ) × (Fin 3 → ℝ)) : (Fin 3 → ℝ) × (Fin 3 → ℝ) := (z.2, -(mu / len z.1 ^ 3) • z.1)

theorem contDiffAt_len {a : Fin 3 → ℝ} (h : a ≠ 0) (n : WithTop ℕ∞) : ContDiffAt ℝ n len a := by
  unfold len
  refine ContDiffAt.sqrt (by fun_prop) ?_
  have := len_pos h
  rw [len] at this
  exact (Real.sqrt_pos.mp this).ne'

theorem contDiffAt_field (mu : ℝ) {z : (Fin 3 → ℝ) × (Fin 3 → ℝ)} (h : z.1 ≠ 0) (n : WithTop ℕ∞) : ContDiffAt ℝ n (field mu) z := by
  have h1 : ContDiffAt ℝ n (fun z : (Fin 3 → ℝ) × (Fin 3 → ℝ) => len z.1) z := (contDiffAt_len h n).comp z contDiffAt_fst
  have h2 : ContDiffAt ℝ n (fun z : (Fin 3 → ℝ) × (Fin 3 → ℝ) => -(mu / len z.1 ^ 3)) z :=
    (contDiffAt_const.div (h1.pow 3) (pow_ne_zero 3 (len_pos h).ne')).neg
  exact contDiffAt_snd.prodMk (h2.smul contDiffAt_fst)

/-- A motion is determined by its position and velocity at one time. -/
theorem Motion.unique {mu : ℝ} {R V R' V' : ℝ → Fin 3 → ℝ} (h : Motion mu R V) (h' : Motion mu R' V') (t₀ : ℝ) (hR : R t₀ = R' t₀)
    (hV : V t₀ = V' t₀) : R = R' ∧ V = V' := by
  set f : ℝ → (Fin 3 → ℝ) × (Fin 3 → ℝ) := fun t => (R t, V t)
  set g : ℝ → (Fin 3 → ℝ) × (Fin 3 → ℝ) := fun t => (R' t, V' t)
  have hf : ∀ t, HasDerivAt f (field mu (f t)) t := fun t => (h.vel t).prodMk (h.acc t)
  have hg : ∀ t, HasDerivAt g (field mu (g t)) t := fun t => (h'.vel t).prodMk (h'.acc t)
  have hfc : Continuous f := continuous_iff_continuousAt.mpr fun t => (hf t).continuousAt
  have hgc : Continuous g := continuous_iff_continuousAt.mpr fun t => (hg t).continuousAt
  have hclosed : IsClosed {t | f t = g t} := isClosed_eq hfc hgc
  have hopen : IsOpen {t | f t = g t} := by
    rw [isOpen_iff_mem_nhds]
    intro t ht
    obtain ⟨K, s, hs, hL⟩ := (contDiffAt_field mu (z := f t) (h.away t) 1).exists_lipschitzOnWith
    have hs' : s ∈ nhds (g t) := by rw [← (ht : f t = g t)]; exact hs
    have := ODE_solution_unique_of_eventually (v := fun _ => field mu) (s := fun _ => s) (K := K) (f := f) (g := g) (t₀ := t)
      (Filter.Eventually.of_forall fun _ => hL)
      ((hfc.continuousAt.eventually hs).mono fun x hx => ⟨hf x, hx⟩)
      ((hgc.continuousAt.eventually hs').mono fun x hx => ⟨hg x, hx⟩) ht
    exact this
  have huniv : {t | f t = g t} = Set.univ :=
    IsClopen.eq_univ ⟨hclosed, hopen⟩ ⟨t₀, Prod.ext hR hV⟩
  have : ∀ t, f t = g t := fun t => by
    have : t ∈ {t | f t = g t} := by rw [huniv]; trivial
    exact this
  exact ⟨funext fun t => congrArg Prod.fst (this t), funext fun t => congrArg Prod.snd (this t)⟩

end S2E.TwoBody
