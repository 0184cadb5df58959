import Verif.Spec.Gravity
import Mathlib.Tactic.LinearCombination
import Mathlib.Tactic.FieldSimp
/-!
# Identities between derivatives of Legendre polynomials
-/
namespace S2E.Gravity
open Polynomial

/-- `dᵐ Pₙ`. -/
noncomputable def dl (n m : ℕ) : ℝ[X] := derivative^[m] (legendre n)

theorem iter_X_mul (m : ℕ) (f : ℝ[X]) : derivative^[m + 1] (X * f) = X * derivative^[m + 1] f + (m + 1 : ℝ[X]) * derivative^[m] f := by
  induction m with
  | zero => simp; ring
  | succ m ih =>
    rw [Function.iterate_succ_apply', ih]
    simp only [derivative_add, derivative_mul, derivative_X, ← Function.iterate_succ_apply']
    simp
    ring

theorem iter_X_mul' (m : ℕ) (f : ℝ[X]) :
    derivative^[m + 1] (X * f) = X * derivative^[m + 1] f + (m + 1 : ℝ[X]) * derivative^[m] f := iter_X_mul m f

theorem deriv_base (n : ℕ) : derivative ((X ^ 2 - 1 : ℝ[X]) ^ (n + 1)) = (2 * (n + 1 : ℝ[X])) * (X * (X ^ 2 - 1) ^ n) := by
  rw [derivative_pow]
  simp
  ring

theorem iter_const_mul (k : ℕ) (a : ℝ) (f : ℝ[X]) : derivative^[k] (C a * f) = C a * derivative^[k] f := by
  induction k with
  | zero => rfl
  | succ k ih => rw [Function.iterate_succ_apply', ih, Function.iterate_succ_apply', derivative_C_mul]

/-- `Dⁿ⁺¹ Qₙ₊₁` in terms of `Qₙ`. -/
theorem iter_base (n k : ℕ) :
    derivative^[k + 1] ((X ^ 2 - 1 : ℝ[X]) ^ (n + 1)) = C (2 * (n + 1 : ℝ)) * derivative^[k] (X * (X ^ 2 - 1) ^ n) := by
  rw [Function.iterate_succ_apply, deriv_base, ← iter_const_mul]
  congr 1
  rw [C_mul, show (C (2 : ℝ) : ℝ[X]) = 2 from map_ofNat C 2]
  simp

theorem coef_step (n : ℕ) : (1 / (2 ^ (n + 1) * ((n + 1).factorial : ℝ))) * (2 * (n + 1 : ℝ)) = 1 / (2 ^ n * (n.factorial : ℝ)) := by
  have h := Nat.factorial_ne_zero n
  rw [Nat.factorial_succ]
  push_cast
  field_simp
  ring

/-- `P'ₙ₊₁ = (n+1) Pₙ + u P'ₙ`. -/
theorem legendre_L1 (n : ℕ) : derivative (legendre (n + 1)) = (n + 1 : ℝ[X]) * legendre n + X * derivative (legendre n) := by
  rw [legendre, legendre, derivative_C_mul, derivative_C_mul, ← Function.iterate_succ_apply' derivative (n + 1), iter_base, iter_X_mul,
    ← mul_assoc, ← C_mul, coef_step, ← Function.iterate_succ_apply' derivative n]
  ring

/-- `(u²-1) Dⁿ⁺² Qₙ₊₁ = (n+1)(n+2) Dⁿ Qₙ₊₁`. -/
theorem base_ode (n : ℕ) : (X ^ 2 - 1) * derivative^[n + 2] ((X ^ 2 - 1 : ℝ[X]) ^ (n + 1)) =
    ((n + 1) * (n + 2) : ℝ[X]) * derivative^[n] ((X ^ 2 - 1 : ℝ[X]) ^ (n + 1)) := by
  have key : ∀ k : ℕ, derivative^[k + 1] ((X ^ 2 - 1) * derivative ((X ^ 2 - 1 : ℝ[X]) ^ (n + 1))) =
      (X ^ 2 - 1) * derivative^[k + 2] ((X ^ 2 - 1 : ℝ[X]) ^ (n + 1)) + 2 * (k + 1 : ℝ[X]) * X * derivative^[k + 1] ((X ^ 2 - 1 : ℝ[X]) ^ (n + 1))
        + (k + 1 : ℝ[X]) * (k : ℝ[X]) * derivative^[k] ((X ^ 2 - 1 : ℝ[X]) ^ (n + 1)) := by
    intro k
    generalize (X ^ 2 - 1 : ℝ[X]) ^ (n + 1) = f
    induction k with
    | zero => simp [derivative_mul]; try ring
    | succ k ih =>
      rw [Function.iterate_succ_apply', ih]
      simp only [derivative_add, derivative_mul, derivative_X, ← Function.iterate_succ_apply']
      simp
      ring
  have h1 : (X ^ 2 - 1) * derivative ((X ^ 2 - 1 : ℝ[X]) ^ (n + 1)) = C (2 * (n + 1 : ℝ)) * (X * (X ^ 2 - 1) ^ (n + 1)) := by
    rw [deriv_base, C_mul, show (C (2 : ℝ) : ℝ[X]) = 2 from map_ofNat C 2]
    simp
    ring
  have h2 := key n
  rw [h1, iter_const_mul, iter_X_mul] at h2
  simp only [C_mul, C_add, C_1, map_natCast] at h2
  have e2 : (C (2 : ℝ) : ℝ[X]) = 2 := map_ofNat C 2
  rw [e2] at h2
  linear_combination -h2

/-- `(n+1) Pₙ₊₁ = (u²-1) P'ₙ + (n+1) u Pₙ`. -/
theorem legendre_E (n : ℕ) : (n + 1 : ℝ[X]) * legendre (n + 1) = (X ^ 2 - 1) * derivative (legendre n) + (n + 1 : ℝ[X]) * (X * legendre n) := by
  cases n with
  | zero => 
    have e : (C (2⁻¹ : ℝ) : ℝ[X]) * 2 = 1 := by
      rw [← show (C (2 : ℝ) : ℝ[X]) = 2 from map_ofNat C 2, ← C_mul]
      norm_num
    simp [legendre]
    linear_combination X * e
  | succ n =>
    have h := base_ode n
    rw [legendre, iter_base, iter_X_mul, ← mul_assoc (C _), ← C_mul, coef_step, legendre, derivative_C_mul, ← Function.iterate_succ_apply' derivative]
    push_cast
    linear_combination -(C (1 / (2 ^ (n + 1) * ((n + 1).factorial : ℝ)))) * h

/-- `u P'ₙ₊₁ - P'ₙ = (n+1) Pₙ₊₁`. -/
theorem legendre_L2 (n : ℕ) : X * derivative (legendre (n + 1)) = derivative (legendre n) + (n + 1 : ℝ[X]) * legendre (n + 1) := by
  rw [legendre_E, legendre_L1]
  ring

theorem dl_succ (n m : ℕ) : derivative (dl n m) = dl n (m + 1) := by rw [dl, dl, Function.iterate_succ_apply']

theorem dl_B (n m : ℕ) : dl (n + 1) (m + 1) = (n + m + 1 : ℝ[X]) * dl n m + X * dl n (m + 1) := by
  induction m with
  | zero => simpa [dl] using legendre_L1 n
  | succ m ih =>
    rw [← dl_succ, ih]
    simp only [derivative_add, derivative_mul, derivative_X, dl_succ]
    simp
    ring

theorem dl_B2 (n m : ℕ) : dl n (m + 1) + (n - m + 1 : ℝ[X]) * dl (n + 1) m = X * dl (n + 1) (m + 1) := by
  induction m with
  | zero => simpa [dl] using (legendre_L2 n).symm
  | succ m ih =>
    have h := congrArg derivative ih
    simp only [derivative_add, derivative_mul, derivative_X, dl_succ] at h
    simp at h
    push_cast
    linear_combination h

theorem dl_A (n m : ℕ) : (n - m + 1 : ℝ[X]) * dl (n + 1) m = (n + m + 1 : ℝ[X]) * X * dl n m - (1 - X ^ 2) * dl n (m + 1) := by
  have h1 := dl_B n m
  have h2 := dl_B2 n m
  linear_combination h2 + X * h1

theorem dl_C (n m : ℕ) : 2 * (m + 1 : ℝ[X]) * dl n (m + 1) - (1 - X ^ 2) * dl (n + 1) (m + 2) = (n - m + 1 : ℝ[X]) * (n - m : ℝ[X]) * dl (n + 1) m := by
  have h1 := dl_A (n + 1) (m + 1)
  have h2 := dl_B (n + 1) m
  have h3 := dl_B2 n m
  push_cast at h1 h2 h3
  linear_combination -h1 + (n - m + 1 : ℝ[X]) * h2 + 2 * (m + 1 : ℝ[X]) * h3

theorem dl_rec (n m : ℕ) : (n + 2 - m : ℝ[X]) * dl (n + 2) m = (2 * n + 3 : ℝ[X]) * X * dl (n + 1) m - (n + m + 1 : ℝ[X]) * dl n m := by
  have h1 := dl_A (n + 1) m
  have h2 := dl_B n m
  have h3 := dl_B2 n m
  push_cast at h1 h2 h3
  linear_combination h1 - h2 - X * h3

theorem dl_zero (n : ℕ) : dl n (n + 1) = 0 := by
  induction n with
  | zero => simp [dl, legendre]
  | succ n ih => rw [dl_B, ih, ← dl_succ, ih]; simp

theorem dl_diag (n : ℕ) : dl (n + 1) (n + 1) = (2 * n + 1 : ℝ[X]) * dl n n := by
  rw [dl_B, dl_zero]; ring

theorem dl_first (n : ℕ) : dl (n + 1) n = (2 * n + 1 : ℝ[X]) * X * dl n n := by
  have h := dl_A n n
  rw [dl_zero] at h
  linear_combination h

theorem dl_00 : dl 0 0 = 1 := by simp [dl, legendre]

end S2E.Gravity
