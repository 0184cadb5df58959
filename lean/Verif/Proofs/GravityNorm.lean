import Verif.Spec.Gravity
import Mathlib.Tactic.FieldSimp
import Mathlib.Tactic.LinearCombination
import Mathlib.Tactic.Positivity
/-!
# Ratios of normalisation factors
-/
namespace S2E.Gravity

theorem normalisation_nonneg (n m : ℕ) : 0 ≤ normalisation n m := Real.sqrt_nonneg _

theorem normalisation_sq (n m : ℕ) :
    normalisation n m ^ 2 = (if m = 0 then 1 else 2) * (2 * n + 1) * ((n - m).factorial : ℝ) / ((n + m).factorial : ℝ) := by
  rw [normalisation, Real.sq_sqrt]
  split <;> positivity

/-- Square of a normalisation factor for `n = m + j`. -/
theorem normalisation_sq_add (j m : ℕ) :
    normalisation (m + j) m ^ 2 = (if m = 0 then 1 else 2) * (2 * (m + j) + 1) * (j.factorial : ℝ) / ((2 * m + j).factorial : ℝ) := by
  rw [normalisation_sq, Nat.add_sub_cancel_left, show m + j + m = 2 * m + j by ring]
  push_cast
  ring

theorem fact_succ (n : ℕ) : ((n + 1).factorial : ℝ) = (n + 1) * (n.factorial : ℝ) := by
  rw [Nat.factorial_succ]; push_cast; ring

theorem fact_pos (n : ℕ) : (0 : ℝ) < (n.factorial : ℝ) := by positivity

theorem eq_of_sq {a b : ℝ} (ha : 0 ≤ a) (hb : 0 ≤ b) (h : a ^ 2 = b ^ 2) : a = b := (sq_eq_sq₀ ha hb).1 h

theorem norm_00 : normalisation 0 0 = 1 := by simp [normalisation]

theorem norm_diag_0 : normalisation 1 1 = Real.sqrt 3 := by
  rw [normalisation]; norm_num

theorem norm_diag (m : ℕ) : (2 * (m + 1) + 1) * normalisation (m + 2) (m + 2) =
    Real.sqrt ((2 * (m + 2) + 1) / (2 * (m + 2))) * normalisation (m + 1) (m + 1) := by
  refine eq_of_sq (mul_nonneg (by positivity) (normalisation_nonneg _ _)) (mul_nonneg (Real.sqrt_nonneg _) (normalisation_nonneg _ _)) ?_
  have h1 := normalisation_sq_add 0 (m + 1)
  have h2 := normalisation_sq_add 0 (m + 2)
  rw [show 2 * (m + 2) + 0 = 2 * m + 2 + 1 + 1 by ring] at h2
  rw [show 2 * (m + 1) + 0 = 2 * m + 2 by ring] at h1
  rw [mul_pow, mul_pow, Real.sq_sqrt (by positivity)]
  simp only [Nat.add_zero] at h1 h2
  rw [h1, h2, fact_succ, fact_succ]
  have := fact_pos (2 * m + 2)
  simp only [Nat.add_eq_zero_iff, OfNat.ofNat_ne_zero, one_ne_zero, and_false, if_false]
  push_cast
  field_simp
  ring

theorem norm_up (n m : ℕ) (h : m ≤ n) : normalisation (n + 1) m =
    Real.sqrt (((2 * (n + 1) + 1) * (n + 1 - m)) / ((2 * (n + 1) - 1) * (n + 1 + m))) * normalisation n m := by
  obtain ⟨j, rfl⟩ := Nat.exists_eq_add_of_le h
  have e : (((2 * ((m + j : ℕ) + 1) + 1) * ((m + j : ℕ) + 1 - m)) / ((2 * ((m + j : ℕ) + 1) - 1) * ((m + j : ℕ) + 1 + m)) : ℝ) =
      ((2 * (m + j) + 3) * (j + 1)) / ((2 * (m + j) + 1) * (2 * m + j + 1)) := by
    push_cast
    congr 1 <;> ring
  rw [e]
  refine eq_of_sq (normalisation_nonneg _ _) (mul_nonneg (Real.sqrt_nonneg _) (normalisation_nonneg _ _)) ?_
  rw [mul_pow, Real.sq_sqrt (by positivity), show m + j + 1 = m + (j + 1) by ring, normalisation_sq_add, normalisation_sq_add,
    show 2 * m + (j + 1) = 2 * m + j + 1 by ring, fact_succ, fact_succ]
  have := fact_pos (2 * m + j)
  push_cast
  split <;> field_simp <;> ring

theorem norm_up2 (n m : ℕ) (h : m ≤ n) : normalisation (n + 1) m =
    Real.sqrt (((2 * (n + 2) - 1) * (n + 2 - m - 1)) / ((2 * (n + 2) - 3) * (n + 2 + m - 1))) * normalisation n m := by
  rw [norm_up n m h]
  congr 3 <;> ring

/-- The four ratios of `CalcAcceleration_xcxf_m_s2`. -/
theorem norm_xy0 (n : ℕ) : normalisation n 0 =
    Real.sqrt ((2 * n + 1) / (2 * n + 3)) * Real.sqrt ((n + 2) * (n + 1) / 2) * normalisation (n + 1) 1 := by
  refine eq_of_sq (normalisation_nonneg _ _) (mul_nonneg (by positivity) (normalisation_nonneg _ _)) ?_
  have h1 := normalisation_sq_add n 0
  have h2 := normalisation_sq_add n 1
  rw [show 1 + n = n + 1 by ring, show 2 * 1 + n = n + 1 + 1 by ring, fact_succ, fact_succ] at h2
  rw [zero_add, show 2 * 0 + n = n by ring] at h1
  rw [mul_pow, mul_pow, Real.sq_sqrt (by positivity), Real.sq_sqrt (by positivity), h1, h2]
  have := fact_pos n
  push_cast
  simp
  field_simp
  ring

theorem norm_z (n m : ℕ) (h : m ≤ n) : normalisation n m =
    Real.sqrt ((2 * n + 1) / (2 * n + 3)) * Real.sqrt ((n + m + 1) / (n - m + 1)) * normalisation (n + 1) m := by
  obtain ⟨j, rfl⟩ := Nat.exists_eq_add_of_le h
  have e : (((m + j : ℕ) : ℝ) - m + 1) = j + 1 := by push_cast; ring
  rw [e]
  refine eq_of_sq (normalisation_nonneg _ _) (mul_nonneg (by positivity) (normalisation_nonneg _ _)) ?_
  rw [mul_pow, mul_pow, Real.sq_sqrt (by positivity), Real.sq_sqrt (by positivity), show m + j + 1 = m + (j + 1) by ring,
    normalisation_sq_add, normalisation_sq_add, show 2 * m + (j + 1) = 2 * m + j + 1 by ring, fact_succ, fact_succ]
  have := fact_pos (2 * m + j)
  push_cast
  split <;> field_simp <;> ring

theorem norm_z0 (n : ℕ) : normalisation n 0 = Real.sqrt ((2 * n + 1) / (2 * n + 3)) * normalisation (n + 1) 0 := by
  have h := norm_z n 0 (Nat.zero_le n)
  have hn : (n : ℝ) + 1 ≠ 0 := by positivity
  simpa [div_self hn] using h

theorem norm_xy1 (n m : ℕ) (h : m + 1 ≤ n) : normalisation n (m + 1) =
    Real.sqrt ((2 * n + 1) / (2 * n + 3)) * Real.sqrt ((n + (m + 1) + 1) * (n + (m + 1) + 2)) * normalisation (n + 1) (m + 2) := by
  obtain ⟨j, rfl⟩ := Nat.exists_eq_add_of_le h
  refine eq_of_sq (normalisation_nonneg _ _) (mul_nonneg (by positivity) (normalisation_nonneg _ _)) ?_
  rw [mul_pow, mul_pow, Real.sq_sqrt (by positivity), Real.sq_sqrt (by positivity), show m + 1 + j + 1 = (m + 2) + j by ring,
    normalisation_sq_add, normalisation_sq_add, show 2 * (m + 2) + j = 2 * (m + 1) + j + 1 + 1 by ring, fact_succ, fact_succ]
  have := fact_pos (2 * (m + 1) + j)
  simp only [Nat.add_eq_zero_iff, OfNat.ofNat_ne_zero, one_ne_zero, and_false, if_false]
  push_cast
  field_simp
  ring

theorem norm_xy2 (n m : ℕ) (h : m + 1 ≤ n) : (n - (m + 1) + 1) * (n - (m + 1) + 2) * normalisation n (m + 1) =
    (if m + 1 = 1 then Real.sqrt ((2 * n + 1) / (2 * n + 3)) * Real.sqrt ((n - (m + 1) + 1) * (n - (m + 1) + 2)) * Real.sqrt 2
      else Real.sqrt ((2 * n + 1) / (2 * n + 3)) * Real.sqrt ((n - (m + 1) + 1) * (n - (m + 1) + 2))) * normalisation (n + 1) m := by
  obtain ⟨j, rfl⟩ := Nat.exists_eq_add_of_le h
  have e : (((m + 1 + j : ℕ) : ℝ) - (m + 1)) = j := by push_cast; ring
  rw [e]
  have e2 : (if m + 1 = 1 then Real.sqrt ((2 * (m + 1 + j : ℕ) + 1) / (2 * (m + 1 + j : ℕ) + 3)) * Real.sqrt ((j + 1) * (j + 2)) * Real.sqrt 2
      else Real.sqrt ((2 * (m + 1 + j : ℕ) + 1) / (2 * (m + 1 + j : ℕ) + 3)) * Real.sqrt ((j + 1) * (j + 2))) =
      Real.sqrt ((2 * (m + 1 + j : ℕ) + 1) / (2 * (m + 1 + j : ℕ) + 3)) * Real.sqrt ((j + 1) * (j + 2)) *
        Real.sqrt (2 / (if m = 0 then 1 else 2)) := by
    by_cases hm : m = 0 <;> simp [hm]
  rw [e2]
  refine eq_of_sq (mul_nonneg (by positivity) (normalisation_nonneg _ _)) (mul_nonneg (by positivity) (normalisation_nonneg _ _)) ?_
  have hp : (0 : ℝ) < (if m = 0 then 1 else 2) := by split <;> norm_num
  simp only [mul_pow]
  rw [Real.sq_sqrt (by positivity), Real.sq_sqrt (by positivity), Real.sq_sqrt (by positivity),
    show m + 1 + j + 1 = m + (j + 1 + 1) by ring, normalisation_sq_add, normalisation_sq_add,
    show 2 * (m + 1) + j = 2 * m + (j + 1 + 1) by ring, fact_succ, fact_succ]
  have := fact_pos (2 * m + (j + 1 + 1))
  simp only [Nat.add_eq_zero_iff, OfNat.ofNat_ne_zero, one_ne_zero, and_false, if_false]
  generalize (if m = 0 then (1 : ℝ) else 2) = w at hp
  push_cast
  field_simp
  ring

/-! The ratios of `CalcPartialDerivative_xcxf_s2`. -/

theorem norm2_same (n m : ℕ) (h : m ≤ n) : normalisation n m =
    Real.sqrt ((2 * n + 1) / (2 * n + 5)) * Real.sqrt ((n + m + 1) * (n + m + 2) / ((n - m + 1) * (n - m + 2))) * normalisation (n + 2) m := by
  obtain ⟨j, rfl⟩ := Nat.exists_eq_add_of_le h
  have e : (((m + j : ℕ) : ℝ) - m) = j := by push_cast; ring
  rw [e]
  refine eq_of_sq (normalisation_nonneg _ _) (mul_nonneg (by positivity) (normalisation_nonneg _ _)) ?_
  simp only [mul_pow]
  rw [Real.sq_sqrt (by positivity), Real.sq_sqrt (by positivity), show m + j + 2 = m + (j + 1 + 1) by ring,
    normalisation_sq_add, normalisation_sq_add, show 2 * m + (j + 1 + 1) = 2 * m + j + 1 + 1 by ring, fact_succ, fact_succ, fact_succ, fact_succ]
  have := fact_pos (2 * m + j)
  push_cast
  split <;> field_simp <;> ring

theorem norm2_same0 (n : ℕ) : normalisation n 0 = Real.sqrt ((2 * n + 1) / (2 * n + 5)) * normalisation (n + 2) 0 := by
  have h := norm2_same n 0 (Nat.zero_le n)
  have hn : ((n : ℝ) + 1) * (n + 2) ≠ 0 := by positivity
  simpa [div_self hn] using h

theorem norm2_up2 (n m : ℕ) (h : m + 1 ≤ n) : normalisation n (m + 1) =
    Real.sqrt ((2 * n + 1) / (2 * n + 5)) *
      Real.sqrt ((n + (m + 1) + 1) * (n + (m + 1) + 2) * (n + (m + 1) + 3) * (n + (m + 1) + 4)) * normalisation (n + 2) (m + 3) := by
  obtain ⟨j, rfl⟩ := Nat.exists_eq_add_of_le h
  refine eq_of_sq (normalisation_nonneg _ _) (mul_nonneg (by positivity) (normalisation_nonneg _ _)) ?_
  simp only [mul_pow]
  rw [Real.sq_sqrt (by positivity), Real.sq_sqrt (by positivity), show m + 1 + j + 2 = (m + 3) + j by ring,
    normalisation_sq_add, normalisation_sq_add, show 2 * (m + 3) + j = 2 * (m + 1) + j + 1 + 1 + 1 + 1 by ring, fact_succ, fact_succ, fact_succ,
    fact_succ]
  have := fact_pos (2 * (m + 1) + j)
  simp only [Nat.add_eq_zero_iff, OfNat.ofNat_ne_zero, one_ne_zero, and_false, if_false]
  push_cast
  field_simp
  ring

theorem norm2_up20 (n : ℕ) : normalisation n 0 =
    Real.sqrt ((2 * n + 1) / (2 * n + 5)) * Real.sqrt ((n + 1) * (n + 2) * (n + 3) * (n + 4) / 2) * normalisation (n + 2) 2 := by
  refine eq_of_sq (normalisation_nonneg _ _) (mul_nonneg (by positivity) (normalisation_nonneg _ _)) ?_
  have h1 := normalisation_sq_add n 0
  have h2 := normalisation_sq_add n 2
  rw [show 2 + n = n + 2 by ring, show 2 * 2 + n = n + 1 + 1 + 1 + 1 by ring, fact_succ, fact_succ, fact_succ, fact_succ] at h2
  rw [zero_add, show 2 * 0 + n = n by ring] at h1
  simp only [mul_pow]
  rw [Real.sq_sqrt (by positivity), Real.sq_sqrt (by positivity), h1, h2]
  have := fact_pos n
  push_cast
  simp
  field_simp
  ring

theorem norm2_down2 (n m : ℕ) (h : m + 2 ≤ n) : normalisation n (m + 2) =
    Real.sqrt ((2 * n + 1) / (2 * n + 5)) * Real.sqrt ((if m + 2 = 2 then 2 else 1) /
      ((n - (m + 2) + 1) * (n - (m + 2) + 2) * (n - (m + 2) + 3) * (n - (m + 2) + 4))) * normalisation (n + 2) m := by
  obtain ⟨j, rfl⟩ := Nat.exists_eq_add_of_le h
  have e : (((m + 2 + j : ℕ) : ℝ) - (m + 2)) = j := by push_cast; ring
  have e2 : (if m + 2 = 2 then 2 else 1 : ℝ) = 2 / (if m = 0 then 1 else 2) := by by_cases hm : m = 0 <;> simp [hm]
  rw [e, e2]
  have hp : (0 : ℝ) < (if m = 0 then 1 else 2) := by split <;> norm_num
  refine eq_of_sq (normalisation_nonneg _ _) (mul_nonneg (by positivity) (normalisation_nonneg _ _)) ?_
  simp only [mul_pow]
  rw [Real.sq_sqrt (by positivity), Real.sq_sqrt (by positivity),
    show m + 2 + j + 2 = m + (j + 1 + 1 + 1 + 1) by ring, normalisation_sq_add, normalisation_sq_add,
    show 2 * (m + 2) + j = 2 * m + (j + 1 + 1 + 1 + 1) by ring, fact_succ, fact_succ, fact_succ, fact_succ]
  have := fact_pos (2 * m + (j + 1 + 1 + 1 + 1))
  simp only [Nat.add_eq_zero_iff, OfNat.ofNat_ne_zero, one_ne_zero, and_false, if_false]
  generalize (if m = 0 then (1 : ℝ) else 2) = w at hp
  push_cast
  field_simp
  ring

theorem norm2_z0 (n : ℕ) : normalisation n 0 =
    Real.sqrt ((2 * n + 1) / (2 * n + 5)) * Real.sqrt ((n + 2) * (n + 3) / 2) * normalisation (n + 2) 1 := by
  refine eq_of_sq (normalisation_nonneg _ _) (mul_nonneg (by positivity) (normalisation_nonneg _ _)) ?_
  have h1 := normalisation_sq_add n 0
  have h2 := normalisation_sq_add (n + 1) 1
  rw [show 1 + (n + 1) = n + 2 by ring, show 2 * 1 + (n + 1) = n + 1 + 1 + 1 by ring, fact_succ (n + 1 + 1), fact_succ (n + 1)] at h2
  rw [zero_add, show 2 * 0 + n = n by ring] at h1
  simp only [mul_pow]
  rw [Real.sq_sqrt (by positivity), Real.sq_sqrt (by positivity), h1, h2, fact_succ]
  have := fact_pos n
  push_cast
  simp
  field_simp
  ring

theorem norm2_zup (n m : ℕ) (h : m + 1 ≤ n) : normalisation n (m + 1) =
    Real.sqrt ((2 * n + 1) / (2 * n + 5)) *
      Real.sqrt ((n + (m + 1) + 1) * (n + (m + 1) + 2) * (n + (m + 1) + 3) / (n - (m + 1) + 1)) * normalisation (n + 2) (m + 2) := by
  obtain ⟨j, rfl⟩ := Nat.exists_eq_add_of_le h
  have e : (((m + 1 + j : ℕ) : ℝ) - (m + 1)) = j := by push_cast; ring
  rw [e]
  refine eq_of_sq (normalisation_nonneg _ _) (mul_nonneg (by positivity) (normalisation_nonneg _ _)) ?_
  simp only [mul_pow]
  rw [Real.sq_sqrt (by positivity), Real.sq_sqrt (by positivity), show m + 1 + j + 2 = (m + 2) + (j + 1) by ring,
    normalisation_sq_add, normalisation_sq_add, show 2 * (m + 2) + (j + 1) = 2 * (m + 1) + j + 1 + 1 + 1 by ring, fact_succ, fact_succ, fact_succ,
    fact_succ]
  have := fact_pos (2 * (m + 1) + j)
  simp only [Nat.add_eq_zero_iff, OfNat.ofNat_ne_zero, one_ne_zero, and_false, if_false]
  push_cast
  field_simp
  ring

theorem norm2_zdown (n m : ℕ) (h : m + 1 ≤ n) : normalisation n (m + 1) =
    (if m + 1 = 1 then Real.sqrt ((2 * n + 1) / (2 * n + 5)) *
        Real.sqrt (2 * (n + (m + 1) + 1) / ((n - (m + 1) + 1) * (n - (m + 1) + 2) * (n - (m + 1) + 3)))
      else Real.sqrt ((2 * n + 1) / (2 * n + 5)) *
        Real.sqrt ((n + (m + 1) + 1) / ((n - (m + 1) + 1) * (n - (m + 1) + 2) * (n - (m + 1) + 3)))) * normalisation (n + 2) m := by
  obtain ⟨j, rfl⟩ := Nat.exists_eq_add_of_le h
  have e : (((m + 1 + j : ℕ) : ℝ) - (m + 1)) = j := by push_cast; ring
  rw [e]
  have e2 : (if m + 1 = 1 then Real.sqrt ((2 * (m + 1 + j : ℕ) + 1) / (2 * (m + 1 + j : ℕ) + 5)) *
        Real.sqrt (2 * ((m + 1 + j : ℕ) + (m + 1) + 1) / (((j : ℝ) + 1) * (j + 2) * (j + 3)))
      else Real.sqrt ((2 * (m + 1 + j : ℕ) + 1) / (2 * (m + 1 + j : ℕ) + 5)) *
        Real.sqrt (((m + 1 + j : ℕ) + (m + 1) + 1) / (((j : ℝ) + 1) * (j + 2) * (j + 3)))) =
      Real.sqrt ((2 * (m + 1 + j : ℕ) + 1) / (2 * (m + 1 + j : ℕ) + 5)) *
        Real.sqrt (2 / (if m = 0 then 1 else 2) * (((m + 1 + j : ℕ) + (m + 1) + 1) / (((j : ℝ) + 1) * (j + 2) * (j + 3)))) := by
    by_cases hm : m = 0
    · simp [hm, mul_div_assoc]
    · simp [hm]
  rw [e2]
  have hp : (0 : ℝ) < (if m = 0 then 1 else 2) := by split <;> norm_num
  refine eq_of_sq (normalisation_nonneg _ _) (mul_nonneg (by positivity) (normalisation_nonneg _ _)) ?_
  simp only [mul_pow]
  rw [Real.sq_sqrt (by positivity), Real.sq_sqrt (by positivity),
    show m + 1 + j + 2 = m + (j + 1 + 1 + 1) by ring, normalisation_sq_add, normalisation_sq_add,
    show 2 * m + (j + 1 + 1 + 1) = 2 * (m + 1) + j + 1 by ring, fact_succ, fact_succ, fact_succ, fact_succ]
  have := fact_pos (2 * (m + 1) + j)
  simp only [Nat.add_eq_zero_iff, OfNat.ofNat_ne_zero, one_ne_zero, and_false, if_false]
  generalize (if m = 0 then (1 : ℝ) else 2) = w at hp
  push_cast
  field_simp
  ring

end S2E.Gravity
