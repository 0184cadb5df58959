import Verif.Proofs.GravityAcceleration
/-!
# The loops of the partial derivatives add up the second derivatives of the harmonics
-/
namespace S2E.Gravity
open Polynomial TwoBody GravityModel

/-- Gradients of the components of `gsv p n m`. -/
noncomputable def hsv (p : Fin 3 → ℝ) (n : ℕ) : ℕ → Fin 3 → Fin 3 → ℝ
  | 0 => ![-(gsv p (n + 1) 1), -(gsw p (n + 1) 1), (-(n + 1 : ℝ)) • gsv p (n + 1) 0]
  | m + 1 => ![(1 / 2 : ℝ) • (-(gsv p (n + 1) (m + 2)) + ((n - m + 1) * (n - m) : ℝ) • gsv p (n + 1) m),
      (1 / 2 : ℝ) • (-(gsw p (n + 1) (m + 2)) + (-((n - m + 1) * (n - m)) : ℝ) • gsw p (n + 1) m), (-(n - m) : ℝ) • gsv p (n + 1) (m + 1)]

/-- Gradients of the components of `gsw p n m`. -/
noncomputable def hsw (p : Fin 3 → ℝ) (n : ℕ) : ℕ → Fin 3 → Fin 3 → ℝ
  | 0 => 0
  | m + 1 => ![(1 / 2 : ℝ) • (-(gsw p (n + 1) (m + 2)) + ((n - m + 1) * (n - m) : ℝ) • gsw p (n + 1) m),
      (1 / 2 : ℝ) • (gsv p (n + 1) (m + 2) + ((n - m + 1) * (n - m) : ℝ) • gsv p (n + 1) m), (-(n - m) : ℝ) • gsw p (n + 1) (m + 1)]

theorem IsGradient.of_eq {f f' : (Fin 3 → ℝ) → ℝ} {p g g' : Fin 3 → ℝ} (h : IsGradient f p g) (e : ∀ q, f' q = f q) (e2 : ∀ i, g' i = g i) :
    IsGradient f' p g' := by
  rwa [show f' = f from funext e, show g' = g from funext e2]

theorem isGradient_hsv (n m : ℕ) {p : Fin 3 → ℝ} (hp : p ≠ 0) (i : Fin 3) : IsGradient (fun q => gsv q n m i) p (hsv p n m i) := by
  cases m with
  | zero =>
    fin_cases i
    · exact ((isGradient_gsv (n + 1) 1 hp).const_mul (-1)).of_eq (fun q => by simp [gsv]) (fun i => by simp [hsv])
    · exact ((isGradient_gsw (n + 1) 1 hp).const_mul (-1)).of_eq (fun q => by simp [gsv]) (fun i => by simp [hsv])
    · exact ((isGradient_gsv (n + 1) 0 hp).const_mul (-(n + 1))).of_eq (fun q => by simp [gsv]) (fun i => by simp [hsv])
  | succ m =>
    fin_cases i
    · exact ((((isGradient_gsv (n + 1) (m + 2) hp).const_mul (-1)).add
        ((isGradient_gsv (n + 1) m hp).const_mul ((n - m + 1) * (n - m)))).const_mul (1 / 2)).of_eq
        (fun q => by simp [gsv]; ring) (fun i => by simp [hsv]; ring)
    · exact ((((isGradient_gsw (n + 1) (m + 2) hp).const_mul (-1)).add
        ((isGradient_gsw (n + 1) m hp).const_mul (-((n - m + 1) * (n - m))))).const_mul (1 / 2)).of_eq
        (fun q => by simp [gsv]; ring) (fun i => by simp [hsv]; ring)
    · exact ((isGradient_gsv (n + 1) (m + 1) hp).const_mul (-(n - m))).of_eq (fun q => by simp [gsv]) (fun i => by simp [hsv])

theorem isGradient_hsw (n m : ℕ) {p : Fin 3 → ℝ} (hp : p ≠ 0) (i : Fin 3) : IsGradient (fun q => gsw q n m i) p (hsw p n m i) := by
  cases m with
  | zero => exact (isGradient_const 0).of_eq (fun q => by simp [gsw]) (fun i => by simp [hsw])
  | succ m =>
    fin_cases i
    · exact ((((isGradient_gsw (n + 1) (m + 2) hp).const_mul (-1)).add
        ((isGradient_gsw (n + 1) m hp).const_mul ((n - m + 1) * (n - m)))).const_mul (1 / 2)).of_eq
        (fun q => by simp [gsw]; ring) (fun i => by simp [hsw]; ring)
    · exact (((isGradient_gsv (n + 1) (m + 2) hp).add
        ((isGradient_gsv (n + 1) m hp).const_mul ((n - m + 1) * (n - m)))).const_mul (1 / 2)).of_eq
        (fun q => by simp [gsw]; ring) (fun i => by simp [hsw]; ring)
    · exact ((isGradient_gsw (n + 1) (m + 1) hp).const_mul (-(n - m))).of_eq (fun q => by simp [gsw]) (fun i => by simp [hsw])

/-- The contribution of one harmonic to the matrix. -/
noncomputable def hterm (c s : ℝ) (p : Fin 3 → ℝ) (n m : ℕ) : Matrix (Fin 3) (Fin 3) ℝ :=
  Matrix.of fun i j => normalisation n m * (c * hsv p n m i j + s * hsw p n m i j)

/-- The upper triangle of a matrix. -/
def upper (a : Matrix (Fin 3) (Fin 3) ℝ) : Matrix (Fin 3) (Fin 3) ℝ := !![a 0 0, a 0 1, a 0 2; 0, a 1 1, a 1 2; 0, 0, a 2 2]

theorem hterm_symm (c s : ℝ) (p : Fin 3 → ℝ) (n m : ℕ) (i j : Fin 3) : hterm c s p n m i j = hterm c s p n m j i := by
  match m with
  | 0 => fin_cases i <;> fin_cases j <;> simp [hterm, hsv, hsw, gsv, gsw, sw_zero, -mul_eq_mul_left_iff] <;> ring
  | 1 => fin_cases i <;> fin_cases j <;> simp [hterm, hsv, hsw, gsv, gsw, sw_zero, -mul_eq_mul_left_iff] <;> ring
  | m + 2 => fin_cases i <;> fin_cases j <;> simp [hterm, hsv, hsw, gsv, gsw, sw_zero, -mul_eq_mul_left_iff] <;> ring

theorem hterm_trace (c s : ℝ) (p : Fin 3 → ℝ) (n m : ℕ) : hterm c s p n m 0 0 + hterm c s p n m 1 1 + hterm c s p n m 2 2 = 0 := by
  match m with
  | 0 => simp [hterm, hsv, hsw, gsv, gsw, sw_zero]; ring
  | 1 => simp [hterm, hsv, hsw, gsv, gsw, sw_zero]; ring
  | m + 2 => simp [hterm, hsv, hsw, gsv, gsw, sw_zero]; ring

theorem partial0 (g : Potential) (p : Vec 3) (D n : ℕ) (hn : n + 2 ≤ D) (c s : ℝ) :
    (partialXy (tables g.radius p D) n 0 c s).1 = g.radius ^ (n + 3) * hterm c s p n 0 0 0 ∧
    (partialXy (tables g.radius p D) n 0 c s).2.1 = g.radius ^ (n + 3) * hterm c s p n 0 1 1 ∧
    (partialXy (tables g.radius p D) n 0 c s).2.2 = g.radius ^ (n + 3) * hterm c s p n 0 0 1 ∧
    (partialZ (tables g.radius p D) n 0 c s).1 = g.radius ^ (n + 3) * hterm c s p n 0 0 2 ∧
    (partialZ (tables g.radius p D) n 0 c s).2 = g.radius ^ (n + 3) * hterm c s p n 0 1 2 ∧
    partialZz (tables g.radius p D) n 0 c s = g.radius ^ (n + 3) * hterm c s p n 0 2 2 := by
  have k1 := norm2_up20 n
  have k2 := norm2_same0 n
  have k3 := norm2_z0 n
  have k4 := norm2_same n 0 (by omega)
  simp only [partialXy, partialZ, partialZz, if_true, (tables_spec g.radius p D (n + 2) 2 hn (by omega)).1,
    (tables_spec g.radius p D (n + 2) 2 hn (by omega)).2, (tables_spec g.radius p D (n + 2) 1 hn (by omega)).1,
    (tables_spec g.radius p D (n + 2) 1 hn (by omega)).2, (tables_spec g.radius p D (n + 2) 0 hn (by omega)).1,
    (tables_spec g.radius p D (n + 2) 0 hn (by omega)).2, tv, tw, sw_zero]
  simp only [Nat.cast_zero, add_zero, sub_zero] at *
  generalize Real.sqrt ((2 * (n : ℝ) + 1) / (2 * n + 5)) = k at *
  generalize Real.sqrt (((n : ℝ) + 1) * (n + 2) * (n + 3) * (n + 4) / 2) = q1 at *
  generalize Real.sqrt (((n : ℝ) + 2) * (n + 3) / 2) = q2 at *
  generalize Real.sqrt (((n : ℝ) + 1) * (n + 2) / ((n + 1) * (n + 2))) = q3 at *
  have e3 : (3 : ℕ) = 2 + 1 := rfl
  refine ⟨?_, ?_, ?_, ?_, ?_, ?_⟩
  · simp [hterm, hsv, hsw, gsv, gsw, sw_zero]
    linear_combination (-1 / 2) * g.radius ^ (n + 3) * c * (sv (n + 2) 2 p * k1 - (n + 1) * (n + 2) * sv (n + 2) 0 p * k2)
  · simp [hterm, hsv, hsw, gsv, gsw, sw_zero]
    linear_combination (1 / 2) * g.radius ^ (n + 3) * c * (sv (n + 2) 2 p * k1 + (n + 1) * (n + 2) * sv (n + 2) 0 p * k2)
  · simp [hterm, hsv, hsw, gsv, gsw, sw_zero]
    linear_combination (-1 / 2) * g.radius ^ (n + 3) * c * (sw (n + 2) 2 p * k1)
  · simp [hterm, hsv, hsw, gsv, gsw, sw_zero]
    linear_combination -g.radius ^ (n + 3) * c * (n + 1) * (sv (n + 2) 1 p * k3)
  · simp [hterm, hsv, hsw, gsv, gsw, sw_zero]
    linear_combination -g.radius ^ (n + 3) * c * (n + 1) * (sw (n + 2) 1 p * k3)
  · simp [hterm, hsv, hsw, gsv, gsw, sw_zero]
    linear_combination -g.radius ^ (n + 3) * c * (n + 1) * (n + 2) * (sv (n + 2) 0 p * k4)

theorem partial1 (g : Potential) (p : Vec 3) (D n : ℕ) (hn : n + 2 ≤ D) (hm : 1 ≤ n) (c s : ℝ) :
    (partialXy (tables g.radius p D) n 1 c s).1 = g.radius ^ (n + 3) * hterm c s p n 1 0 0 ∧
    (partialXy (tables g.radius p D) n 1 c s).2.1 = g.radius ^ (n + 3) * hterm c s p n 1 1 1 ∧
    (partialXy (tables g.radius p D) n 1 c s).2.2 = g.radius ^ (n + 3) * hterm c s p n 1 0 1 ∧
    (partialZ (tables g.radius p D) n 1 c s).1 = g.radius ^ (n + 3) * hterm c s p n 1 0 2 ∧
    (partialZ (tables g.radius p D) n 1 c s).2 = g.radius ^ (n + 3) * hterm c s p n 1 1 2 ∧
    partialZz (tables g.radius p D) n 1 c s = g.radius ^ (n + 3) * hterm c s p n 1 2 2 := by
  have k1 := norm2_up2 n 0 hm
  have k2 := norm2_same n 1 hm
  have k3 := norm2_zup n 0 hm
  have k4 := norm2_zdown n 0 hm
  rw [show 0 + 1 = 1 by rfl, if_pos rfl] at k4
  simp only [partialXy, partialZ, partialZz, if_true, one_ne_zero, if_false, (tables_spec g.radius p D (n + 2) 3 hn (by omega)).1,
    (tables_spec g.radius p D (n + 2) 3 hn (by omega)).2, (tables_spec g.radius p D (n + 2) 2 hn (by omega)).1,
    (tables_spec g.radius p D (n + 2) 2 hn (by omega)).2, (tables_spec g.radius p D (n + 2) 1 hn (by omega)).1, Nat.reduceAdd, Nat.reduceSub,
    (tables_spec g.radius p D (n + 2) 1 hn (by omega)).2, (tables_spec g.radius p D (n + 2) 0 hn (by omega)).1,
    (tables_spec g.radius p D (n + 2) 0 hn (by omega)).2, tv, tw, sw_zero]
  simp only [Nat.cast_zero, Nat.cast_one, zero_add] at *
  have e1 : ((n : ℝ) + 2) * (n + 3) / (n * (n + 1)) = (n + 1 + 1) * (n + 1 + 2) / ((n - 1 + 1) * (n - 1 + 2)) := by
    congr 1 <;> ring
  have e2 : ((n : ℝ) + 2) * (n + 3) * (n + 4) * (n + 5) = (n + 1 + 1) * (n + 1 + 2) * (n + 1 + 3) * (n + 1 + 4) := by ring
  rw [e1, e2]
  generalize Real.sqrt ((2 * (n : ℝ) + 1) / (2 * n + 5)) = k at *
  generalize Real.sqrt (((n : ℝ) + 1 + 1) * (n + 1 + 2) * (n + 1 + 3) * (n + 1 + 4)) = q1 at *
  generalize Real.sqrt (((n : ℝ) + 1 + 1) * (n + 1 + 2) / ((n - 1 + 1) * (n - 1 + 2))) = q2 at *
  generalize Real.sqrt (((n : ℝ) + 1 + 1) * (n + 1 + 2) * (n + 1 + 3) / (n - 1 + 1)) = q3 at *
  generalize Real.sqrt (2 * ((n : ℝ) + 1 + 1) / ((n - 1 + 1) * (n - 1 + 2) * (n - 1 + 3))) = q4 at *
  refine ⟨?_, ?_, ?_, ?_, ?_, ?_⟩
  · simp [hterm, hsv, hsw, gsv, gsw, sw_zero]
    linear_combination (-1 / 4) * g.radius ^ (n + 3) * ((c * sv (n + 2) 3 p + s * sw (n + 2) 3 p) * k1
      - n * (n + 1) * (3 * c * sv (n + 2) 1 p + s * sw (n + 2) 1 p) * k2)
  · simp [hterm, hsv, hsw, gsv, gsw, sw_zero]
    linear_combination (1 / 4) * g.radius ^ (n + 3) * ((c * sv (n + 2) 3 p + s * sw (n + 2) 3 p) * k1
      + n * (n + 1) * (c * sv (n + 2) 1 p + 3 * s * sw (n + 2) 1 p) * k2)
  · simp [hterm, hsv, hsw, gsv, gsw, sw_zero]
    linear_combination (-1 / 4) * g.radius ^ (n + 3) * ((c * sw (n + 2) 3 p - s * sv (n + 2) 3 p) * k1
      - n * (n + 1) * (c * sw (n + 2) 1 p + s * sv (n + 2) 1 p) * k2)
  · simp [hterm, hsv, hsw, gsv, gsw, sw_zero]
    linear_combination (-1 / 2) * g.radius ^ (n + 3) * (n * (c * sv (n + 2) 2 p + s * sw (n + 2) 2 p) * k3
      - n * (n + 1) * (n + 2) * (c * sv (n + 2) 0 p) * k4)
  · simp [hterm, hsv, hsw, gsv, gsw, sw_zero]
    linear_combination (-1 / 2) * g.radius ^ (n + 3) * (n * (c * sw (n + 2) 2 p - s * sv (n + 2) 2 p) * k3
      - n * (n + 1) * (n + 2) * (s * sv (n + 2) 0 p) * k4)
  · simp [hterm, hsv, hsw, gsv, gsw, sw_zero]
    linear_combination -g.radius ^ (n + 3) * n * (n + 1) * ((c * sv (n + 2) 1 p + s * sw (n + 2) 1 p) * k2)

theorem partial2 (g : Potential) (p : Vec 3) (D n m : ℕ) (hn : n + 2 ≤ D) (hm : m + 2 ≤ n) (c s : ℝ) :
    (partialXy (tables g.radius p D) n (m + 2) c s).1 = g.radius ^ (n + 3) * hterm c s p n (m + 2) 0 0 ∧
    (partialXy (tables g.radius p D) n (m + 2) c s).2.1 = g.radius ^ (n + 3) * hterm c s p n (m + 2) 1 1 ∧
    (partialXy (tables g.radius p D) n (m + 2) c s).2.2 = g.radius ^ (n + 3) * hterm c s p n (m + 2) 0 1 ∧
    (partialZ (tables g.radius p D) n (m + 2) c s).1 = g.radius ^ (n + 3) * hterm c s p n (m + 2) 0 2 ∧
    (partialZ (tables g.radius p D) n (m + 2) c s).2 = g.radius ^ (n + 3) * hterm c s p n (m + 2) 1 2 ∧
    partialZz (tables g.radius p D) n (m + 2) c s = g.radius ^ (n + 3) * hterm c s p n (m + 2) 2 2 := by
  have k1 := norm2_up2 n (m + 1) hm
  have k2 := norm2_same n (m + 2) hm
  have k3 := norm2_zup n (m + 1) hm
  have k4 := norm2_zdown n (m + 1) hm
  have k5 := norm2_down2 n m hm
  rw [if_neg (by omega)] at k4
  simp only [partialXy, partialZ, partialZz, show m + 2 ≠ 0 by omega, show m + 2 ≠ 1 by omega, if_false, Nat.add_sub_cancel,
    show m + 2 - 1 = m + 1 by omega,
    (tables_spec g.radius p D (n + 2) (m + 2 + 2) hn (by omega)).1, (tables_spec g.radius p D (n + 2) (m + 2 + 2) hn (by omega)).2,
    (tables_spec g.radius p D (n + 2) (m + 2 + 1) hn (by omega)).1, (tables_spec g.radius p D (n + 2) (m + 2 + 1) hn (by omega)).2,
    (tables_spec g.radius p D (n + 2) (m + 2) hn (by omega)).1, (tables_spec g.radius p D (n + 2) (m + 2) hn (by omega)).2,
    (tables_spec g.radius p D (n + 2) (m + 1) hn (by omega)).1, (tables_spec g.radius p D (n + 2) (m + 1) hn (by omega)).2,
    (tables_spec g.radius p D (n + 2) m hn (by omega)).1, (tables_spec g.radius p D (n + 2) m hn (by omega)).2, tv, tw]
  simp only [show m + 1 + 1 = m + 2 from rfl, show m + 1 + 2 = m + 3 from rfl, show m + 1 + 3 = m + 4 from rfl, show m + 2 + 1 = m + 3 from rfl,
    show m + 2 + 2 = m + 4 from rfl] at *
  have ec : ((m + 2 : ℕ) : ℝ) = m + 2 := by push_cast; ring
  have ec1 : ((m + 1 : ℕ) : ℝ) + 1 = m + 2 := by push_cast; ring
  rw [ec1] at k1 k3 k4
  rw [ec] at k2
  rw [ec]
  generalize Real.sqrt ((2 * (n : ℝ) + 1) / (2 * n + 5)) = k at *
  generalize Real.sqrt (((n : ℝ) + (m + 2) + 1) * (n + (m + 2) + 2) * (n + (m + 2) + 3) * (n + (m + 2) + 4)) = q1 at *
  generalize Real.sqrt (((n : ℝ) + (m + 2) + 1) * (n + (m + 2) + 2) / ((n - (m + 2) + 1) * (n - (m + 2) + 2))) = q2 at *
  generalize Real.sqrt (((n : ℝ) + (m + 2) + 1) * (n + (m + 2) + 2) * (n + (m + 2) + 3) / (n - (m + 2) + 1)) = q3 at *
  generalize Real.sqrt (((n : ℝ) + (m + 2) + 1) / ((n - (m + 2) + 1) * (n - (m + 2) + 2) * (n - (m + 2) + 3))) = q4 at *
  generalize Real.sqrt ((if m + 2 = 2 then 2 else 1) /
      (((n : ℝ) - (m + 2) + 1) * (n - (m + 2) + 2) * (n - (m + 2) + 3) * (n - (m + 2) + 4))) = q5 at *
  have a1 : (n : ℝ) - (m + 2) + 1 = n - m - 1 := by ring
  have a2 : (n : ℝ) - (m + 2) + 2 = n - m := by ring
  have a3 : (n : ℝ) - (m + 2) + 3 = n - m + 1 := by ring
  have a4 : (n : ℝ) - (m + 2) + 4 = n - m + 2 := by ring
  rw [a1, a2, a3, a4]
  simp [hterm, hsv, hsw, gsv, gsw, -mul_eq_mul_left_iff]
  refine ⟨?_, ?_, ?_, ?_, ?_, ?_⟩
  · linear_combination (-1 / 4) * g.radius ^ (n + 3) * ((c * sv (n + 2) (m + 4) p + s * sw (n + 2) (m + 4) p) * k1
      - 2 * (n - m - 1) * (n - m) * (c * sv (n + 2) (m + 2) p + s * sw (n + 2) (m + 2) p) * k2
      + (n - m - 1) * (n - m) * (n - m + 1) * (n - m + 2) * (c * sv (n + 2) m p + s * sw (n + 2) m p) * k5)
  · linear_combination (1 / 4) * g.radius ^ (n + 3) * ((c * sv (n + 2) (m + 4) p + s * sw (n + 2) (m + 4) p) * k1
      + 2 * (n - m - 1) * (n - m) * (c * sv (n + 2) (m + 2) p + s * sw (n + 2) (m + 2) p) * k2
      + (n - m - 1) * (n - m) * (n - m + 1) * (n - m + 2) * (c * sv (n + 2) m p + s * sw (n + 2) m p) * k5)
  · linear_combination (-1 / 4) * g.radius ^ (n + 3) * ((c * sw (n + 2) (m + 4) p - s * sv (n + 2) (m + 4) p) * k1
      + (n - m - 1) * (n - m) * (n - m + 1) * (n - m + 2) * (-c * sw (n + 2) m p + s * sv (n + 2) m p) * k5)
  · linear_combination (-1 / 2) * g.radius ^ (n + 3) * ((n - m - 1) * (c * sv (n + 2) (m + 3) p + s * sw (n + 2) (m + 3) p) * k3
      - (n - m - 1) * (n - m) * (n - m + 1) * (c * sv (n + 2) (m + 1) p + s * sw (n + 2) (m + 1) p) * k4)
  · linear_combination (-1 / 2) * g.radius ^ (n + 3) * ((n - m - 1) * (c * sw (n + 2) (m + 3) p - s * sv (n + 2) (m + 3) p) * k3
      + (n - m - 1) * (n - m) * (n - m + 1) * (c * sw (n + 2) (m + 1) p - s * sv (n + 2) (m + 1) p) * k4)
  · linear_combination -g.radius ^ (n + 3) * (n - m - 1) * (n - m) * ((c * sv (n + 2) (m + 2) p + s * sw (n + 2) (m + 2) p) * k2)

end S2E.Gravity
