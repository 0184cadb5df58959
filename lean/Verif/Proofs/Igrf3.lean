import Verif.Proofs.Igrf2
/-!
# Gradient in spherical coordinates
-/
namespace S2E.Igrf
open Gravity Polynomial TwoBody

/-- Point with distance `r`, colatitude with sine `s` and cosine `c`, and longitude `phi`. -/
noncomputable def sphere (r s c phi : ℝ) : Fin 3 → ℝ := ![r * s * Real.cos phi, r * s * Real.sin phi, r * c]

/-- The vector with components `x` to the north, `y` to the east and `z` down. -/
noncomputable def fromNed (s c phi x y z : ℝ) : Fin 3 → ℝ :=
  ![-(c * Real.cos phi) * x - Real.sin phi * y - s * Real.cos phi * z, -(c * Real.sin phi) * x + Real.cos phi * y - s * Real.sin phi * z, s * x - c * z]

variable {r s c phi : ℝ}

theorem sphere_len (hr : 0 < r) (h : s ^ 2 + c ^ 2 = 1) : len (sphere r s c phi) = r := by
  have : (sphere r s c phi 0) ^ 2 + (sphere r s c phi 1) ^ 2 + (sphere r s c phi 2) ^ 2 = r ^ 2 := by
    have := Real.sin_sq_add_cos_sq phi
    simp only [sphere, Matrix.cons_val]
    linear_combination r ^ 2 * s ^ 2 * this + r ^ 2 * h
  rw [len, this, Real.sqrt_sq hr.le]

theorem sphere_ne (hr : 0 < r) (h : s ^ 2 + c ^ 2 = 1) : sphere r s c phi ≠ 0 := by
  intro h0
  have := sphere_len (phi := phi) hr h
  rw [h0] at this
  simp [len] at this
  linarith

theorem cosPart_sphere (m : ℕ) : cosPart m (sphere r s c phi) = ((r * s) ^ m * Real.cos (m * phi), (r * s) ^ m * Real.sin (m * phi)) := by
  induction m with
  | zero => simp [cosPart]
  | succ m ih =>
    rw [cosPart, ih]
    push_cast
    rw [add_mul, one_mul, Real.cos_add, Real.sin_add]
    simp only [sphere, Matrix.cons_val]
    refine Prod.ext ?_ ?_ <;> simp only <;> ring

theorem rec_sphere (hr : 0 < r) (h : s ^ 2 + c ^ 2 = 1) : rec (sphere r s c phi) = r⁻¹ ∧ sphere r s c phi 2 * rec (sphere r s c phi) = c := by
  have hl := sphere_len (phi := phi) hr h
  have e : rec (sphere r s c phi) = r⁻¹ := by simp only [Gravity.rec, hl]
  refine ⟨e, ?_⟩
  rw [e]
  simp only [sphere, Matrix.cons_val]
  field_simp

/-- Gradient of the two harmonics of degree `n` and order `m`: components to the north, east and down. -/
theorem gradient_sphere (hr : 0 < r) (hs : 0 < s) (h : s ^ 2 + c ^ 2 = 1) (n m : ℕ) :
    IsGradient (sv n m) (sphere r s c phi) (fun i => r⁻¹ ^ (n + 2) * fromNed s c phi (-(QQ c s n m * Real.cos (m * phi))) (-(m * PP c s n m * Real.sin (m * phi) / s))
      ((n + 1) * PP c s n m * Real.cos (m * phi)) i) ∧
    IsGradient (sw n m) (sphere r s c phi) (fun i => r⁻¹ ^ (n + 2) * fromNed s c phi (-(QQ c s n m * Real.sin (m * phi))) (m * PP c s n m * Real.cos (m * phi) / s)
      ((n + 1) * PP c s n m * Real.sin (m * phi)) i) := by
  have hp := sphere_ne (phi := phi) hr h
  obtain ⟨e1, e2⟩ := rec_sphere (phi := phi) hr h
  have hR := isGradient_radial n m hp
  have r1 : radial n m (sphere r s c phi) = r⁻¹ ^ (n + m + 1) * (dl n m).eval c := by rw [radial, e1, ← e1, e2]
  have r2 : radial (n + 1) (m + 1) (sphere r s c phi) = r⁻¹ ^ (n + m + 3) * ((n + m + 1) * (dl n m).eval c + c * (dl n (m + 1)).eval c) := by
    rw [radial, e1, ← e1, e2, eval_dl_B, e1, show n + 1 + (m + 1) + 1 = n + m + 3 by ring]
  have r3 : ((n : ℝ) - m + 1) * radial (n + 1) m (sphere r s c phi) = r⁻¹ ^ (n + m + 2) * ((n + m + 1) * c * (dl n m).eval c - s ^ 2 * (dl n (m + 1)).eval c) := by
    have hA := eval_dl_A n m c
    have hc : 1 - c ^ 2 = s ^ 2 := by linear_combination -h
    rw [hc] at hA
    rw [radial, e1, ← e1, e2, e1, show n + 1 + m + 1 = n + m + 2 by ring]
    linear_combination r⁻¹ ^ (n + m + 2) * hA
  have hrr : r⁻¹ * r = 1 := inv_mul_cancel₀ hr.ne'
  have htrig := Real.sin_sq_add_cos_sq phi
  rcases m with _ | k
  · constructor
    · have e : sv n 0 = radial n 0 := by funext q; simp [sv, cosPart]
      rw [e]
      refine hR.congr ?_
      intro i
      simp only [PP, QQ, fromNed]
      rw [r2, show -((n : ℝ) - (0 : ℕ) + 1) * radial (n + 1) 0 (sphere r s c phi) = -(((n : ℝ) - (0 : ℕ) + 1) * radial (n + 1) 0 (sphere r s c phi)) by ring, r3]
      generalize (dl n 0).eval c = A
      generalize (dl n (0 + 1)).eval c = D
      generalize r⁻¹ = R at *
      simp only [pow_add, sphere]
      generalize R ^ n = w
      generalize Real.cos phi = u, Real.sin phi = v at *
      fin_cases i <;> simp <;> grind
    · have e : sw n 0 = fun _ => 0 := funext (sw_zero n)
      rw [e]
      refine (isGradient_const 0).congr ?_
      intro i
      fin_cases i <;> simp [fromNed]
  · obtain ⟨g1, g2⟩ := isGradient_planar k (sphere r s c phi)
    have hk : r⁻¹ ^ k * r ^ k = 1 := by rw [← mul_pow, hrr, one_pow]
    have hc2 : Real.cos ((k + 1 : ℕ) * phi) = Real.cos (k * phi) * Real.cos phi - Real.sin (k * phi) * Real.sin phi := by
      push_cast; rw [add_mul, one_mul, Real.cos_add]
    have hs2 : Real.sin ((k + 1 : ℕ) * phi) = Real.sin (k * phi) * Real.cos phi + Real.cos (k * phi) * Real.sin phi := by
      push_cast; rw [add_mul, one_mul, Real.sin_add]
    have r3' : -((n : ℝ) - (k + 1 : ℕ) + 1) * radial (n + 1) (k + 1) (sphere r s c phi) = -(((n : ℝ) - (k + 1 : ℕ) + 1) * radial (n + 1) (k + 1) (sphere r s c phi)) := by ring
    have hdiv : ∀ X : ℝ, ((k + 1 : ℕ) : ℝ) * (s ^ (k + 1) * (dl n (k + 1)).eval c) * X / s = ((k + 1 : ℕ) : ℝ) * (s ^ k * (dl n (k + 1)).eval c) * X := by
      intro X; rw [pow_succ]; field_simp
    constructor
    · refine IsGradient.congr (f := sv n (k + 1)) (hR.mul g1) ?_
      intro i
      simp only [PP, QQ, fromNed, hdiv]
      rw [r1, r2, r3', r3, cosPart_sphere, cosPart_sphere, hc2, hs2]
      generalize (dl n (k + 1)).eval c = A
      generalize (dl n (k + 1 + 1)).eval c = D
      generalize r⁻¹ = R at *
      simp only [Nat.add_sub_cancel, mul_pow]
      rw [show n + (k + 1) + 1 = n + k + 2 by ring, show n + (k + 1) + 2 = n + k + 3 by ring, show n + (k + 1) + 3 = n + k + 4 by ring]
      simp only [pow_add, sphere]
      push_cast
      generalize R ^ n = w at *
      generalize R ^ k = a at *
      generalize r ^ k = b at *
      generalize s ^ k = d at *
      generalize Real.cos (k * phi) = C at *
      generalize Real.sin (k * phi) = S at *
      generalize Real.cos phi = u, Real.sin phi = v at *
      clear * - hk hrr htrig h
      fin_cases i <;> simp <;> grind
    · refine IsGradient.congr (f := sw n (k + 1)) (hR.mul g2) ?_
      intro i
      simp only [PP, QQ, fromNed, hdiv]
      rw [r1, r2, r3', r3, cosPart_sphere, cosPart_sphere, hc2, hs2]
      generalize (dl n (k + 1)).eval c = A
      generalize (dl n (k + 1 + 1)).eval c = D
      generalize r⁻¹ = R at *
      simp only [Nat.add_sub_cancel, mul_pow]
      rw [show n + (k + 1) + 1 = n + k + 2 by ring, show n + (k + 1) + 2 = n + k + 3 by ring, show n + (k + 1) + 3 = n + k + 4 by ring]
      simp only [pow_add, sphere]
      push_cast
      generalize R ^ n = w at *
      generalize R ^ k = a at *
      generalize r ^ k = b at *
      generalize s ^ k = d at *
      generalize Real.cos (k * phi) = C at *
      generalize Real.sin (k * phi) = S at *
      generalize Real.cos phi = u, Real.sin phi = v at *
      clear * - hk hrr htrig h
      fin_cases i <;> simp <;> grind

theorem fromNed_sum {ι : Type} (S : Finset ι) (w x y z : ι → ℝ) (i : Fin 3) :
    ∑ k ∈ S, w k * fromNed s c phi (x k) (y k) (z k) i = fromNed s c phi (∑ k ∈ S, w k * x k) (∑ k ∈ S, w k * y k) (∑ k ∈ S, w k * z k) i := by
  classical
  induction S using Finset.induction_on with
  | empty => fin_cases i <;> simp [fromNed]
  | insert a S ha ih =>
    simp only [Finset.sum_insert ha, ih]
    fin_cases i <;> simp [fromNed] <;> ring

theorem potential_solid (a : ℝ) (N : ℕ) (g h : ℕ → ℕ → ℝ) {q : Fin 3 → ℝ} (hq : q ≠ 0) :
    magneticPotential a N g h q = ∑ n ∈ Finset.Icc 1 N, ∑ m ∈ Finset.range (n + 1), a ^ (n + 2) * schmidt n m * (g n m * sv n m q + h n m * sw n m q) := by
  rw [magneticPotential, Finset.mul_sum]
  refine Finset.sum_congr rfl fun n _ => ?_
  rw [Finset.mul_sum]
  refine Finset.sum_congr rfl fun m _ => ?_
  obtain ⟨e1, e2⟩ := spherical n m hq
  rw [e1, e2, div_eq_mul_inv a, mul_pow]
  ring

/-- The sums of `fcalc` are the components of minus the gradient of the potential. -/
theorem field_gradient (hr : 0 < r) (hs : 0 < s) (h : s ^ 2 + c ^ 2 = 1) (a : ℝ) (K : ℕ) (gC hC G p : ℕ → ℕ → ℝ) (csp snp rar : ℕ → ℝ)
    (hG : ∀ n, 1 ≤ n → n ≤ K → ∀ m ≤ n, G m n = gC n m * schmidt n m ∧ (1 ≤ m → G n (m - 1) = hC n m * schmidt n m))
    (hp : Filled c s K p) (ht : ∀ m ≤ K, csp m = Real.cos (m * phi) ∧ snp m = Real.sin (m * phi)) (hrar : ∀ n ≤ K, rar n = (a / r) ^ (n + 2)) :
    let v := fieldSums G p csp snp rar s K
    IsGradient (magneticPotential a K gC hC) (sphere r s c phi) (fun i => -fromNed s c phi v.1 v.2.1 v.2.2 i) := by
  intro v
  have hne := sphere_ne (phi := phi) hr h
  have hgrad : IsGradient (fun q => ∑ n ∈ Finset.Icc 1 K, ∑ m ∈ Finset.range (n + 1), a ^ (n + 2) * schmidt n m * (gC n m * sv n m q + hC n m * sw n m q)) (sphere r s c phi)
      (fun i => ∑ n ∈ Finset.Icc 1 K, ∑ m ∈ Finset.range (n + 1), a ^ (n + 2) * schmidt n m * (gC n m * (r⁻¹ ^ (n + 2) * fromNed s c phi (-(QQ c s n m * Real.cos (m * phi)))
        (-(m * PP c s n m * Real.sin (m * phi) / s)) ((n + 1) * PP c s n m * Real.cos (m * phi)) i) + hC n m * (r⁻¹ ^ (n + 2) * fromNed s c phi (-(QQ c s n m * Real.sin (m * phi)))
        (m * PP c s n m * Real.cos (m * phi) / s) ((n + 1) * PP c s n m * Real.sin (m * phi)) i))) := by
    refine IsGradient.sum _ fun n _ => IsGradient.sum _ fun m _ => ?_
    obtain ⟨g1, g2⟩ := gradient_sphere (phi := phi) hr hs h n m
    exact ((g1.const_mul _).add (g2.const_mul _)).const_mul _
  refine (IsGradient.congr_of_ne hne hgrad fun q hq => potential_solid a K gC hC hq).congr ?_
  intro i
  have hv : v = fieldSums G p csp snp rar s K := rfl
  rw [fieldSums_spec] at hv
  have hinner : ∀ n ∈ Finset.Icc 1 K, ∑ m ∈ Finset.range (n + 1), a ^ (n + 2) * schmidt n m * (gC n m * (r⁻¹ ^ (n + 2) * fromNed s c phi (-(QQ c s n m * Real.cos (m * phi)))
        (-(m * PP c s n m * Real.sin (m * phi) / s)) ((n + 1) * PP c s n m * Real.cos (m * phi)) i) + hC n m * (r⁻¹ ^ (n + 2) * fromNed s c phi (-(QQ c s n m * Real.sin (m * phi)))
        (m * PP c s n m * Real.cos (m * phi) / s) ((n + 1) * PP c s n m * Real.sin (m * phi)) i)) =
      rar n * fromNed s c phi (-(degreeSums G p csp snp n).1) (-((degreeSums G p csp snp n).2.1 / s)) ((degreeSums G p csp snp n).2.2 * ((n : ℝ) + 1)) i := by
    intro n hn
    obtain ⟨h1, h2⟩ := Finset.mem_Icc.mp hn
    have t0 := ht 0 (by omega)
    rw [degreeSums_spec G p csp snp n (by simpa using t0.2) (by simpa using t0.1), hrar n h2]
    dsimp only
    rw [← Finset.sum_neg_distrib, Finset.sum_div, ← Finset.sum_neg_distrib, Finset.sum_mul]
    have := fromNed_sum (s := s) (c := c) (phi := phi) (Finset.range (n + 1)) (fun _ => 1) (fun m => -((G m n * csp m + (if m = 0 then 0 else G n (m - 1)) * snp m) * p (n + 1) m))
      (fun m => -((G m n * snp m - (if m = 0 then 0 else G n (m - 1)) * csp m) * p m n * m / s)) (fun m => (G m n * csp m + (if m = 0 then 0 else G n (m - 1)) * snp m) * p m n * ((n : ℝ) + 1)) i
    simp only [one_mul] at this
    rw [← this, Finset.mul_sum]
    refine Finset.sum_congr rfl fun m hm => ?_
    have hmn : m ≤ n := by have := Finset.mem_range.mp hm; omega
    obtain ⟨q1, q2⟩ := hp n m hmn h2
    obtain ⟨t1, t2⟩ := ht m (by omega)
    obtain ⟨G1, G2⟩ := hG n h1 h2 m hmn
    rw [q1, q2, t1, t2, G1, div_eq_mul_inv a, mul_pow]
    by_cases hm0 : m = 0
    · subst hm0
      simp only [if_pos, Nat.cast_zero, zero_mul, Real.cos_zero, Real.sin_zero]
      fin_cases i <;> simp [fromNed] <;> ring
    · rw [if_neg hm0, G2 (by omega)]
      generalize PP c s n m = P, QQ c s n m = Q, Real.cos (m * phi) = C, Real.sin (m * phi) = S
      fin_cases i <;> simp [fromNed] <;> ring
  rw [Finset.sum_congr rfl hinner, fromNed_sum, hv]
  have neg : ∀ x y z, -fromNed s c phi x y z i = fromNed s c phi (-x) (-y) (-z) i := by
    intro x y z; fin_cases i <;> simp [fromNed] <;> ring
  rw [neg]
  dsimp only
  congr 1
  · rw [← Finset.sum_neg_distrib]; exact Finset.sum_congr rfl fun n _ => by ring
  · rw [Finset.sum_div, ← Finset.sum_neg_distrib]; exact Finset.sum_congr rfl fun n _ => by ring
  · rw [neg_neg]; exact Finset.sum_congr rfl fun n _ => by ring

end S2E.Igrf
