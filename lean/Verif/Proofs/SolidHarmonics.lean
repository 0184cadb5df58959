import Verif.Proofs.Legendre
import Mathlib.Analysis.Calculus.FDeriv.Mul
import Mathlib.Analysis.Calculus.FDeriv.Pi
import Mathlib.Analysis.Calculus.Deriv.Polynomial
import Mathlib.Tactic.FinCases
/-!
# Solid harmonics and their gradients
-/
namespace S2E.Gravity
open Polynomial TwoBody

section gradient
variable {f h : (Fin 3 → ℝ) → ℝ} {p g k : Fin 3 → ℝ}

theorem IsGradient.congr (hf : IsGradient f p g) (e : ∀ i, g i = k i) : IsGradient f p k := by
  rwa [← funext e]

theorem isGradient_const (a : ℝ) : IsGradient (fun _ => a) p (fun _ => 0) := by
  simpa [IsGradient] using hasFDerivAt_const a p

theorem isGradient_coord (j : Fin 3) : IsGradient (fun q => q j) p (fun i => if i = j then 1 else 0) := by
  have h : HasFDerivAt (fun q : Fin 3 → ℝ => q j) (ContinuousLinearMap.proj j : (Fin 3 → ℝ) →L[ℝ] ℝ) p :=
    (ContinuousLinearMap.proj j : (Fin 3 → ℝ) →L[ℝ] ℝ).hasFDerivAt
  simpa [IsGradient] using h

theorem IsGradient.add (hf : IsGradient f p g) (hh : IsGradient h p k) : IsGradient (fun q => f q + h q) p (fun i => g i + k i) := by
  unfold IsGradient at *
  refine (HasFDerivAt.add hf hh).congr_fderiv ?_
  simp [add_smul, Finset.sum_add_distrib]

theorem IsGradient.mul (hf : IsGradient f p g) (hh : IsGradient h p k) :
    IsGradient (fun q => f q * h q) p (fun i => f p * k i + h p * g i) := by
  unfold IsGradient at *
  refine (HasFDerivAt.mul hf hh).congr_fderiv ?_
  simp [add_smul, Finset.sum_add_distrib, Finset.smul_sum, smul_smul]

theorem IsGradient.const_mul (a : ℝ) (hf : IsGradient f p g) : IsGradient (fun q => a * f q) p (fun i => a * g i) := by
  refine ((isGradient_const a).mul hf).congr ?_
  intro i; simp

theorem IsGradient.comp {F : ℝ → ℝ} {F' : ℝ} (hF : HasDerivAt F F' (f p)) (hf : IsGradient f p g) :
    IsGradient (fun q => F (f q)) p (fun i => F' * g i) := by
  unfold IsGradient at *
  refine (hF.comp_hasFDerivAt p hf).congr_fderiv ?_
  simp [Finset.smul_sum, smul_smul]

theorem IsGradient.sum {ι : Type} (S : Finset ι) {F : ι → (Fin 3 → ℝ) → ℝ} {G : ι → Fin 3 → ℝ} (hF : ∀ x ∈ S, IsGradient (F x) p (G x)) :
    IsGradient (fun q => ∑ x ∈ S, F x q) p (fun i => ∑ x ∈ S, G x i) := by
  classical
  induction S using Finset.induction_on with
  | empty => simpa using isGradient_const (p := p) 0
  | insert a S ha ih =>
    simp only [Finset.sum_insert ha]
    exact (hF a (Finset.mem_insert_self a S)).add (ih fun x hx => hF x (Finset.mem_insert_of_mem hx))

theorem IsGradient.congr_of_ne (hp : p ≠ 0) (hf : IsGradient f p g) (e : ∀ q, q ≠ 0 → h q = f q) : IsGradient h p g := by
  unfold IsGradient at *
  refine hf.congr_of_eventuallyEq ?_
  filter_upwards [isOpen_ne.mem_nhds hp] with q hq using e q hq

/-- Reciprocal of the distance from the centre. -/
noncomputable def rec (p : Fin 3 → ℝ) : ℝ := (len p)⁻¹

theorem isGradient_rec (hp : p ≠ 0) : IsGradient rec p (fun i => -(p i) * rec p ^ 3) := by
  have hl := len_pos hp
  have hs : (0 : ℝ) < p 0 ^ 2 + p 1 ^ 2 + p 2 ^ 2 := by
    rw [len] at hl; exact Real.sqrt_pos.mp hl
  have h1 : IsGradient (fun q => q 0 ^ 2 + q 1 ^ 2 + q 2 ^ 2) p (fun i => 2 * p i) := by
    have sq : ∀ j : Fin 3, IsGradient (fun q => q j ^ 2) p (fun i => 2 * p j * if i = j then 1 else 0) := by
      intro j
      simpa using IsGradient.comp (F := fun x => x ^ 2) (by simpa using hasDerivAt_pow 2 (p j)) (isGradient_coord j)
    refine (((sq 0).add (sq 1)).add (sq 2)).congr ?_
    intro i; fin_cases i <;> simp
  have h2 := IsGradient.comp ((Real.hasDerivAt_sqrt hs.ne').inv (Real.sqrt_pos.mpr hs).ne') h1
  refine IsGradient.congr (f := rec) h2 ?_
  intro i
  have e : len p = Real.sqrt (p 0 ^ 2 + p 1 ^ 2 + p 2 ^ 2) := rfl
  rw [rec, e]
  have h3 := (Real.sqrt_pos.mpr hs).ne'
  field_simp

end gradient

theorem rec_sq {p : Fin 3 → ℝ} (hp : p ≠ 0) : (p 0 ^ 2 + p 1 ^ 2 + p 2 ^ 2) * rec p ^ 2 = 1 := by
  have hl := len_pos hp
  have h := len_sq p
  rw [dot] at h
  rw [rec]
  field_simp
  linear_combination -h

/-- Derivative of `Pₙ` of order `m`, at the sine of the latitude, divided by the power `n + m + 1` of the distance. -/
noncomputable def radial (n m : ℕ) (p : Fin 3 → ℝ) : ℝ := rec p ^ (n + m + 1) * (dl n m).eval (p 2 * rec p)

theorem eval_dl_B (n m : ℕ) (u : ℝ) : (dl (n + 1) (m + 1)).eval u = (n + m + 1) * (dl n m).eval u + u * (dl n (m + 1)).eval u := by
  simp [dl_B]

theorem eval_dl_A (n m : ℕ) (u : ℝ) :
    (n - m + 1) * (dl (n + 1) m).eval u = (n + m + 1) * u * (dl n m).eval u - (1 - u ^ 2) * (dl n (m + 1)).eval u := by
  simpa using congrArg (eval u) (dl_A n m)

theorem eval_dl_C (n m : ℕ) (u : ℝ) : 2 * (m + 1) * (dl n (m + 1)).eval u - (1 - u ^ 2) * (dl (n + 1) (m + 2)).eval u =
    (n - m + 1) * (n - m) * (dl (n + 1) m).eval u := by
  simpa using congrArg (eval u) (dl_C n m)

theorem isGradient_radial (n m : ℕ) {p : Fin 3 → ℝ} (hp : p ≠ 0) : IsGradient (radial n m) p
    ![-(p 0) * radial (n + 1) (m + 1) p, -(p 1) * radial (n + 1) (m + 1) p, -(n - m + 1) * radial (n + 1) m p] := by
  have hr := isGradient_rec hp
  have hu := (isGradient_coord (p := p) 2).mul hr
  have h1 := IsGradient.comp (F := fun x => x ^ (n + m + 1)) (hasDerivAt_pow _ _) hr
  have h2 := IsGradient.comp (f := fun q => q 2 * rec q) ((dl n m).hasDerivAt _) hu
  rw [dl_succ] at h2
  refine IsGradient.congr (f := radial n m) (h1.mul h2) ?_
  intro i
  have hq := rec_sq hp
  have hB := eval_dl_B n m (p 2 * rec p)
  have hA := eval_dl_A n m (p 2 * rec p)
  unfold radial
  rw [show n + 1 + (m + 1) + 1 = n + m + 3 by ring, show n + 1 + m + 1 = n + m + 2 by ring]
  generalize (dl n m).eval (p 2 * rec p) = a at *
  generalize (dl n (m + 1)).eval (p 2 * rec p) = b at *
  generalize (dl (n + 1) (m + 1)).eval (p 2 * rec p) = c at *
  generalize (dl (n + 1) m).eval (p 2 * rec p) = d at *
  generalize rec p = r at *
  simp only [Nat.add_sub_cancel, pow_add _ (n + m)]
  push_cast
  generalize r ^ (n + m) = w
  subst hB
  fin_cases i
  · simp; ring
  · simp; ring
  · simp
    linear_combination w * r ^ 2 * hA - 0 * w * b * hq

/-- `(x + i y)^m`, real part. -/
def cosPart : ℕ → (Fin 3 → ℝ) → ℝ × ℝ
  | 0, _ => (1, 0)
  | m + 1, p => (p 0 * (cosPart m p).1 - p 1 * (cosPart m p).2, p 0 * (cosPart m p).2 + p 1 * (cosPart m p).1)

theorem isGradient_planar (m : ℕ) (p : Fin 3 → ℝ) :
    IsGradient (fun q => (cosPart (m + 1) q).1) p ![(m + 1) * (cosPart m p).1, -(m + 1) * (cosPart m p).2, 0] ∧
    IsGradient (fun q => (cosPart (m + 1) q).2) p ![(m + 1) * (cosPart m p).2, (m + 1) * (cosPart m p).1, 0] := by
  induction m with
  | zero =>
    constructor
    · refine IsGradient.congr (f := fun q => (cosPart 1 q).1) (by simpa [cosPart] using isGradient_coord (p := p) 0) ?_
      intro i; fin_cases i <;> simp [cosPart]
    · refine IsGradient.congr (f := fun q => (cosPart 1 q).2) (by simpa [cosPart] using isGradient_coord (p := p) 1) ?_
      intro i; fin_cases i <;> simp [cosPart]
  | succ m ih =>
    have x := isGradient_coord (p := p) 0
    have y := isGradient_coord (p := p) 1
    constructor
    · refine IsGradient.congr (f := fun q => (cosPart (m + 2) q).1)
        (by simpa [cosPart, sub_eq_add_neg] using (x.mul ih.1).add ((y.mul ih.2).const_mul (-1))) ?_
      intro i; fin_cases i <;> simp [cosPart] <;> ring
    · refine IsGradient.congr (f := fun q => (cosPart (m + 2) q).2) (by simpa [cosPart] using (x.mul ih.2).add (y.mul ih.1)) ?_
      intro i; fin_cases i <;> simp [cosPart] <;> ring

/-- The two solid harmonics of degree `n` and order `m`. -/
noncomputable def sv (n m : ℕ) (p : Fin 3 → ℝ) : ℝ := radial n m p * (cosPart m p).1
@[inherit_doc sv] noncomputable def sw (n m : ℕ) (p : Fin 3 → ℝ) : ℝ := radial n m p * (cosPart m p).2

theorem sw_zero (n : ℕ) (p : Fin 3 → ℝ) : sw n 0 p = 0 := by simp [sw, cosPart]

theorem isGradient_sv_zero (n : ℕ) {p : Fin 3 → ℝ} (hp : p ≠ 0) :
    IsGradient (sv n 0) p ![-(sv (n + 1) 1 p), -(sw (n + 1) 1 p), -(n + 1) * sv (n + 1) 0 p] := by
  have h := isGradient_radial n 0 hp
  refine IsGradient.congr (f := sv n 0) (g := ![-(p 0) * radial (n + 1) (0 + 1) p, -(p 1) * radial (n + 1) (0 + 1) p,
    -(n - (0 : ℕ) + 1) * radial (n + 1) 0 p]) ?_ ?_
  · have e : sv n 0 = radial n 0 := by funext q; simp [sv, cosPart]
    rwa [e]
  · intro i; fin_cases i <;> simp [sv, sw, cosPart] <;> ring

theorem radial_C (n m : ℕ) {p : Fin 3 → ℝ} (hp : p ≠ 0) : 2 * (m + 1) * radial n (m + 1) p - (p 0 ^ 2 + p 1 ^ 2) * radial (n + 1) (m + 2) p =
    (n - m + 1) * (n - m) * radial (n + 1) m p := by
  have hq := rec_sq hp
  have hC := eval_dl_C n m (p 2 * rec p)
  unfold radial
  rw [show n + 1 + (m + 2) + 1 = n + m + 4 by ring, show n + 1 + m + 1 = n + m + 2 by ring, show n + (m + 1) + 1 = n + m + 2 by ring]
  generalize (dl n (m + 1)).eval (p 2 * rec p) = a at *
  generalize (dl (n + 1) (m + 2)).eval (p 2 * rec p) = b at *
  generalize (dl (n + 1) m).eval (p 2 * rec p) = c at *
  generalize rec p = r at *
  simp only [pow_add _ (n + m)]
  generalize r ^ (n + m) = w
  linear_combination w * r ^ 2 * hC - w * r ^ 2 * b * hq

theorem isGradient_sv (n m : ℕ) {p : Fin 3 → ℝ} (hp : p ≠ 0) : IsGradient (sv n (m + 1)) p
    ![(-(sv (n + 1) (m + 2) p) + (n - m + 1) * (n - m) * sv (n + 1) m p) / 2,
      (-(sw (n + 1) (m + 2) p) - (n - m + 1) * (n - m) * sw (n + 1) m p) / 2, -(n - m) * sv (n + 1) (m + 1) p] := by
  refine IsGradient.congr (f := sv n (m + 1)) ((isGradient_radial n (m + 1) hp).mul (isGradient_planar m p).1) ?_
  have hC := radial_C n m hp
  intro i
  simp only [sv, sw, cosPart]
  generalize radial n (m + 1) p = a at *
  generalize radial (n + 1) (m + 1 + 1) p = b at *
  generalize radial (n + 1) m p = c at *
  fin_cases i
  · simp
    linear_combination (cosPart m p).1 / 2 * hC
  · simp
    linear_combination -(cosPart m p).2 / 2 * hC
  · simp
    ring

theorem isGradient_sw (n m : ℕ) {p : Fin 3 → ℝ} (hp : p ≠ 0) : IsGradient (sw n (m + 1)) p
    ![(-(sw (n + 1) (m + 2) p) + (n - m + 1) * (n - m) * sw (n + 1) m p) / 2,
      (sv (n + 1) (m + 2) p + (n - m + 1) * (n - m) * sv (n + 1) m p) / 2, -(n - m) * sw (n + 1) (m + 1) p] := by
  refine IsGradient.congr (f := sw n (m + 1)) ((isGradient_radial n (m + 1) hp).mul (isGradient_planar m p).2) ?_
  have hC := radial_C n m hp
  intro i
  simp only [sv, sw, cosPart]
  generalize radial n (m + 1) p = a at *
  generalize radial (n + 1) (m + 1 + 1) p = b at *
  generalize radial (n + 1) m p = c at *
  fin_cases i
  · simp
    linear_combination (cosPart m p).2 / 2 * hC
  · simp
    linear_combination (cosPart m p).1 / 2 * hC
  · simp
    ring

theorem isGradient_sw_zero (n : ℕ) (p : Fin 3 → ℝ) : IsGradient (sw n 0) p 0 := by
  have e : sw n 0 = fun _ => 0 := funext (sw_zero n)
  rw [e]
  exact isGradient_const 0

/-! ### Spherical form -/

theorem cosPart_complex (m : ℕ) (p : Fin 3 → ℝ) : (⟨(cosPart m p).1, (cosPart m p).2⟩ : ℂ) = (⟨p 0, p 1⟩ : ℂ) ^ m := by
  induction m with
  | zero => rw [cosPart, pow_zero]; rfl
  | succ m ih =>
    rw [pow_succ, ← ih]
    apply Complex.ext <;> simp [cosPart] <;> ring

theorem cosPart_polar (m : ℕ) (p : Fin 3 → ℝ) :
    (cosPart m p).1 = Real.sqrt (p 0 ^ 2 + p 1 ^ 2) ^ m * Real.cos (m * longitude p) ∧
    (cosPart m p).2 = Real.sqrt (p 0 ^ 2 + p 1 ^ 2) ^ m * Real.sin (m * longitude p) := by
  have h := cosPart_complex m p
  have hn : ‖(⟨p 0, p 1⟩ : ℂ)‖ = Real.sqrt (p 0 ^ 2 + p 1 ^ 2) := by
    rw [Complex.norm_def, Complex.normSq_apply]; simp [sq]
  have h2 : (⟨p 0, p 1⟩ : ℂ) ^ m = ((Real.sqrt (p 0 ^ 2 + p 1 ^ 2) ^ m : ℝ) : ℂ) * Complex.exp ((m * longitude p : ℝ) * Complex.I) := by
    conv_lhs => rw [← Complex.norm_mul_exp_arg_mul_I (⟨p 0, p 1⟩ : ℂ), mul_pow, ← Complex.exp_nat_mul, hn]
    rw [longitude]
    push_cast
    ring_nf
  rw [h2] at h
  constructor
  · have := congrArg Complex.re h
    rw [Complex.re_ofReal_mul, Complex.exp_ofReal_mul_I_re] at this
    exact this
  · have := congrArg Complex.im h
    rw [Complex.im_ofReal_mul, Complex.exp_ofReal_mul_I_im] at this
    exact this

theorem sqrt_lat {p : Fin 3 → ℝ} (hp : p ≠ 0) : Real.sqrt (1 - (p 2 / len p) ^ 2) = Real.sqrt (p 0 ^ 2 + p 1 ^ 2) * rec p := by
  have hl := len_pos hp
  have hr : 0 ≤ rec p := by rw [rec]; positivity
  have h := rec_sq hp
  have e : 1 - (p 2 / len p) ^ 2 = (p 0 ^ 2 + p 1 ^ 2) * rec p ^ 2 := by
    rw [div_eq_mul_inv, ← rec]
    linear_combination -h
  rw [e, Real.sqrt_mul (by positivity), Real.sqrt_sq hr]

theorem spherical (n m : ℕ) {p : Fin 3 → ℝ} (hp : p ≠ 0) :
    sv n m p = (len p)⁻¹ ^ (n + 1) * associated n m (p 2 / len p) * Real.cos (m * longitude p) ∧
    sw n m p = (len p)⁻¹ ^ (n + 1) * associated n m (p 2 / len p) * Real.sin (m * longitude p) := by
  obtain ⟨h1, h2⟩ := cosPart_polar m p
  rw [sv, sw, h1, h2, associated, sqrt_lat hp, radial, ← rec, div_eq_mul_inv, ← rec, dl, mul_pow]
  constructor <;> ring

end S2E.Gravity
