import Verif.Spec.ThirdBody
import Mathlib.MeasureTheory.Integral.IntervalIntegral.FundThmCalculus
import Mathlib.Analysis.SpecialFunctions.Integrals.Basic

/-!
# The averaged potential of a distant body in closed form, and its derivatives
-/
namespace S2E.ThirdBody

/-- The normal of the orbit. -/
noncomputable def N (i W : ℝ) : Fin 3 → ℝ := ![Real.sin W * Real.sin i, -Real.cos W * Real.sin i, Real.cos i]

theorem P_unit (i W w : ℝ) : dot (P i W w) (P i W w) = 1 := by
  simp only [dot, P, Matrix.cons_val]
  have h1 := Real.sin_sq_add_cos_sq i
  have h2 := Real.sin_sq_add_cos_sq W
  have h3 := Real.sin_sq_add_cos_sq w
  linear_combination (Real.cos w ^ 2 + Real.cos i ^ 2 * Real.sin w ^ 2) * h2 + Real.sin w ^ 2 * h1 + h3

theorem Q_unit (i W w : ℝ) : dot (Q i W w) (Q i W w) = 1 := by
  simp only [dot, Q, Matrix.cons_val]
  have h1 := Real.sin_sq_add_cos_sq i
  have h2 := Real.sin_sq_add_cos_sq W
  have h3 := Real.sin_sq_add_cos_sq w
  linear_combination (Real.sin w ^ 2 + Real.cos i ^ 2 * Real.cos w ^ 2) * h2 + Real.cos w ^ 2 * h1 + h3

theorem PQ (i W w : ℝ) : dot (P i W w) (Q i W w) = 0 := by
  simp only [dot, P, Q, Matrix.cons_val]
  have h1 := Real.sin_sq_add_cos_sq i
  have h2 := Real.sin_sq_add_cos_sq W
  linear_combination (-Real.cos w * Real.sin w + Real.cos i ^ 2 * Real.sin w * Real.cos w) * h2 + Real.sin w * Real.cos w * h1

theorem hasDeriv_P_w (i W w : ℝ) (u : Fin 3 → ℝ) : HasDerivAt (fun w => dot (P i W w) u) (dot (Q i W w) u) w := by
  simp only [dot, P, Q, Matrix.cons_val]
  have hs := Real.hasDerivAt_sin w
  have hc := Real.hasDerivAt_cos w
  refine ((((hc.const_mul (Real.cos W)).sub (hs.const_mul (Real.sin W * Real.cos i))).mul_const (u 0)).add
    (((hc.const_mul (Real.sin W)).add (hs.const_mul (Real.cos W * Real.cos i))).mul_const (u 1)) |>.add ((hs.const_mul (Real.sin i)).mul_const (u 2))).congr_deriv ?_
  ring

theorem hasDeriv_Q_w (i W w : ℝ) (u : Fin 3 → ℝ) : HasDerivAt (fun w => dot (Q i W w) u) (-dot (P i W w) u) w := by
  simp only [dot, P, Q, Matrix.cons_val]
  have hs := Real.hasDerivAt_sin w
  have hc := Real.hasDerivAt_cos w
  refine ((((hs.const_mul (-Real.cos W)).sub (hc.const_mul (Real.sin W * Real.cos i))).mul_const (u 0)).add
    (((hs.const_mul (-Real.sin W)).add (hc.const_mul (Real.cos W * Real.cos i))).mul_const (u 1)) |>.add ((hc.const_mul (Real.sin i)).mul_const (u 2))).congr_deriv ?_
  ring

theorem hasDeriv_P_i (i W w : ℝ) (u : Fin 3 → ℝ) : HasDerivAt (fun i => dot (P i W w) u) (Real.sin w * dot (N i W) u) i := by
  simp only [dot, P, N, Matrix.cons_val]
  have hs := Real.hasDerivAt_sin i
  have hc := Real.hasDerivAt_cos i
  refine (((((hc.const_mul (Real.sin W)).mul_const (Real.sin w)).const_sub (Real.cos W * Real.cos w)).mul_const (u 0)).add
    ((((hc.const_mul (Real.cos W)).mul_const (Real.sin w)).const_add (Real.sin W * Real.cos w)).mul_const (u 1)) |>.add
    ((hs.mul_const (Real.sin w)).mul_const (u 2))).congr_deriv ?_
  ring

theorem hasDeriv_Q_i (i W w : ℝ) (u : Fin 3 → ℝ) : HasDerivAt (fun i => dot (Q i W w) u) (Real.cos w * dot (N i W) u) i := by
  simp only [dot, Q, N, Matrix.cons_val]
  have hs := Real.hasDerivAt_sin i
  have hc := Real.hasDerivAt_cos i
  refine (((((hc.const_mul (Real.sin W)).mul_const (Real.cos w)).const_sub (-Real.cos W * Real.sin w)).mul_const (u 0)).add
    ((((hc.const_mul (Real.cos W)).mul_const (Real.cos w)).const_add (-Real.sin W * Real.sin w)).mul_const (u 1)) |>.add
    ((hs.mul_const (Real.cos w)).mul_const (u 2))).congr_deriv ?_
  ring

theorem hasDeriv_P_W (i W w : ℝ) (u : Fin 3 → ℝ) :
    HasDerivAt (fun W => dot (P i W w) u) (Real.cos i * dot (Q i W w) u - Real.sin i * Real.cos w * dot (N i W) u) W := by
  simp only [dot, P, Q, N, Matrix.cons_val]
  have hs := Real.hasDerivAt_sin W
  have hc := Real.hasDerivAt_cos W
  have hi := Real.sin_sq_add_cos_sq i
  refine ((((hc.mul_const (Real.cos w)).sub ((hs.mul_const (Real.cos i)).mul_const (Real.sin w))).mul_const (u 0)).add
    (((hs.mul_const (Real.cos w)).add ((hc.mul_const (Real.cos i)).mul_const (Real.sin w))).mul_const (u 1)) |>.add (hasDerivAt_const W (Real.sin i * Real.sin w * u 2))).congr_deriv ?_
  linear_combination (-Real.sin W * Real.cos w * u 0 + Real.cos W * Real.cos w * u 1) * (-hi)

theorem hasDeriv_Q_W (i W w : ℝ) (u : Fin 3 → ℝ) :
    HasDerivAt (fun W => dot (Q i W w) u) (-Real.cos i * dot (P i W w) u + Real.sin i * Real.sin w * dot (N i W) u) W := by
  simp only [dot, P, Q, N, Matrix.cons_val]
  have hs := Real.hasDerivAt_sin W
  have hc := Real.hasDerivAt_cos W
  have hi := Real.sin_sq_add_cos_sq i
  refine ((((hc.neg.mul_const (Real.sin w)).sub ((hs.mul_const (Real.cos i)).mul_const (Real.cos w))).mul_const (u 0)).add
    (((hs.neg.mul_const (Real.sin w)).add ((hc.mul_const (Real.cos i)).mul_const (Real.cos w))).mul_const (u 1)) |>.add (hasDerivAt_const W (Real.sin i * Real.cos w * u 2))).congr_deriv ?_
  linear_combination (Real.sin W * Real.sin w * u 0 - Real.cos W * Real.sin w * u 1) * (-hi)

/-! ## The averages -/

theorem average_E (k a b c e : ℝ) :
    1 / (2 * Real.pi) * ∫ E in (0 : ℝ)..2 * Real.pi,
      k * ((3 * (a * (Real.cos E - e) + b * Real.sin E) ^ 2 - c * ((Real.cos E - e) ^ 2 + (1 - e ^ 2) * Real.sin E ^ 2)) / 2) * (1 - e * Real.cos E) =
    k * (3 / 4 * ((1 + 4 * e ^ 2) * a ^ 2 + b ^ 2) - c / 2 * (1 + 3 / 2 * e ^ 2)) := by
  set A : ℝ := 3 * a ^ 2 - c with hA
  set B : ℝ := 3 * b ^ 2 - c * (1 - e ^ 2) with hB
  set D : ℝ := 6 * a * b with hD
  let G : ℝ → ℝ := fun E => k / 2 * (A * ((E / 2 + Real.sin E * Real.cos E / 2) * (1 + 2 * e ^ 2) + e ^ 2 * E - (2 * e + e ^ 3) * Real.sin E - e * (Real.sin E - Real.sin E ^ 3 / 3))
    + B * (E / 2 - Real.sin E * Real.cos E / 2 - e * Real.sin E ^ 3 / 3) + D * ((1 + e ^ 2) * Real.sin E ^ 2 / 2 + e * Real.cos E ^ 3 / 3 + e * Real.cos E))
  have hG : ∀ E : ℝ, HasDerivAt G (k * ((3 * (a * (Real.cos E - e) + b * Real.sin E) ^ 2 - c * ((Real.cos E - e) ^ 2 + (1 - e ^ 2) * Real.sin E ^ 2)) / 2) * (1 - e * Real.cos E)) E := fun E => by
    have hs := Real.hasDerivAt_sin E
    have hc := Real.hasDerivAt_cos E
    have hsc := Real.sin_sq_add_cos_sq E
    have h1 := (((((hasDerivAt_id E).div_const 2).add ((hs.mul hc).div_const 2)).mul_const (1 + 2 * e ^ 2)).add ((hasDerivAt_id E).const_mul (e ^ 2))).sub (hs.const_mul (2 * e + e ^ 3)) |>.sub
      ((hs.sub ((hs.pow 3).div_const 3)).const_mul e)
    have h2 := (((hasDerivAt_id E).div_const 2).sub ((hs.mul hc).div_const 2)).sub (((hs.pow 3).const_mul e).div_const 3)
    have h3 := ((((hs.pow 2).const_mul (1 + e ^ 2)).div_const 2).add (((hc.pow 3).const_mul e).div_const 3)).add (hc.const_mul e)
    refine ((((h1.const_mul A).add (h2.const_mul B)).add (h3.const_mul D)).const_mul (k / 2)).congr_deriv ?_
    simp only [id, Nat.cast_ofNat, Nat.add_one_sub_one, pow_one, hA, hB, hD]
    generalize Real.sin E = s at *
    generalize Real.cos E = q at *
    have hs2 : s ^ 2 = 1 - q ^ 2 := by linarith
    grind
  have hcont : Continuous fun E : ℝ => k * ((3 * (a * (Real.cos E - e) + b * Real.sin E) ^ 2 - c * ((Real.cos E - e) ^ 2 + (1 - e ^ 2) * Real.sin E ^ 2)) / 2) * (1 - e * Real.cos E) := by fun_prop
  rw [intervalIntegral.integral_eq_sub_of_hasDerivAt (fun E _ => hG E) (hcont.intervalIntegrable _ _)]
  simp only [G, Real.sin_two_pi, Real.cos_two_pi, Real.sin_zero, Real.cos_zero, hA, hB, hD]
  have := Real.pi_ne_zero
  field_simp
  ring

theorem dot_point (a e i W w E : ℝ) (u : Fin 3 → ℝ) :
    dot (point a e i W w E) u = a * (dot (P i W w) u * (Real.cos E - e) + Real.sqrt (1 - e ^ 2) * dot (Q i W w) u * Real.sin E) := by
  simp only [dot, point]; ring

theorem dot_comm (x y : Fin 3 → ℝ) : dot x y = dot y x := by simp only [dot]; ring

theorem point_sq (a e i W w E : ℝ) (h : e ^ 2 ≤ 1) : dot (point a e i W w E) (point a e i W w E) = a ^ 2 * ((Real.cos E - e) ^ 2 + (1 - e ^ 2) * Real.sin E ^ 2) := by
  rw [dot_point, dot_comm (P i W w), dot_comm (Q i W w), dot_point, dot_point, dot_comm (Q i W w) (P i W w), P_unit, Q_unit, PQ]
  have := Real.sq_sqrt (show 0 ≤ 1 - e ^ 2 by linarith)
  linear_combination (a ^ 2 * Real.sin E ^ 2) * this

/-- The quadratic form of the closed expressions. -/
noncomputable def form (e i W w : ℝ) (u : Fin 3 → ℝ) : ℝ := (1 + 4 * e ^ 2) * dot (P i W w) u ^ 2 + (1 - e ^ 2) * dot (Q i W w) u ^ 2

theorem single_eq (b : Body) (f a e i W w : ℝ) (h : e ^ 2 ≤ 1) :
    single b f a e i W w = 4 * b.C * b.n * a ^ 2 * (3 / 4 * form e i W w (b.direction f) - (1 + 3 * b.ecc * Real.cos f) / 2 * (1 + 3 / 2 * e ^ 2)) := by
  unfold single
  have key := average_E (4 * b.C * b.n * a ^ 2) (dot (P i W w) (b.direction f)) (Real.sqrt (1 - e ^ 2) * dot (Q i W w) (b.direction f)) (1 + 3 * b.ecc * Real.cos f) e
  rw [mul_pow, Real.sq_sqrt (show 0 ≤ 1 - e ^ 2 by linarith)] at key
  rw [show form e i W w (b.direction f) = (1 + 4 * e ^ 2) * dot (P i W w) (b.direction f) ^ 2 + (1 - e ^ 2) * dot (Q i W w) (b.direction f) ^ 2 from rfl, ← key]
  congr 1
  refine intervalIntegral.integral_congr fun E _ => ?_
  simp only [point_sq a e i W w E h, dot_point]
  ring

theorem dot_direction (b : Body) (f : ℝ) (x : Fin 3 → ℝ) : dot x (b.direction f) = Real.cos f * dot x b.A + Real.sin f * dot x b.B := by
  simp only [dot, Body.direction]; ring

theorem form_direction (b : Body) (f e i W w : ℝ) :
    form e i W w (b.direction f) = Real.cos f ^ 2 * form e i W w b.A + Real.sin f ^ 2 * form e i W w b.B
      + 2 * Real.sin f * Real.cos f * ((1 + 4 * e ^ 2) * dot (P i W w) b.A * dot (P i W w) b.B + (1 - e ^ 2) * dot (Q i W w) b.A * dot (Q i W w) b.B) := by
  simp only [form, dot_direction]; ring

theorem double_eq (b : Body) (a e i W w : ℝ) (h : e ^ 2 ≤ 1) :
    double b a e i W w = 4 * b.C * b.n * a ^ 2 * (3 / 4 * (form e i W w b.A / 2 + form e i W w b.B / 2) - 1 / 2 * (1 + 3 / 2 * e ^ 2)) := by
  unfold double
  rw [intervalIntegral.integral_congr (g := fun f => 4 * b.C * b.n * a ^ 2 * (3 / 4 * (Real.cos f ^ 2 * form e i W w b.A + Real.sin f ^ 2 * form e i W w b.B
      + 2 * Real.sin f * Real.cos f * ((1 + 4 * e ^ 2) * dot (P i W w) b.A * dot (P i W w) b.B + (1 - e ^ 2) * dot (Q i W w) b.A * dot (Q i W w) b.B))
      - (1 + 3 * b.ecc * Real.cos f) / 2 * (1 + 3 / 2 * e ^ 2))) (fun f _ => by simp only [single_eq b f a e i W w h, form_direction])]
  generalize form e i W w b.A = A
  generalize form e i W w b.B = B
  generalize (1 + 4 * e ^ 2) * dot (P i W w) b.A * dot (P i W w) b.B + (1 - e ^ 2) * dot (Q i W w) b.A * dot (Q i W w) b.B = D
  generalize 1 + 3 / 2 * e ^ 2 = c
  generalize 4 * b.C * b.n * a ^ 2 = k
  generalize b.ecc = ε
  let G : ℝ → ℝ := fun f => k * (3 / 4 * ((f / 2 + Real.sin f * Real.cos f / 2) * A + (f / 2 - Real.sin f * Real.cos f / 2) * B + Real.sin f ^ 2 * D) - (f + 3 * ε * Real.sin f) / 2 * c)
  have hG : ∀ f : ℝ, HasDerivAt G (k * (3 / 4 * (Real.cos f ^ 2 * A + Real.sin f ^ 2 * B + 2 * Real.sin f * Real.cos f * D) - (1 + 3 * ε * Real.cos f) / 2 * c)) f := fun f => by
    have hs := Real.hasDerivAt_sin f
    have hc := Real.hasDerivAt_cos f
    have hsc := Real.sin_sq_add_cos_sq f
    have h1 := ((hasDerivAt_id f).div_const 2).add ((hs.mul hc).div_const 2)
    have h2 := ((hasDerivAt_id f).div_const 2).sub ((hs.mul hc).div_const 2)
    have h3 := (((hasDerivAt_id f).add (hs.const_mul (3 * ε))).div_const 2).mul_const c
    refine ((((((h1.mul_const A).add (h2.mul_const B)).add ((hs.pow 2).mul_const D)).const_mul (3 / 4)).sub h3).const_mul k).congr_deriv ?_
    simp only [Nat.cast_ofNat, Nat.add_one_sub_one, pow_one]
    linear_combination (k * (3 / 4) * (A / 2 - (A - B) / 2 - B / 2) - 3 / 8 * k * (A + B)) * hsc
  have hcont : Continuous fun f : ℝ => k * (3 / 4 * (Real.cos f ^ 2 * A + Real.sin f ^ 2 * B + 2 * Real.sin f * Real.cos f * D) - (1 + 3 * ε * Real.cos f) / 2 * c) := by fun_prop
  rw [intervalIntegral.integral_eq_sub_of_hasDerivAt (fun f _ => hG f) (hcont.intervalIntegrable _ _)]
  simp only [G, Real.sin_two_pi, Real.cos_two_pi, Real.sin_zero, Real.cos_zero]
  have := Real.pi_ne_zero
  field_simp
  ring

/-! ## Lagrange's equations for the closed forms -/

/-- A potential in closed form: two directions with weights. -/
noncomputable def closed (k m1 m2 c : ℝ) (u v : Fin 3 → ℝ) (a e i W w : ℝ) : ℝ :=
  k * a ^ 2 * (3 / 4 * (m1 * form e i W w u + m2 * form e i W w v) - c / 2 * (1 + 3 / 2 * e ^ 2))

theorem lagrange_congr {R R' : ℝ → ℝ → ℝ → ℝ → ℝ → ℝ} (h : ∀ a e i W w, e ^ 2 ≤ 1 → R a e i W w = R' a e i W w) {n a e i W w : ℝ} (he : e ^ 2 < 1) :
    lagrange R n a e i W w = lagrange R' n a e i W w := by
  have hev : (fun e => R a e i W w) =ᶠ[nhds e] fun e => R' a e i W w := by
    have ho : IsOpen {e : ℝ | e ^ 2 < 1} := isOpen_lt (by fun_prop) continuous_const
    filter_upwards [ho.mem_nhds he] with y hy
    exact h _ _ _ _ _ (le_of_lt hy)
  unfold lagrange
  rw [hev.deriv_eq]
  simp only [h _ e _ _ _ he.le]

theorem lagrange_closed (k m1 m2 c : ℝ) (u v : Fin 3 → ℝ) {n a e : ℝ} (i W w : ℝ) (hn : n ≠ 0) (ha : a ≠ 0) (he : e ≠ 0) (he1 : e ^ 2 < 1) (hi : Real.sin i ≠ 0) :
    let η := Real.sqrt (1 - e ^ 2)
    let p := fun x => dot (P i W w) x
    let q := fun x => dot (Q i W w) x
    let m := fun x => dot (N i W) x
    lagrange (closed k m1 m2 c u v) n a e i W w =
      { e := -(15 / 2) * k * (e * η / n) * (m1 * (p u * q u) + m2 * (p v * q v))
        i := 3 / 2 * k / (n * η) * (m1 * ((1 + 4 * e ^ 2) * Real.cos w * (p u * m u) - (1 - e ^ 2) * Real.sin w * (q u * m u))
          + m2 * ((1 + 4 * e ^ 2) * Real.cos w * (p v * m v) - (1 - e ^ 2) * Real.sin w * (q v * m v)))
        M := -(k / n) * (m1 * ((9 + 6 * e ^ 2) * p u ^ 2 + 3 / 2 * (1 - e ^ 2) * q u ^ 2) + m2 * ((9 + 6 * e ^ 2) * p v ^ 2 + 3 / 2 * (1 - e ^ 2) * q v ^ 2) - c * (7 / 2 + 3 / 2 * e ^ 2))
        wn := k * η / n * (m1 * (6 * p u ^ 2 - 3 / 2 * q u ^ 2) + m2 * (6 * p v ^ 2 - 3 / 2 * q v ^ 2) - 3 / 2 * c)
        node := 3 / 2 * k / (n * η) * (m1 * ((1 + 4 * e ^ 2) * Real.sin w * (p u * m u) + (1 - e ^ 2) * Real.cos w * (q u * m u))
          + m2 * ((1 + 4 * e ^ 2) * Real.sin w * (p v * m v) + (1 - e ^ 2) * Real.cos w * (q v * m v))) } := by
  intro η p q m
  have hη : 0 < η := Real.sqrt_pos.2 (by linarith)
  have hη2 : η ^ 2 = 1 - e ^ 2 := Real.sq_sqrt (by linarith)
  have fw : ∀ x, HasDerivAt (fun w => form e i W w x) (10 * e ^ 2 * (p x * q x)) w := fun x => by
    refine ((((hasDeriv_P_w i W w x).pow 2).const_mul (1 + 4 * e ^ 2)).add (((hasDeriv_Q_w i W w x).pow 2).const_mul (1 - e ^ 2))).congr_deriv ?_
    simp only [Nat.cast_ofNat, Nat.add_one_sub_one, pow_one, p, q]; ring
  have fi : ∀ x, HasDerivAt (fun i => form e i W w x) (2 * ((1 + 4 * e ^ 2) * Real.sin w * (p x * m x) + (1 - e ^ 2) * Real.cos w * (q x * m x))) i := fun x => by
    refine ((((hasDeriv_P_i i W w x).pow 2).const_mul (1 + 4 * e ^ 2)).add (((hasDeriv_Q_i i W w x).pow 2).const_mul (1 - e ^ 2))).congr_deriv ?_
    simp only [Nat.cast_ofNat, Nat.add_one_sub_one, pow_one, p, q, m]; ring
  have fW : ∀ x, HasDerivAt (fun W => form e i W w x) (Real.cos i * (10 * e ^ 2 * (p x * q x))
      - Real.sin i * (2 * ((1 + 4 * e ^ 2) * Real.cos w * (p x * m x) - (1 - e ^ 2) * Real.sin w * (q x * m x)))) W := fun x => by
    refine ((((hasDeriv_P_W i W w x).pow 2).const_mul (1 + 4 * e ^ 2)).add (((hasDeriv_Q_W i W w x).pow 2).const_mul (1 - e ^ 2))).congr_deriv ?_
    simp only [Nat.cast_ofNat, Nat.add_one_sub_one, pow_one, p, q, m]; ring
  have fe : ∀ x, HasDerivAt (fun e => form e i W w x) (8 * e * p x ^ 2 - 2 * e * q x ^ 2) e := fun x => by
    refine (((((hasDerivAt_id e).pow 2).const_mul 4).const_add 1).mul_const (dot (P i W w) x ^ 2) |>.add ((((hasDerivAt_id e).pow 2).const_sub 1).mul_const (dot (Q i W w) x ^ 2))).congr_deriv ?_
    simp only [Nat.cast_ofNat, Nat.add_one_sub_one, pow_one, id, p, q]; ring
  have dw : deriv (fun w => closed k m1 m2 c u v a e i W w) w = k * a ^ 2 * (3 / 4 * (m1 * (10 * e ^ 2 * (p u * q u)) + m2 * (10 * e ^ 2 * (p v * q v)))) := by
    refine (((((fw u).const_mul m1).add ((fw v).const_mul m2)).const_mul (3 / 4)).sub_const _ |>.const_mul (k * a ^ 2)).deriv
  have di : deriv (fun i => closed k m1 m2 c u v a e i W w) i =
      k * a ^ 2 * (3 / 4 * (m1 * (2 * ((1 + 4 * e ^ 2) * Real.sin w * (p u * m u) + (1 - e ^ 2) * Real.cos w * (q u * m u))) + m2 * (2 * ((1 + 4 * e ^ 2) * Real.sin w * (p v * m v) + (1 - e ^ 2) * Real.cos w * (q v * m v))))) := by
    refine (((((fi u).const_mul m1).add ((fi v).const_mul m2)).const_mul (3 / 4)).sub_const _ |>.const_mul (k * a ^ 2)).deriv
  have dW : deriv (fun W => closed k m1 m2 c u v a e i W w) W = k * a ^ 2 * (3 / 4 * (m1 * (Real.cos i * (10 * e ^ 2 * (p u * q u))
      - Real.sin i * (2 * ((1 + 4 * e ^ 2) * Real.cos w * (p u * m u) - (1 - e ^ 2) * Real.sin w * (q u * m u)))) + m2 * (Real.cos i * (10 * e ^ 2 * (p v * q v))
      - Real.sin i * (2 * ((1 + 4 * e ^ 2) * Real.cos w * (p v * m v) - (1 - e ^ 2) * Real.sin w * (q v * m v)))))) := by
    refine (((((fW u).const_mul m1).add ((fW v).const_mul m2)).const_mul (3 / 4)).sub_const _ |>.const_mul (k * a ^ 2)).deriv
  have de : deriv (fun e => closed k m1 m2 c u v a e i W w) e =
      k * a ^ 2 * (3 / 4 * (m1 * (8 * e * p u ^ 2 - 2 * e * q u ^ 2) + m2 * (8 * e * p v ^ 2 - 2 * e * q v ^ 2)) - c / 2 * (3 * e)) := by
    have h := (((((hasDerivAt_id e).pow 2).const_mul (3 / 2 : ℝ)).const_add 1).const_mul (c / 2))
    refine ((((((fe u).const_mul m1).add ((fe v).const_mul m2)).const_mul (3 / 4)).sub h |>.const_mul (k * a ^ 2)).congr_deriv ?_).deriv
    simp only [Nat.cast_ofNat, Nat.add_one_sub_one, pow_one, id]; ring
  have da : deriv (fun a => closed k m1 m2 c u v a e i W w) a = k * (2 * a) * (3 / 4 * (m1 * form e i W w u + m2 * form e i W w v) - c / 2 * (1 + 3 / 2 * e ^ 2)) := by
    refine (((((hasDerivAt_id a).pow 2).const_mul k).mul_const (3 / 4 * (m1 * form e i W w u + m2 * form e i W w v) - c / 2 * (1 + 3 / 2 * e ^ 2))).congr_deriv ?_).deriv
    simp only [Nat.cast_ofNat, Nat.add_one_sub_one, pow_one, id]; ring
  unfold lagrange
  rw [dw, di, dW, de, da]
  have hfu : form e i W w u = (1 + 4 * e ^ 2) * p u ^ 2 + (1 - e ^ 2) * q u ^ 2 := rfl
  have hfv : form e i W w v = (1 + 4 * e ^ 2) * p v ^ 2 + (1 - e ^ 2) * q v ^ 2 := rfl
  rw [hfu, hfv]
  clear_value p q m
  clear dw di dW de da fw fi fW fe hfu hfv
  change Rates.mk _ _ _ _ _ = _
  rw [show Real.sqrt (1 - e ^ 2) = η from rfl]
  clear_value η
  generalize Real.cos i = ci at *
  generalize Real.sin i = si at *
  generalize Real.cos w = cw at *
  generalize Real.sin w = sw at *
  generalize p u = pu at *
  generalize q u = qu at *
  generalize m u = mu at *
  generalize p v = pv at *
  generalize q v = qv at *
  generalize m v = mv at *
  congr 1
  · field_simp; ring
  · field_simp; ring
  · field_simp; ring
  · field_simp; ring
  · field_simp; ring

end S2E.ThirdBody
