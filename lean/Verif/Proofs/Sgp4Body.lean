import Verif.Model.Sgp4
import Verif.Proofs.ThirdBody

/-!
# The coefficients of Sun and Moon in the code, and the averaged potential
-/
namespace S2E.Sgp4

open S2E.ThirdBody (P Q N dot axisA axisB lagrange single double Rates)

/-- The code's coefficients in terms of the products of the axes of the two orbits. -/
structure BodyOk (b : Body) (C n e w pA pB qA qB mA mB : ℝ) : Prop where
  s1 : b.s1 = -15 * e * (C / n * Real.sqrt (1 - e ^ 2))
  s2 : b.s2 = -1 / 2 * (C / n) / Real.sqrt (1 - e ^ 2)
  s3 : b.s3 = C / n
  s4 : b.s4 = C / n * Real.sqrt (1 - e ^ 2)
  s5 : b.s5 = pA * qA + pB * qB
  s6 : b.s6 = pB * qA + pA * qB
  s7 : b.s7 = pB * qB - pA * qA
  z1 : b.z1 = 6 * (pA ^ 2 + qA ^ 2) + (1 + e ^ 2) * (12 * pA ^ 2 - 3 * qA ^ 2)
  z2 : b.z2 = 12 * (pA * pB + qA * qB) + (1 + e ^ 2) * (24 * pA * pB - 6 * qA * qB)
  z3 : b.z3 = 6 * (pB ^ 2 + qB ^ 2) + (1 + e ^ 2) * (12 * pB ^ 2 - 3 * qB ^ 2)
  z11 : b.z11 = -6 * ((1 + 4 * e ^ 2) * Real.cos w * (pA * mA) - (1 - e ^ 2) * Real.sin w * (qA * mA))
  z12 : b.z12 = -6 * ((1 + 4 * e ^ 2) * Real.cos w * (pA * mB + pB * mA) - (1 - e ^ 2) * Real.sin w * (qA * mB + qB * mA))
  z13 : b.z13 = -6 * ((1 + 4 * e ^ 2) * Real.cos w * (pB * mB) - (1 - e ^ 2) * Real.sin w * (qB * mB))
  z21 : b.z21 = 6 * ((1 + 4 * e ^ 2) * Real.sin w * (pA * mA) + (1 - e ^ 2) * Real.cos w * (qA * mA))
  z22 : b.z22 = 6 * ((1 + 4 * e ^ 2) * Real.sin w * (pA * mB + pB * mA) + (1 - e ^ 2) * Real.cos w * (qA * mB + qB * mA))
  z23 : b.z23 = 6 * ((1 + 4 * e ^ 2) * Real.sin w * (pB * mB) + (1 - e ^ 2) * Real.cos w * (qB * mB))
  z31 : b.z31 = 12 * pA ^ 2 - 3 * qA ^ 2
  z32 : b.z32 = 24 * pA * pB - 6 * qA * qB
  z33 : b.z33 = 12 * pB ^ 2 - 3 * qB ^ 2

theorem body_ok (e i W w n cg sg ci si ch sh C : ℝ) :
    let A := axisA cg sg ci si ch sh
    let B := axisB cg sg ci si ch sh
    BodyOk (body e (Real.sin i) (Real.cos i) (Real.sin w) (Real.cos w) n cg sg ci si (ch * Real.cos W + sh * Real.sin W) (Real.sin W * ch - Real.cos W * sh) C)
      C n e w (dot (P i W w) A) (dot (P i W w) B) (dot (Q i W w) A) (dot (Q i W w) B) (dot (N i W) A) (dot (N i W) B) := by
  intro A B
  have hw := Real.sin_sq_add_cos_sq w
  set aA := cg * (ch * Real.cos W + sh * Real.sin W) + sg * ci * (Real.sin W * ch - Real.cos W * sh) with haA
  set aB := -sg * (ch * Real.cos W + sh * Real.sin W) + cg * ci * (Real.sin W * ch - Real.cos W * sh) with haB
  set a7 := -cg * (Real.sin W * ch - Real.cos W * sh) + sg * ci * (ch * Real.cos W + sh * Real.sin W) with ha7
  set a9 := sg * (Real.sin W * ch - Real.cos W * sh) + cg * ci * (ch * Real.cos W + sh * Real.sin W) with ha9
  have hpA : dot (P i W w) A = aA * Real.cos w + (Real.cos i * a7 + Real.sin i * (sg * si)) * Real.sin w := by
    simp only [dot, P, A, axisA, Matrix.cons_val, haA, ha7]; ring
  have hqA : dot (Q i W w) A = -aA * Real.sin w + (Real.cos i * a7 + Real.sin i * (sg * si)) * Real.cos w := by
    simp only [dot, Q, A, axisA, Matrix.cons_val, haA, ha7]; ring
  have hmA : dot (N i W) A = -Real.sin i * a7 + Real.cos i * (sg * si) := by
    simp only [dot, N, A, axisA, Matrix.cons_val, ha7]; ring
  have hpB : dot (P i W w) B = aB * Real.cos w + (Real.cos i * a9 + Real.sin i * (cg * si)) * Real.sin w := by
    simp only [dot, P, B, axisB, Matrix.cons_val, haB, ha9]; ring
  have hqB : dot (Q i W w) B = -aB * Real.sin w + (Real.cos i * a9 + Real.sin i * (cg * si)) * Real.cos w := by
    simp only [dot, Q, B, axisB, Matrix.cons_val, haB, ha9]; ring
  have hmB : dot (N i W) B = -Real.sin i * a9 + Real.cos i * (cg * si) := by
    simp only [dot, N, B, axisB, Matrix.cons_val, ha9]; ring
  unfold body
  dsimp only
  rw [← haA, ← haB, ← ha7, ← ha9, hpA, hqA, hmA, hpB, hqB, hmB]
  generalize aA = a1
  generalize aB = a3
  generalize Real.cos i * a7 + Real.sin i * (sg * si) = a2
  generalize -Real.sin i * a7 + Real.cos i * (sg * si) = a5
  generalize Real.cos i * a9 + Real.sin i * (cg * si) = a4
  generalize -Real.sin i * a9 + Real.cos i * (cg * si) = a6
  rw [show e * e = e ^ 2 by ring]
  clear * - hw
  constructor <;> dsimp only <;> (try generalize Real.sqrt (1 - e ^ 2) = η) <;> generalize Real.sin w = s at * <;> generalize Real.cos w = c at *
  all_goals first | ring1 | (norm_num; ring1) | skip
  all_goals have hc : c ^ 2 = 1 - s ^ 2 := by linarith
  all_goals clear hw
  all_goals grind

/-- Secular rates. -/
theorem BodyOk.rates {b : Body} {body : ThirdBody.Body} {n e i W w : ℝ}
    (h : BodyOk b body.C n e w (dot (P i W w) body.A) (dot (P i W w) body.B) (dot (Q i W w) body.A) (dot (Q i W w) body.B) (dot (N i W) body.A) (dot (N i W) body.B))
    {a : ℝ} (hn : n ≠ 0) (ha : a ≠ 0) (he : e ≠ 0) (he1 : e ^ 2 < 1) (hi : Real.sin i ≠ 0) :
    lagrange (double body) n a e i W w =
      { e := b.s1 * body.n * b.s5
        i := b.s2 * body.n * (b.z11 + b.z13)
        M := -body.n * b.s3 * (b.z1 + b.z3 - 14 - 6 * (e * e))
        wn := b.s4 * body.n * (b.z31 + b.z33 - 6)
        node := -body.n * b.s2 * (b.z21 + b.z23) } := by
  have hη : 0 < Real.sqrt (1 - e ^ 2) := Real.sqrt_pos.2 (by linarith)
  rw [ThirdBody.lagrange_congr (R' := ThirdBody.closed (4 * body.C * body.n) (1 / 2) (1 / 2) 1 body.A body.B) (fun a e i W w h => by
    rw [ThirdBody.double_eq _ _ _ _ _ _ h]; unfold ThirdBody.closed; ring) he1, ThirdBody.lagrange_closed _ _ _ _ _ _ i W w hn ha he he1 hi]
  dsimp only
  rw [h.s1, h.s2, h.s3, h.s4, h.s5, h.z1, h.z3, h.z11, h.z13, h.z21, h.z23, h.z31, h.z33]
  generalize Real.sqrt (1 - e ^ 2) = η at *
  congr 1 <;> field_simp <;> ring

/-- The corrections that the code adds for one body at longitude `f` (`f2`, `f3` and `sinzf` of `dpper`). -/
noncomputable def corrections (b : Body) (e ecc f : ℝ) : Rates :=
  let f2 := 0.5 * Real.sin f * Real.sin f - 0.25
  let f3 := -0.5 * Real.sin f * Real.cos f
  { e := 2 * b.s1 * b.s6 * f2 + 2 * b.s1 * b.s7 * f3
    i := 2 * b.s2 * b.z12 * f2 + 2 * b.s2 * (b.z13 - b.z11) * f3
    M := -2 * b.s3 * b.z2 * f2 + -2 * b.s3 * (b.z3 - b.z1) * f3 + -2 * b.s3 * (-21 - 9 * (e * e)) * ecc * Real.sin f
    wn := 2 * b.s4 * b.z32 * f2 + 2 * b.s4 * (b.z33 - b.z31) * f3 + -18 * b.s4 * ecc * Real.sin f
    node := -2 * b.s2 * b.z22 * f2 + -2 * b.s2 * (b.z23 - b.z21) * f3 }

theorem hasDeriv_trig (x y z f : ℝ) :
    HasDerivAt (fun f => x * (0.5 * Real.sin f * Real.sin f - 0.25) + y * (-0.5 * Real.sin f * Real.cos f) + z * Real.sin f)
      (x * (Real.sin f * Real.cos f) + y * (1 / 2 * (Real.sin f ^ 2 - Real.cos f ^ 2)) + z * Real.cos f) f := by
  have hs := Real.hasDerivAt_sin f
  have hc := Real.hasDerivAt_cos f
  refine ((((((hs.const_mul 0.5).mul hs).sub_const 0.25).const_mul x).add (((hs.const_mul (-0.5)).mul hc).const_mul y)).add (hs.const_mul z)).congr_deriv ?_
  norm_num
  ring

theorem mean_trig (x y z : ℝ) :
    ∫ f in (0 : ℝ)..2 * Real.pi, x * (0.5 * Real.sin f * Real.sin f - 0.25) + y * (-0.5 * Real.sin f * Real.cos f) + z * Real.sin f = 0 := by
  have hG : ∀ f : ℝ, HasDerivAt (fun f => x * (-(Real.sin f * Real.cos f) / 4) + y * (-Real.sin f ^ 2 / 4) + z * -Real.cos f)
      (x * (0.5 * Real.sin f * Real.sin f - 0.25) + y * (-0.5 * Real.sin f * Real.cos f) + z * Real.sin f) f := fun f => by
    have hs := Real.hasDerivAt_sin f
    have hc := Real.hasDerivAt_cos f
    have hsc := Real.sin_sq_add_cos_sq f
    refine (((((hs.mul hc).neg.div_const 4).const_mul x).add (((hs.pow 2).neg.div_const 4).const_mul y)).add (hc.neg.const_mul z)).congr_deriv ?_
    norm_num
    linear_combination (-x / 4) * hsc
  rw [intervalIntegral.integral_eq_sub_of_hasDerivAt (fun f _ => hG f) ((by fun_prop : Continuous _).intervalIntegrable _ _)]
  simp

theorem isPeriodic_trig {excess : ℝ → ℝ} (x y z : ℝ) (h : ∀ f, excess f = x * (Real.sin f * Real.cos f) + y * (1 / 2 * (Real.sin f ^ 2 - Real.cos f ^ 2)) + z * Real.cos f) :
    ThirdBody.IsPeriodic excess fun f => x * (0.5 * Real.sin f * Real.sin f - 0.25) + y * (-0.5 * Real.sin f * Real.cos f) + z * Real.sin f :=
  ⟨fun f => by rw [h]; exact hasDeriv_trig x y z f, mean_trig x y z⟩

/-- Periodic corrections. -/
theorem BodyOk.periodics {b : Body} {body : ThirdBody.Body} {n e i W w : ℝ}
    (h : BodyOk b body.C n e w (dot (P i W w) body.A) (dot (P i W w) body.B) (dot (Q i W w) body.A) (dot (Q i W w) body.B) (dot (N i W) body.A) (dot (N i W) body.B))
    {a : ℝ} (hn : n ≠ 0) (ha : a ≠ 0) (he : e ≠ 0) (he1 : e ^ 2 < 1) (hi : Real.sin i ≠ 0) (hb : body.n ≠ 0) :
    ThirdBody.Periodics body n a e i W w (corrections b e body.ecc) := by
  have hη : 0 < Real.sqrt (1 - e ^ 2) := Real.sqrt_pos.2 (by linarith)
  have hsing : ∀ f, lagrange (single body f) n a e i W w = _ := fun f =>
    (ThirdBody.lagrange_congr (R' := ThirdBody.closed (4 * body.C * body.n) 1 0 (1 + 3 * body.ecc * Real.cos f) (body.direction f) (body.direction f)) (fun a e i W w h => by
      rw [ThirdBody.single_eq _ _ _ _ _ _ _ h]; unfold ThirdBody.closed; ring) he1).trans (ThirdBody.lagrange_closed _ _ _ _ _ _ i W w hn ha he he1 hi)
  have hdoub := h.rates hn ha he he1 hi
  simp only [ThirdBody.dot_direction] at hsing
  rw [h.s1, h.s2, h.s3, h.s4, h.s5, h.z1, h.z3, h.z11, h.z13, h.z21, h.z23, h.z31, h.z33] at hdoub
  unfold corrections
  dsimp only
  rw [h.s1, h.s2, h.s3, h.s4, h.s6, h.s7, h.z1, h.z2, h.z3, h.z11, h.z12, h.z13, h.z21, h.z22, h.z23, h.z31, h.z32, h.z33]
  generalize dot (P i W w) body.A = pA at *
  generalize dot (P i W w) body.B = pB at *
  generalize dot (Q i W w) body.A = qA at *
  generalize dot (Q i W w) body.B = qB at *
  generalize dot (N i W) body.A = mA at *
  generalize dot (N i W) body.B = mB at *
  have hsc := Real.sin_sq_add_cos_sq
  constructor
  · have := isPeriodic_trig (excess := fun f => ((lagrange (single body f) n a e i W w).e - (lagrange (double body) n a e i W w).e) / body.n)
      (2 * (-15 * e * (body.C / n * Real.sqrt (1 - e ^ 2))) * (pB * qA + pA * qB)) (2 * (-15 * e * (body.C / n * Real.sqrt (1 - e ^ 2))) * (pB * qB - pA * qA)) 0 (fun f => by
        rw [hsing, hdoub]
        dsimp only
        generalize Real.sqrt (1 - e ^ 2) = η at *
        have hf := hsc f
        generalize Real.sin f = s at *
        generalize Real.cos f = c at *
        have hc2 : c ^ 2 = 1 - s ^ 2 := by linarith
        field_simp
        clear * - hc2
        grind)
    simpa using this
  · have := isPeriodic_trig (excess := fun f => ((lagrange (single body f) n a e i W w).i - (lagrange (double body) n a e i W w).i) / body.n)
      (2 * (-1 / 2 * (body.C / n) / Real.sqrt (1 - e ^ 2)) * (-6 * ((1 + 4 * e ^ 2) * Real.cos w * (pA * mB + pB * mA) - (1 - e ^ 2) * Real.sin w * (qA * mB + qB * mA))))
      (2 * (-1 / 2 * (body.C / n) / Real.sqrt (1 - e ^ 2)) * (-6 * ((1 + 4 * e ^ 2) * Real.cos w * (pB * mB) - (1 - e ^ 2) * Real.sin w * (qB * mB))
        - -6 * ((1 + 4 * e ^ 2) * Real.cos w * (pA * mA) - (1 - e ^ 2) * Real.sin w * (qA * mA)))) 0 (fun f => by
        rw [hsing, hdoub]
        dsimp only
        generalize Real.sqrt (1 - e ^ 2) = η at *
        have hf := hsc f
        generalize Real.sin f = s at *
        generalize Real.cos f = c at *
        generalize Real.sin w = sw at *
        generalize Real.cos w = cw at *
        have hc2 : c ^ 2 = 1 - s ^ 2 := by linarith
        field_simp
        clear * - hc2
        grind)
    simpa using this
  · refine isPeriodic_trig (excess := fun f => ((lagrange (single body f) n a e i W w).M - (lagrange (double body) n a e i W w).M) / body.n) _ _ _ (fun f => by
        rw [hsing, hdoub]
        dsimp only
        generalize Real.sqrt (1 - e ^ 2) = η at *
        have hf := hsc f
        generalize Real.sin f = s at *
        generalize Real.cos f = c at *
        have hc2 : c ^ 2 = 1 - s ^ 2 := by linarith
        field_simp
        clear * - hc2
        grind)
  · refine isPeriodic_trig (excess := fun f => ((lagrange (single body f) n a e i W w).wn - (lagrange (double body) n a e i W w).wn) / body.n) _ _ _ (fun f => by
        rw [hsing, hdoub]
        dsimp only
        generalize Real.sqrt (1 - e ^ 2) = η at *
        have hf := hsc f
        generalize Real.sin f = s at *
        generalize Real.cos f = c at *
        have hc2 : c ^ 2 = 1 - s ^ 2 := by linarith
        field_simp
        clear * - hc2
        grind)
  · have := isPeriodic_trig (excess := fun f => ((lagrange (single body f) n a e i W w).node - (lagrange (double body) n a e i W w).node) / body.n)
      (-2 * (-1 / 2 * (body.C / n) / Real.sqrt (1 - e ^ 2)) * (6 * ((1 + 4 * e ^ 2) * Real.sin w * (pA * mB + pB * mA) + (1 - e ^ 2) * Real.cos w * (qA * mB + qB * mA))))
      (-2 * (-1 / 2 * (body.C / n) / Real.sqrt (1 - e ^ 2)) * (6 * ((1 + 4 * e ^ 2) * Real.sin w * (pB * mB) + (1 - e ^ 2) * Real.cos w * (qB * mB))
        - 6 * ((1 + 4 * e ^ 2) * Real.sin w * (pA * mA) + (1 - e ^ 2) * Real.cos w * (qA * mA)))) 0 (fun f => by
        rw [hsing, hdoub]
        dsimp only
        generalize Real.sqrt (1 - e ^ 2) = η at *
        have hf := hsc f
        generalize Real.sin f = s at *
        generalize Real.cos f = c at *
        generalize Real.sin w = sw at *
        generalize Real.cos w = cw at *
        have hc2 : c ^ 2 = 1 - s ^ 2 := by linarith
        field_simp
        clear * - hc2
        grind)
    simpa using this

end S2E.Sgp4
