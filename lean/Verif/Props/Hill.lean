import Verif.Spec.Hill
import Verif.Props.Lvlh
import Verif.Proofs.Linearization
import Verif.Props.OrbitRk4
/-!
# C96: Hill's equations and the Hill-Clohessy-Wiltshire state transition matrix
-/
namespace S2E.OrbitProp
open S2E.TwoBody S2E.Kepler

theorem hill_apply (ρ mu : ℝ) (s : Vec 6) : matVec (calcHillSystemMatrix ρ mu) s =
    ![s 3, s 4, s 5, 3 * hillRate ρ mu ^ 2 * s 0 + 2 * hillRate ρ mu * s 4, -2 * hillRate ρ mu * s 3, -hillRate ρ mu ^ 2 * s 2] := by
  funext i
  fin_cases i <;> simp [matVec, calcHillSystemMatrix, Fin.sum_univ_six] <;> ring_nf <;> simp

theorem stm_apply (ρ mu t : ℝ) (s : Vec 6) : matVec (calcHcwStm ρ mu t) s =
    let n := hillRate ρ mu
    ![(4 - 3 * Real.cos (n * t)) * s 0 + Real.sin (n * t) / n * s 3 + (2 / n - 2 * Real.cos (n * t) / n) * s 4,
      (-6 * n * t + 6 * Real.sin (n * t)) * s 0 + s 1 + (-2 / n + 2 * Real.cos (n * t) / n) * s 3 + (4 * Real.sin (n * t) / n - 3 * t) * s 4,
      Real.cos (n * t) * s 2 + Real.sin (n * t) / n * s 5,
      3 * n * Real.sin (n * t) * s 0 + Real.cos (n * t) * s 3 + 2 * Real.sin (n * t) * s 4,
      (-6 * n + 6 * n * Real.cos (n * t)) * s 0 + -2 * Real.sin (n * t) * s 3 + (-3 + 4 * Real.cos (n * t)) * s 4,
      -n * Real.sin (n * t) * s 2 + Real.cos (n * t) * s 5] := by
  simp only
  funext i
  fin_cases i <;> simp [matVec, calcHcwStm, Fin.sum_univ_six]

theorem hillRate_pos {ρ mu : ℝ} (hρ : 0 < ρ) (hmu : 0 < mu) : 0 < hillRate ρ mu ∧ hillRate ρ mu ^ 2 * ρ ^ 3 = mu := by
  refine ⟨Real.sqrt_pos.mpr (by positivity), ?_⟩
  rw [hillRate, Real.sq_sqrt (by positivity)]
  field_simp

/-- A solution of the linear system is a solution of Hill's equations and conversely. -/
theorem hillMotion_iff (ρ mu : ℝ) (x u : ℝ → Fin 3 → ℝ) : HillMotion (hillRate ρ mu) x u ↔
    ∀ t, HasDerivAt (fun t => joinState (x t) (u t)) (matVec (calcHillSystemMatrix ρ mu) (joinState (x t) (u t))) t := by
  constructor
  · intro h t
    rw [hasDerivAt_pi, hill_apply]
    have h1 := hasDerivAt_pi.mp (h.vel t)
    have h2 := hasDerivAt_pi.mp (h.acc t)
    intro i
    fin_cases i
    · exact h1 0
    · exact h1 1
    · exact h1 2
    · exact h2 0
    · exact h2 1
    · exact h2 2
  · intro h
    refine ⟨fun t => ?_, fun t => ?_⟩
    all_goals
      have h1 := hasDerivAt_pi.mp (h t)
      rw [hill_apply] at h1
      rw [hasDerivAt_pi]
      intro i
      fin_cases i
    · exact h1 0
    · exact h1 1
    · exact h1 2
    · exact h1 3
    · exact h1 4
    · exact h1 5

theorem hill_unique {n : ℝ} {x u x' u' : ℝ → Fin 3 → ℝ} (h : HillMotion n x u) (h' : HillMotion n x' u') (hx : x 0 = x' 0) (hu : u 0 = u' 0) :
    x = x' ∧ u = u' := by
  set L : ((Fin 3 → ℝ) × (Fin 3 → ℝ)) →ₗ[ℝ] ((Fin 3 → ℝ) × (Fin 3 → ℝ)) :=
    { toFun := fun z => (z.2, ![3 * n ^ 2 * z.1 0 + 2 * n * z.2 1, -2 * n * z.2 0, -n ^ 2 * z.1 2])
      map_add' := by
        intro a b
        refine Prod.ext rfl ?_
        funext i
        fin_cases i <;> simp <;> ring
      map_smul' := by
        intro c a
        refine Prod.ext rfl ?_
        funext i
        fin_cases i <;> simp <;> ring } with hL
  have hlip := (LinearMap.toContinuousLinearMap L).lipschitz
  have := ODE_solution_unique_univ (v := fun _ => L) (s := fun _ => Set.univ) (K := ‖LinearMap.toContinuousLinearMap L‖₊)
    (f := fun t => (x t, u t)) (g := fun t => (x' t, u' t)) (t₀ := 0)
    (fun t => by simpa using hlip) (fun t => ⟨(h.vel t).prodMk (h.acc t), trivial⟩)
    (fun t => ⟨(h'.vel t).prodMk (h'.acc t), trivial⟩) (Prod.ext hx hu)
  exact ⟨funext fun t => congrArg Prod.fst (congrFun this t), funext fun t => congrArg Prod.snd (congrFun this t)⟩

theorem stm_motion {ρ mu : ℝ} (hρ : 0 < ρ) (hmu : 0 < mu) (s : Vec 6) :
    HillMotion (hillRate ρ mu) (fun t => statePosition (matVec (calcHcwStm ρ mu t) s)) (fun t => stateVelocity (matVec (calcHcwStm ρ mu t) s)) := by
  have hn := (hillRate_pos hρ hmu).1.ne'
  rw [hillMotion_iff]
  intro t
  simp only [join_state]
  rw [hasDerivAt_pi, hill_apply]
  simp only [stm_apply]
  generalize hillRate ρ mu = n at *
  have hlin : HasDerivAt (fun t => n * t) n t := by simpa using (hasDerivAt_id t).const_mul n
  have hs := hlin.sin
  have hc := hlin.cos
  have hid := hasDerivAt_id t
  intro i
  fin_cases i
  · exact (((((hc.const_mul 3).const_sub 4).mul_const (s 0)).add ((hs.div_const n).mul_const (s 3))).add ((((hc.const_mul 2).div_const n).const_sub (2 / n)).mul_const (s 4))).congr_deriv (by simp; field_simp; try ring)
  · exact ((((((hid.const_mul (-6 * n)).add (hs.const_mul 6)).mul_const (s 0)).add_const (s 1)).add (((((hc.const_mul 2).div_const n)).const_add (-2 / n)).mul_const (s 3))).add ((((hs.const_mul 4).div_const n).sub (hid.const_mul 3)).mul_const (s 4))).congr_deriv (by simp; field_simp; try ring)
  · exact ((hc.mul_const (s 2)).add ((hs.div_const n).mul_const (s 5))).congr_deriv (by simp; field_simp; try ring)
  · exact ((((hs.const_mul (3 * n)).mul_const (s 0)).add (hc.mul_const (s 3))).add ((hs.const_mul 2).mul_const (s 4))).congr_deriv (by simp; field_simp; try ring)
  · exact (((((hc.const_mul (6 * n)).const_add (-6 * n)).mul_const (s 0)).add ((hs.const_mul (-2)).mul_const (s 3))).add (((hc.const_mul 4).const_add (-3)).mul_const (s 4))).congr_deriv (by simp; field_simp; try ring)
  · exact (((hs.const_mul (-n)).mul_const (s 2)).add (hc.mul_const (s 5))).congr_deriv (by simp; field_simp; try ring)

theorem stm_zero (ρ mu : ℝ) (s : Vec 6) : matVec (calcHcwStm ρ mu 0) s = s := by
  rw [stm_apply]
  funext i
  fin_cases i <;> simp <;> first | ring1 | (left; ring1)

/-- **C96 (Hill's equations).** For every positive radius and gravity constant, the state transition matrix applied to an initial state is
the one and only solution of Hill's equations with mean motion `√(mu/ρ³)` through that state. -/
theorem C96_stm_solution {ρ mu : ℝ} (hρ : 0 < ρ) (hmu : 0 < mu) (x u : ℝ → Fin 3 → ℝ) :
    HillMotion (Real.sqrt (mu / ρ ^ 3)) x u ↔ ∀ t, joinState (x t) (u t) = matVec (calcHcwStm ρ mu t) (joinState (x 0) (u 0)) := by
  constructor
  · intro h t
    have h2 := stm_motion hρ hmu (joinState (x 0) (u 0))
    obtain ⟨e1, e2⟩ := hill_unique h h2 (by rw [stm_zero, join_position]) (by rw [stm_zero, join_velocity])
    rw [← join_state (matVec _ _)]
    rw [congrFun e1 t, congrFun e2 t]
  · intro h
    have h2 := stm_motion hρ hmu (joinState (x 0) (u 0))
    have e1 : x = fun t => statePosition (matVec (calcHcwStm ρ mu t) (joinState (x 0) (u 0))) := by
      funext t; rw [← h t, join_position]
    have e2 : u = fun t => stateVelocity (matVec (calcHcwStm ρ mu t) (joinState (x 0) (u 0))) := by
      funext t; rw [← h t, join_velocity]
    have e : Real.sqrt (mu / ρ ^ 3) = hillRate ρ mu := rfl
    rw [e]
    rw [e1, e2]
    simpa only [stm_zero, join_position, join_velocity] using h2

/-- **C96 (transition).** Propagating by `s` and then by `t` is propagating by `s + t`. -/
theorem C96_transition {ρ mu : ℝ} (hρ : 0 < ρ) (hmu : 0 < mu) (s t : ℝ) :
    calcHcwStm ρ mu (s + t) = matMul (calcHcwStm ρ mu t) (calcHcwStm ρ mu s) ∧ calcHcwStm ρ mu 0 = 1 := by
  have ext : ∀ A B : Mat 6 6, (∀ x, matVec A x = matVec B x) → A = B := by
    intro A B h
    ext i j
    have := congrFun (h (Pi.single j 1)) i
    simpa [matVec, Pi.single_apply] using this
  constructor
  · apply ext
    intro x
    have h1 := stm_motion hρ hmu x
    have h2 := stm_motion hρ hmu (matVec (calcHcwStm ρ mu s) x)
    have h1' : HillMotion (hillRate ρ mu) (fun t => statePosition (matVec (calcHcwStm ρ mu (s + t)) x))
        (fun t => stateVelocity (matVec (calcHcwStm ρ mu (s + t)) x)) :=
      ⟨fun t => (h1.vel (s + t)).comp_const_add s t, fun t => (h1.acc (s + t)).comp_const_add s t⟩
    obtain ⟨e1, e2⟩ := hill_unique h1' h2 (by rw [stm_zero, add_zero]) (by rw [stm_zero, add_zero])
    have e3 : matVec (calcHcwStm ρ mu (s + t)) x = matVec (calcHcwStm ρ mu t) (matVec (calcHcwStm ρ mu s) x) := by
      rw [← join_state (matVec (calcHcwStm ρ mu (s + t)) x), congrFun e1 t, congrFun e2 t, join_state]
    rw [e3]
    funext i
    simp only [matVec, matMul, Finset.sum_mul, Finset.mul_sum]
    rw [Finset.sum_comm]
    simp only [mul_assoc]
  · apply ext
    intro x
    rw [stm_zero]
    funext i
    simp [matVec, Matrix.one_apply]

/-- **C96 (system matrix).** The system matrix used by the Runge-Kutta mode has exactly the same solutions. -/
theorem C96_system_matrix (ρ mu : ℝ) (x u : ℝ → Fin 3 → ℝ) : HillMotion (Real.sqrt (mu / ρ ^ 3)) x u ↔
    ∀ t, HasDerivAt (fun t => joinState (x t) (u t)) (relativeDerivative (calcHillSystemMatrix ρ mu) t (joinState (x t) (u t))) t :=
  hillMotion_iff ρ mu x u

/-! ## Hill's equations are the linearised relative motion -/

theorem relField_smooth {mu n ρ : ℝ} (hρ : 0 < ρ) (m : WithTop ℕ∞) : ContDiffAt ℝ m (relField mu n ρ) 0 := by
  have hne : (![ρ, 0, 0] + (0 : (Fin 3 → ℝ) × (Fin 3 → ℝ)).1) ≠ 0 := by
    intro h
    have := congrFun h 0
    simp at this
    exact hρ.ne' this
  have h1 : ContDiffAt ℝ m (fun z : (Fin 3 → ℝ) × (Fin 3 → ℝ) => ![ρ, 0, 0] + z.1) 0 := contDiffAt_const.add contDiffAt_fst
  have h2 : ContDiffAt ℝ m (fun z : (Fin 3 → ℝ) × (Fin 3 → ℝ) => len (![ρ, 0, 0] + z.1)) 0 :=
    ContDiffAt.comp (g := len) (f := fun z : (Fin 3 → ℝ) × (Fin 3 → ℝ) => ![ρ, 0, 0] + z.1) 0 (contDiffAt_len hne m) h1
  have h3 : ContDiffAt ℝ m (fun z : (Fin 3 → ℝ) × (Fin 3 → ℝ) => mu / len (![ρ, 0, 0] + z.1) ^ 3) 0 :=
    contDiffAt_const.div (h2.pow 3) (pow_ne_zero 3 (len_pos hne).ne')
  have h4 : ContDiffAt ℝ m (fun z : (Fin 3 → ℝ) × (Fin 3 → ℝ) =>
      ![n ^ 2 * (ρ + z.1 0) + 2 * n * z.2 1, n ^ 2 * z.1 1 - 2 * n * z.2 0, 0]) 0 := by
    rw [contDiffAt_pi]
    intro i
    fin_cases i <;> simp <;> fun_prop
  exact contDiffAt_snd.prodMk (h4.sub (h3.smul h1))

theorem relField_zero {mu n ρ : ℝ} (hρ : 0 < ρ) (hn : n ^ 2 * ρ ^ 3 = mu) : relField mu n ρ 0 = 0 := by
  have hl : len ![ρ, 0, 0] = ρ := by simp [len, Real.sqrt_sq hρ.le]
  refine Prod.ext rfl ?_
  simp only [relField, Prod.fst_zero, Prod.snd_zero, add_zero, hl, ← hn]
  funext i
  fin_cases i <;> simp
  field_simp
  ring

theorem relField_deriv {mu n ρ : ℝ} (hρ : 0 < ρ) (hn : n ^ 2 * ρ ^ 3 = mu) (w : (Fin 3 → ℝ) × (Fin 3 → ℝ)) :
    fderiv ℝ (relField mu n ρ) 0 w = (w.2, ![3 * n ^ 2 * w.1 0 + 2 * n * w.2 1, -2 * n * w.2 0, -n ^ 2 * w.1 2]) := by
  have hd := ((relField_smooth (mu := mu) (n := n) hρ 1).differentiableAt (by norm_num)).hasFDerivAt
  have h1 : HasDerivAt (fun τ : ℝ => τ • w) w 0 := by simpa using (hasDerivAt_id (0 : ℝ)).smul_const w
  have h2 : HasDerivAt (fun τ : ℝ => relField mu n ρ (τ • w)) (fderiv ℝ (relField mu n ρ) 0 w) 0 := by
    have h0 : ((0 : ℝ) • w) = 0 := zero_smul _ _
    rw [← h0] at hd
    have := hd.comp_hasDerivAt (0 : ℝ) h1
    rw [h0] at this
    exact this
  refine h2.unique ?_
  have hid := hasDerivAt_id (0 : ℝ)
  -- length
  have hD : HasDerivAt (fun τ : ℝ => (ρ + τ * w.1 0) ^ 2 + (0 + τ * w.1 1) ^ 2 + (0 + τ * w.1 2) ^ 2) (2 * ρ * w.1 0) 0 := by
    have e0 := ((hid.mul_const (w.1 0)).const_add ρ).pow 2
    have e1 := ((hid.mul_const (w.1 1)).const_add 0).pow 2
    have e2 := ((hid.mul_const (w.1 2)).const_add 0).pow 2
    exact ((e0.add e1).add e2).congr_deriv (by simp)
  have hlen : HasDerivAt (fun τ : ℝ => len (![ρ, 0, 0] + τ • w.1)) (w.1 0) 0 := by
    have := hD.sqrt (by simp; exact hρ.ne')
    refine (HasDerivAt.congr_deriv ?_ (show 2 * ρ * w.1 0 / (2 * Real.sqrt ((ρ + 0 * w.1 0) ^ 2 + (0 + 0 * w.1 1) ^ 2 + (0 + 0 * w.1 2) ^ 2)) = w.1 0 by
      simp [Real.sqrt_sq hρ.le]; field_simp))
    exact this
  have hl0 : len (![ρ, 0, 0] + (0 : ℝ) • w.1) = ρ := by simp [len, Real.sqrt_sq hρ.le]
  have hk : HasDerivAt (fun τ : ℝ => mu / len (![ρ, 0, 0] + τ • w.1) ^ 3) (-(3 * n ^ 2 / ρ * w.1 0)) 0 := by
    have := ((hlen.pow 3).inv (by simp only [Pi.pow_apply]; rw [hl0]; positivity)).const_mul mu
    refine HasDerivAt.congr_deriv (f := fun τ : ℝ => mu / len (![ρ, 0, 0] + τ • w.1) ^ 3) this ?_
    simp only [Pi.pow_apply, hl0]
    rw [← hn]
    field_simp
    norm_num
    ring
  have hv : ∀ i, HasDerivAt (fun τ : ℝ => (![ρ, 0, 0] + τ • w.1) i) (w.1 i) 0 := by
    intro i
    have := (hid.mul_const (w.1 i)).const_add (![ρ, 0, 0] i)
    exact this.congr_deriv (by simp)
  have hmul : ∀ i, HasDerivAt (fun τ : ℝ => mu / len (![ρ, 0, 0] + τ • w.1) ^ 3 * (![ρ, 0, 0] + τ • w.1) i)
      (-(3 * n ^ 2 / ρ * w.1 0) * (![ρ, 0, 0] i) + n ^ 2 * w.1 i) 0 := by
    intro i
    refine (hk.mul (hv i)).congr_deriv ?_
    rw [hl0, ← hn]
    simp
    field_simp
    simp
  refine HasDerivAt.prodMk ?_ ?_
  · exact (hid.smul_const w.2).congr_deriv (by simp)
  · rw [hasDerivAt_pi]
    intro i
    fin_cases i
    · exact (((((hid.mul_const (w.1 0)).const_add ρ).const_mul (n ^ 2)).add ((hid.mul_const (w.2 1)).const_mul (2 * n))).sub (hmul 0)).congr_deriv (by
        simp; field_simp; ring)
    · exact ((((hid.mul_const (w.1 1)).const_mul (n ^ 2)).sub ((hid.mul_const (w.2 0)).const_mul (2 * n))).sub (hmul 1)).congr_deriv (by
        simp)
    · exact ((hasDerivAt_const (0 : ℝ) (0 : ℝ)).sub (hmul 2)).congr_deriv (by simp)

/-- **C96 (linearisation).** Take any circular orbit and any time span. There are `C` and `ε` such that for every two-body motion whose
relative position and velocity in the turning frame are at most `ε` at the beginning, the state transition matrix predicts relative
position and velocity over the whole span with an error of at most `C` times the square of the initial size. -/
theorem C96_linearisation {ρ mu : ℝ} (hρ : 0 < ρ) (hmu : 0 < mu) (T : ℝ) (hT : 0 ≤ T) :
    let n := Real.sqrt (mu / ρ ^ 3)
    ∃ C ε, 0 < ε ∧ ∀ R V, Motion mu R V → ∀ δ ≤ ε,
      (∀ i, |inOrbitFrame n 0 (R 0 - circlePos ρ n 0) i| ≤ δ ∧ |rateInOrbitFrame n 0 (R 0 - circlePos ρ n 0) (V 0 - circleVel ρ n 0) i| ≤ δ) →
      ∀ t ∈ Set.Icc 0 T, ∀ i,
        let s := matVec (calcHcwStm ρ mu t) (joinState (inOrbitFrame n 0 (R 0 - circlePos ρ n 0))
          (rateInOrbitFrame n 0 (R 0 - circlePos ρ n 0) (V 0 - circleVel ρ n 0)))
        |inOrbitFrame n t (R t - circlePos ρ n t) i - statePosition s i| ≤ C * δ ^ 2 ∧
        |rateInOrbitFrame n t (R t - circlePos ρ n t) (V t - circleVel ρ n t) i - stateVelocity s i| ≤ C * δ ^ 2 := by
  intro n
  have hn : n ^ 2 * ρ ^ 3 = mu := (hillRate_pos hρ hmu).2
  obtain ⟨C, ε, hC, hε, H⟩ := Linearization.linear_error (relField_smooth (mu := mu) (n := n) hρ 2) (relField_zero hρ hn) T hT
  refine ⟨C, ε, hε, fun R V hM δ hδ h0 t ht i => ?_⟩
  set x0 := inOrbitFrame n 0 (R 0 - circlePos ρ n 0)
  set u0 := rateInOrbitFrame n 0 (R 0 - circlePos ρ n 0) (V 0 - circleVel ρ n 0)
  have hz := stm_motion hρ hmu (joinState x0 u0)
  have hδ0 : 0 ≤ δ := (abs_nonneg _).trans (h0 0).1
  have hnorm : ‖(x0, u0)‖ ≤ δ := by
    rw [Prod.norm_def, max_le_iff, pi_norm_le_iff_of_nonneg hδ0, pi_norm_le_iff_of_nonneg hδ0]
    exact ⟨fun i => (h0 i).1, fun i => (h0 i).2⟩
  have := H (fun t => (inOrbitFrame n t (R t - circlePos ρ n t), rateInOrbitFrame n t (R t - circlePos ρ n t) (V t - circleVel ρ n t)))
    (fun t => (statePosition (matVec (calcHcwStm ρ mu t) (joinState x0 u0)), stateVelocity (matVec (calcHcwStm ρ mu t) (joinState x0 u0))))
    (fun t _ => relative_motion hρ hn hM t)
    (fun t _ => by rw [relField_deriv hρ hn]; exact (hz.vel t).prodMk (hz.acc t))
    (by simp only [stm_zero, join_position, join_velocity]; rfl) (hnorm.trans hδ) t ht
  have hb : C * ‖(x0, u0)‖ ^ 2 ≤ C * δ ^ 2 := by gcongr
  have hle := this.trans hb
  have hCd : 0 ≤ C * δ ^ 2 := by positivity
  rw [Prod.norm_def, max_le_iff, pi_norm_le_iff_of_nonneg hCd, pi_norm_le_iff_of_nonneg hCd] at hle
  exact ⟨hle.1 i, hle.2 i⟩

/-- Non-vacuity: however small `ε`, a satellite a little ahead on the same circle is another motion meeting the hypotheses. -/
example {ρ mu ε : ℝ} (hρ : 0 < ρ) (hmu : 0 < mu) (hε : 0 < ε) : let n := Real.sqrt (mu / ρ ^ 3)
    ∃ R V, Motion mu R V ∧ R 0 ≠ circlePos ρ n 0 ∧ ∀ i, |inOrbitFrame n 0 (R 0 - circlePos ρ n 0) i| ≤ ε ∧
      |rateInOrbitFrame n 0 (R 0 - circlePos ρ n 0) (V 0 - circleVel ρ n 0) i| ≤ ε := by
  intro n
  obtain ⟨hn0, hn⟩ : 0 < n ∧ n ^ 2 * ρ ^ 3 = mu := hillRate_pos hρ hmu
  have hc := circle_motion hρ hn
  set α := min 1 (ε / ρ) with hα
  have hα0 : 0 < α := lt_min one_pos (by positivity)
  have hα1 : ρ * α ≤ ε := by
    calc ρ * α ≤ ρ * (ε / ρ) := by gcongr; exact min_le_right _ _
      _ = ε := by field_simp
  have e : n * (0 + α / n) = α := by field_simp; ring
  have hs : |Real.sin α| ≤ α := by
    have := abs_sin_sub_le α 0
    simpa [abs_of_pos hα0] using this
  have hcs : |Real.cos α - 1| ≤ α := by
    have := abs_cos_sub_le α 0
    simpa [abs_of_pos hα0] using this
  have hsp : 0 < Real.sin α := Real.sin_pos_of_pos_of_lt_pi hα0 (lt_of_le_of_lt (min_le_left _ _) (by linarith [Real.pi_gt_three]))
  refine ⟨fun t => circlePos ρ n (t + α / n), fun t => circleVel ρ n (t + α / n),
    ⟨fun t => hc.away _, fun t => (hc.vel _).comp_add_const t (α / n), fun t => (hc.acc _).comp_add_const t (α / n)⟩, ?_, ?_⟩
  · intro h
    have := congrFun h 1
    simp only [circlePos, e] at this
    simp at this
    rcases this with h | h
    · exact hρ.ne' h
    · exact hsp.ne' h
  · intro i
    fin_cases i
    · constructor
      · simp only [inOrbitFrame, circlePos, e]
        simp
        rw [show ρ * Real.cos α - ρ = ρ * (Real.cos α - 1) by ring, abs_mul, abs_of_pos hρ]
        nlinarith
      · simp only [rateInOrbitFrame, inOrbitFrame, circlePos, circleVel, e]
        simp
        rw [show -(ρ * n * Real.sin α) + n * (ρ * Real.sin α) = 0 by ring, abs_zero]; exact hε.le
    · constructor
      · simp only [inOrbitFrame, circlePos, e]
        simp
        rw [abs_of_pos hρ]
        nlinarith
      · simp only [rateInOrbitFrame, inOrbitFrame, circlePos, circleVel, e]
        simp
        rw [show ρ * n * Real.cos α - ρ * n - n * (ρ * Real.cos α - ρ) = 0 by ring, abs_zero]; exact hε.le
    · constructor <;> simp [rateInOrbitFrame, inOrbitFrame, circlePos, circleVel] <;> exact hε.le

end S2E.OrbitProp
