import Verif.Props.Hill
/-!
# C97: `RelativeOrbit`
-/
namespace S2E.OrbitProp
open S2E.TwoBody S2E.Kepler Quat

/-- A history of updates: end time and the reference satellite's position and velocity at that moment. -/
noncomputable def relRuns (fuel : ℕ) : List (ℝ × Vec 3 × Vec 3) → Relative → Res Relative
  | [], s => .ok s
  | (e, p, v) :: rest, s => do
    let s' ← s.propagate fuel e p v
    relRuns fuel rest s'

/-! ## State transition mode -/

theorem stm_step (s : Relative) (hm : s.method = .stm) (hen : s.enabled = true) (fuel : ℕ) (e : ℝ) (p v : Vec 3) :
    ∃ s', s.propagate fuel e p v = .ok s' ∧ s'.method = .stm ∧ s'.enabled = true ∧ s'.mu = s.mu ∧ s'.initialState = s.initialState ∧
      joinState s'.relPosition s'.relVelocity = matVec (calcHcwStm (len p) s.mu e) s.initialState ∧
      s'.position = inertialPosition p v s'.relPosition ∧ s'.velocity = inertialVelocity p v s'.relVelocity := by
  rw [Relative.propagate, if_pos hen, hm]
  refine ⟨_, rfl, rfl, hen, rfl, rfl, ?_, rfl, rfl⟩
  simp only [join_state, calcNorm_len]

/-- **C97 (state transition mode).** After any history of updates the relative state is the value, at the last update's end time, of the
solution of Hill's equations through the initial relative state, taken about a circular orbit with the reference satellite's radius *at
that last moment*; neither the earlier updates nor their number matters. -/
theorem C97_stm (mu step : ℝ) (x0 u0 p0 v0 : Fin 3 → ℝ) (hmu : 0 < mu) (l : List (ℝ × Vec 3 × Vec 3)) (e : ℝ) (p v : Fin 3 → ℝ) (hp : p ≠ 0)
    (x u : ℝ → Fin 3 → ℝ) (hH : HillMotion (Real.sqrt (mu / len p ^ 3)) x u) (hx : x 0 = x0) (hu : u 0 = u0) (fuel : ℕ) :
    ∃ s', relRuns fuel (l ++ [(e, p, v)]) { Relative.new mu step .stm x0 u0 p0 v0 with enabled := true } = .ok s' ∧
      s'.relPosition = x e ∧ s'.relVelocity = u e ∧ s'.position = inertialPosition p v (x e) ∧ s'.velocity = inertialVelocity p v (u e) := by
  have main : ∀ (l : List (ℝ × Vec 3 × Vec 3)) (s : Relative), s.method = .stm → s.enabled = true → s.mu = mu → s.initialState = joinState x0 u0 →
      ∃ s', relRuns fuel (l ++ [(e, p, v)]) s = .ok s' ∧
        joinState s'.relPosition s'.relVelocity = matVec (calcHcwStm (len p) mu e) (joinState x0 u0) ∧
        s'.position = inertialPosition p v s'.relPosition ∧ s'.velocity = inertialVelocity p v s'.relVelocity := by
    intro l
    induction l with
    | nil =>
      intro s h1 h2 h3 h4
      obtain ⟨s', g1, _, _, _, _, g2, g3, g4⟩ := stm_step s h1 h2 fuel e p v
      refine ⟨s', ?_, by rw [g2, h3, h4], g3, g4⟩
      simp only [List.nil_append, relRuns, g1, Res.bind_ok]
    | cons a l ih =>
      intro s h1 h2 h3 h4
      obtain ⟨s1, g1, g2, g3, g4, g5, _⟩ := stm_step s h1 h2 fuel a.1 a.2.1 a.2.2
      obtain ⟨s', k1, k2⟩ := ih s1 g2 g3 (g4.trans h3) (g5.trans h4)
      refine ⟨s', ?_, k2⟩
      simp only [List.cons_append, relRuns, g1, Res.bind_ok]
      exact k1
  obtain ⟨s', h1, h2, h3, h4⟩ := main l { Relative.new mu step .stm x0 u0 p0 v0 with enabled := true } rfl rfl rfl rfl
  have hst := (C96_stm_solution (len_pos hp) hmu x u).mp hH e
  rw [hx, hu, ← h2] at hst
  have e1 : s'.relPosition = x e := by
    have := congrArg statePosition hst; rw [join_position, join_position] at this; exact this.symm
  have e2 : s'.relVelocity = u e := by
    have := congrArg stateVelocity hst; rw [join_velocity, join_velocity] at this; exact this.symm
  exact ⟨s', h1, e1, e2, by rw [h3, e1], by rw [h4, e2]⟩

/-! ## Runge-Kutta mode -/

theorem relative_smooth (m : Mat 6 6) (t : ℝ) (x : Vec 6) (k : WithTop ℕ∞) :
    ContDiffAt ℝ k (fun z : ℝ × Vec 6 => relativeDerivative m z.1 z.2) (t, x) := by
  rw [contDiffAt_pi]
  intro i
  simp only [relativeDerivative, matVec]
  fun_prop

theorem relative_converges (A : Mat 6 6) (X : ℝ → Vec 6) (hX : ∀ t, HasDerivAt X (matVec A (X t)) t) (l : List (ℝ × Vec 3 × Vec 3)) :
    ∀ (t : ℝ), List.IsChain (· ≤ ·) (t :: l.map (·.1)) →
    ∃ C h0, 0 ≤ C ∧ 0 < h0 ∧ ∀ s : Relative, s.method = .rk4 → s.enabled = true → s.time = t → s.systemMatrix = A → 0 < s.step → s.step + 1e-6 ≤ h0 →
      s.relPosition = statePosition s.ode.2 → s.relVelocity = stateVelocity s.ode.2 →
      ‖s.ode.2 - X t‖ ≤ h0 → ∃ (N : ℕ) (s' : Relative), (∀ fuel, N ≤ fuel → relRuns fuel l s = .ok s') ∧
        s'.time = (t :: l.map (·.1)).getLast (by simp) ∧ s'.relPosition = statePosition s'.ode.2 ∧ s'.relVelocity = stateVelocity s'.ode.2 ∧
        ‖s'.ode.2 - X s'.time‖ ≤ C * (‖s.ode.2 - X t‖ + (s.step + 1e-6) ^ 4) := by
  induction l with
  | nil =>
    intro t _
    refine ⟨1, 1, zero_le_one, one_pos, fun s h1 h2 h3 h4 h5 h6 h7 h8 h9 => ⟨0, s, fun fuel _ => rfl, by simpa using h3, h7, h8, ?_⟩⟩
    have : (0 : ℝ) ≤ (s.step + 1e-6) ^ 4 := by positivity
    rw [h3]
    linarith
  | cons a rest ih =>
    intro t hl
    obtain ⟨e, p, v⟩ := a
    simp only [List.map_cons, List.isChain_cons_cons] at hl
    obtain ⟨C2, h2, hC2, hh2, H2⟩ := ih e hl.2
    obtain ⟨C1, h1, hC1, hh1, H1⟩ := odePropagate_converges (relativeDerivative A) (fun _ _ _ => rfl) X hl.1
      (fun s _ => relative_smooth A s _ 5) (fun s _ => Filter.Eventually.of_forall fun u => hX u)
    refine ⟨C2 * (C1 + 1), min (min h1 h2) (min 1 (h2 / (2 * C1 + 1))), by positivity, by positivity, ?_⟩
    intro s e1 e2 e3 e4 e5 e6 _ _ e7
    have k1 := e6.trans ((min_le_left _ _).trans (min_le_left _ _))
    have k2 := e6.trans ((min_le_left _ _).trans (min_le_right _ _))
    have k3 := e6.trans ((min_le_right _ _).trans (min_le_left _ _))
    have k4 := e6.trans ((min_le_right _ _).trans (min_le_right _ _))
    have n1 := e7.trans ((min_le_left _ _).trans (min_le_left _ _))
    have n4 := e7.trans ((min_le_right _ _).trans (min_le_right _ _))
    obtain ⟨N1, z, hz1, hz2⟩ := H1 s.step e5 k1 s.ode n1
    set s1 : Relative := { s with ode := z, time := e, relPosition := statePosition z.2, relVelocity := stateVelocity z.2,
                                  position := inertialPosition p v (statePosition z.2), velocity := inertialVelocity p v (stateVelocity z.2) } with hs1
    have hε : (0 : ℝ) < 1e-6 := by norm_num
    have hHpos : 0 < s.step + 1e-6 := by linarith
    have hH4 : (s.step + 1e-6) ^ 4 ≤ s.step + 1e-6 := by
      calc (s.step + 1e-6) ^ 4 ≤ (s.step + 1e-6) ^ 1 := pow_le_pow_of_le_one hHpos.le k3 (by omega)
        _ = _ := pow_one _
    have hnear : ‖s1.ode.2 - X e‖ ≤ h2 := by
      refine hz2.trans ?_
      have q : h2 / (2 * C1 + 1) * (2 * C1 + 1) = h2 := by field_simp
      have : C1 * (‖s.ode.2 - X t‖ + (s.step + 1e-6) ^ 4) ≤ C1 * (2 * (h2 / (2 * C1 + 1))) := by gcongr; linarith
      have hq0 : 0 ≤ h2 / (2 * C1 + 1) := by positivity
      nlinarith
    obtain ⟨N2, s', g1, g2, g3, g3', g4⟩ := H2 s1 e1 e2 rfl e4 e5 k2 rfl rfl hnear
    refine ⟨max N1 N2, s', fun fuel hf => ?_, ?_, g3, g3', g4.trans ?_⟩
    · have hp : s.propagate fuel e p v = .ok s1 := by
        rw [Relative.propagate, if_pos e2, e1]
        change Res.bind (odePropagate (relativeDerivative s.systemMatrix) e s.step fuel s.time s.ode) _ = _
        rw [e4, e3, hz1 fuel (le_trans (le_max_left _ _) hf)]
        simp only [Res.bind, hs1, e1, e4]
      change Res.bind (s.propagate fuel e p v) _ = _
      rw [hp]
      exact g1 fuel (le_trans (le_max_right _ _) hf)
    · rw [g2]; simp
    · have hst : s1.step = s.step := rfl
      rw [hst, mul_assoc]
      gcongr
      have hA : 0 ≤ (s.step + 1e-6) ^ 4 := by positivity
      have hB : 0 ≤ ‖s.ode.2 - X t‖ := norm_nonneg _
      nlinarith

/-- **C97 (Runge-Kutta mode).** For every schedule of non-decreasing end times there are `C` and `h0` such that for every step width with
`step + 1e-6 ≤ h0` the relative position and velocity at the end are within `C (step + 1e-6)^4` of the solution of Hill's equations about
the circular orbit with the radius the reference satellite had *at construction*, whatever the reference satellite does later. -/
theorem C97_rk4 (mu : ℝ) (x0 u0 p0 v0 : Fin 3 → ℝ) (x u : ℝ → Fin 3 → ℝ) (hH : HillMotion (Real.sqrt (mu / len p0 ^ 3)) x u)
    (hx : x 0 = x0) (hu : u 0 = u0) (l : List (ℝ × Vec 3 × Vec 3)) (hl : List.IsChain (· ≤ ·) (0 :: l.map (·.1))) :
    ∃ C h0, 0 < h0 ∧ ∀ step, 0 < step → step + 1e-6 ≤ h0 → ∃ (N : ℕ) (s' : Relative),
      (∀ fuel, N ≤ fuel → relRuns fuel l { Relative.new mu step .rk4 x0 u0 p0 v0 with enabled := true } = .ok s') ∧
      s'.time = (0 :: l.map (·.1)).getLast (by simp) ∧
      ∀ i, |s'.relPosition i - x s'.time i| ≤ C * (step + 1e-6) ^ 4 ∧ |s'.relVelocity i - u s'.time i| ≤ C * (step + 1e-6) ^ 4 := by
  have hX := (hillMotion_iff (len p0) mu x u).mp hH
  obtain ⟨C, h0, _, hpos, H⟩ := relative_converges (calcHillSystemMatrix (len p0) mu) _ hX l 0 hl
  refine ⟨C, h0, hpos, fun step hs hle => ?_⟩
  have e0 : ‖({ Relative.new mu step .rk4 x0 u0 p0 v0 with enabled := true } : Relative).ode.2 - joinState (x 0) (u 0)‖ = 0 := by
    change ‖joinState x0 u0 - joinState (x 0) (u 0)‖ = 0
    rw [hx, hu, sub_self, norm_zero]
  obtain ⟨N, s', h1, h2, h3, h4, h5⟩ := H { Relative.new mu step .rk4 x0 u0 p0 v0 with enabled := true } rfl rfl rfl
    (by simp only [Relative.new, calcNorm_len]) hs hle (join_position x0 u0).symm (join_velocity x0 u0).symm (by rw [e0]; exact hpos.le)
  refine ⟨N, s', h1, h2, fun i => ?_⟩
  rw [e0, zero_add] at h5
  obtain ⟨c1, c2⟩ := norm_state_components s'.ode.2 (joinState (x s'.time) (u s'.time)) i
  rw [join_position] at c1
  rw [join_velocity] at c2
  rw [h3, h4]
  exact ⟨c1.trans h5, c2.trans h5⟩

/-! ## Inertial position and velocity -/

theorem conjugate_frame (q : Quat) (v : Vec 3) : q.conjugate.frameConversion v = q.inverseFrameConversion v := by
  rw [frame_explicit, inverse_explicit]
  apply vec3_ext <;> simp [conjugate] <;> left <;> ring

/-- **C97 (position).** The satellite's inertial position relative to the reference satellite, expressed in the reference satellite's LVLH
frame, is exactly the relative position; in particular the distance of the satellites is its length. -/
theorem C97_position (p v rel : Fin 3 → ℝ) (hne : cross p v ≠ 0) :
    (calcQuaternionI2Lvlh p v).frameConversion (inertialPosition p v rel - p) = rel ∧ len (inertialPosition p v rel - p) = len rel := by
  obtain ⟨hu, _⟩ := i2Lvlh_spec p v hne
  have e : inertialPosition p v rel - p = (calcQuaternionI2Lvlh p v).inverseFrameConversion rel := by
    rw [inertialPosition, conjugate_frame]
    funext i
    simp [vadd]
  have h1 : (calcQuaternionI2Lvlh p v).frameConversion (inertialPosition p v rel - p) = rel := by rw [e]; exact (C64_inverse _ hu rel).2
  refine ⟨h1, ?_⟩
  have h2 := (C64_isometry _ hu (inertialPosition p v rel - p) (inertialPosition p v rel - p)).1
  rw [h1] at h2
  have h3 : ∀ a : Fin 3 → ℝ, len a = Real.sqrt (dot3 a a) := by intro a; rw [len, dot3]; congr 1; ring
  rw [h3, h3, h2]

theorem inertial_explicit (p v rel : Fin 3 → ℝ) (hne : cross p v ≠ 0) : (calcQuaternionI2Lvlh p v).conjugate.frameConversion rel =
    (rel 0 / len p) • p + (rel 1 / (len (cross p v) * len p)) • cross (cross p v) p + (rel 2 / len (cross p v)) • cross p v := by
  obtain ⟨_, h2⟩ := i2Lvlh_spec p v hne
  obtain ⟨hr, hh, e⟩ := dcmI2Lvlh_eq p v hne
  rw [conjugate_frame, ← (C66_dcm_acts _ rel).2, h2, e]
  funext i
  fin_cases i <;> simp [matVec, matTranspose, Fin.sum_univ_three] <;> ring

theorem cross_comb (H A B : Fin 3 → ℝ) (a b c : ℝ) (i : Fin 3) : cross H (a • A + b • B + c • H) i = a * cross H A i + b * cross H B i := by
  fin_cases i <;> simp only [cross] <;> simp <;> ring

theorem momentum_const {mu : ℝ} {R V : ℝ → Fin 3 → ℝ} (hM : Motion mu R V) (s t : ℝ) : cross (R s) (V s) = cross (R t) (V t) := by
  have hd : ∀ t i, HasDerivAt (fun t => cross (R t) (V t) i) 0 t := by
    intro t i
    have h1 := hasDerivAt_pi.mp (hM.vel t)
    have h2 := hasDerivAt_pi.mp (hM.acc t)
    fin_cases i
    · exact (((h1 1).mul (h2 2)).sub ((h1 2).mul (h2 1))).congr_deriv (by simp; ring)
    · exact (((h1 2).mul (h2 0)).sub ((h1 0).mul (h2 2))).congr_deriv (by simp; ring)
    · exact (((h1 0).mul (h2 1)).sub ((h1 1).mul (h2 0))).congr_deriv (by simp; ring)
  funext i
  exact is_const_of_deriv_eq_zero (f := fun t => cross (R t) (V t) i) (fun t => (hd t i).differentiableAt) (fun t => (hd t i).deriv) s t

/-- **C97 (velocity).** Let the reference satellite be on any two-body motion that is not radial and let `u` be the rate of change of the
relative position `x` in the LVLH frame. Then the reported inertial position changes at the rate of the reported inertial velocity *plus*
`ω × (offset)`, where `ω = (R × V)/|R|²` is the rate at which the LVLH frame turns: the code leaves this transport term out. -/
theorem C97_velocity {mu : ℝ} {R V : ℝ → Fin 3 → ℝ} (hM : Motion mu R V) (hne : ∀ t, cross (R t) (V t) ≠ 0) {x u : ℝ → Fin 3 → ℝ} {t : ℝ}
    (hx : HasDerivAt x (u t) t) :
    HasDerivAt (fun t => inertialPosition (R t) (V t) (x t))
      (inertialVelocity (R t) (V t) (u t) + (1 / len (R t) ^ 2) • cross (cross (R t) (V t)) (inertialPosition (R t) (V t) (x t) - R t)) t := by
  set H := cross (R t) (V t) with hH
  have hHc : ∀ s, cross (R s) (V s) = H := fun s => momentum_const hM s t
  have hh := len_pos (hne t)
  rw [← hH] at hh
  have hr := len_pos (hM.away t)
  have e1 : ∀ s, inertialPosition (R s) (V s) (x s) = (x s 0 / len (R s)) • R s + (x s 1 / (len H * len (R s))) • cross H (R s) + (x s 2 / len H) • H + R s := by
    intro s
    rw [inertialPosition, inertial_explicit _ _ _ (hne s), hHc]
    funext i; simp [vadd]
  have e2 : inertialVelocity (R t) (V t) (u t) = (u t 0 / len (R t)) • R t + (u t 1 / (len H * len (R t))) • cross H (R t) + (u t 2 / len H) • H + V t := by
    rw [inertialVelocity, inertial_explicit _ _ _ (hne t), hHc]
    funext i; simp [vadd]
  rw [funext e1, e1, e2]
  have hx' := hasDerivAt_pi.mp hx
  have hR := hasDerivAt_pi.mp (hM.vel t)
  have hlen : HasDerivAt (fun s => len (R s)) (dot (R t) (V t) / len (R t)) t := by
    have h1 : HasDerivAt (fun s => R s 0 ^ 2 + R s 1 ^ 2 + R s 2 ^ 2) (2 * dot (R t) (V t)) t :=
      ((((hR 0).pow 2).add ((hR 1).pow 2)).add ((hR 2).pow 2)).congr_deriv (by simp [dot]; ring)
    have h2 := h1.sqrt (Real.sqrt_pos.mp hr).ne'
    exact h2.congr_deriv (by rw [← len]; field_simp)
  have g1 : HasDerivAt (fun s => x s 0 / len (R s)) ((u t 0 * len (R t) - x t 0 * (dot (R t) (V t) / len (R t))) / len (R t) ^ 2) t :=
    (hx' 0).div hlen hr.ne'
  have g2 : HasDerivAt (fun s => x s 1 / (len H * len (R s)))
      ((u t 1 * (len H * len (R t)) - x t 1 * (len H * (dot (R t) (V t) / len (R t)))) / (len H * len (R t)) ^ 2) t :=
    (hx' 1).div (hlen.const_mul (len H)) (by positivity)
  have g3 : HasDerivAt (fun s => x s 2 / len H) (u t 2 / len H) t := (hx' 2).div_const _
  have hHdef : ∀ i, H i = cross (R t) (V t) i := fun i => rfl
  have q1 := len_sq (R t)
  have q2 := len_sq H
  rw [hasDerivAt_pi]
  intro i
  have gc : HasDerivAt (fun s => cross H (R s) i) (cross H (V t) i) t := by
    fin_cases i
    · exact (((hR 2).const_mul (H 1)).sub ((hR 1).const_mul (H 2)))
    · exact (((hR 0).const_mul (H 2)).sub ((hR 2).const_mul (H 0)))
    · exact (((hR 1).const_mul (H 0)).sub ((hR 0).const_mul (H 1)))
  -- vector identities
  have v1 : len (R t) ^ 2 * V t i - dot (R t) (V t) * R t i = cross H (R t) i := by
    rw [q1]
    fin_cases i <;> simp [cross, dot, hHdef] <;> ring
  have v2 : len (R t) ^ 2 * cross H (V t) i - dot (R t) (V t) * cross H (R t) i = -(len H ^ 2 * R t i) := by
    rw [q1, q2]
    fin_cases i <;> simp [cross, dot, hHdef] <;> ring
  have v3 : cross H (cross H (R t)) i = -(len H ^ 2 * R t i) := by
    rw [q2]
    fin_cases i <;> simp [cross, dot, hHdef] <;> ring
  have v4 : ∀ a b c : ℝ, cross H (a • R t + b • cross H (R t) + c • H) i = a * cross H (R t) i + b * cross H (cross H (R t)) i := by
    intro a b c
    exact cross_comb _ _ _ a b c i
  refine ((((g1.mul (hR i)).add (g2.mul gc)).add (g3.mul_const (H i))).add (hR i)).congr_deriv ?_
  rw [add_sub_cancel_right]
  simp only [Pi.add_apply, Pi.smul_apply, smul_eq_mul, v4, v3]
  generalize len (R t) = r at *
  generalize len H = h at *
  generalize dot (R t) (V t) = k at *
  generalize cross H (R t) i = w at *
  generalize cross H (V t) i = w' at *
  generalize H i = hi at *
  generalize R t i = ri at *
  generalize V t i = vi at *
  have v1' : vi = (w + k * ri) / r ^ 2 := by field_simp; linarith
  have v2' : w' = (-(h ^ 2 * ri) + k * w) / r ^ 2 := by field_simp; linarith
  rw [v1', v2']
  field_simp
  ring

/-- **C97 (velocity, consequence).** So whenever the satellite has a radial or along-track offset, the reported velocity is not the rate of
change of the reported position. -/
theorem C97_velocity_wrong {mu : ℝ} {R V : ℝ → Fin 3 → ℝ} (hM : Motion mu R V) (hne : ∀ t, cross (R t) (V t) ≠ 0) {x u : ℝ → Fin 3 → ℝ} {t : ℝ}
    (hx : HasDerivAt x (u t) t) (hoff : x t 0 ≠ 0 ∨ x t 1 ≠ 0) :
    ¬ HasDerivAt (fun t => inertialPosition (R t) (V t) (x t)) (inertialVelocity (R t) (V t) (u t)) t := by
  intro hcon
  have h := hcon.unique (C97_velocity hM hne hx)
  have hr := len_pos (hM.away t)
  have h0 : cross (cross (R t) (V t)) (inertialPosition (R t) (V t) (x t) - R t) = 0 := by
    have h1 : (1 / len (R t) ^ 2) • cross (cross (R t) (V t)) (inertialPosition (R t) (V t) (x t) - R t) = 0 := by
      have := sub_eq_zero.mpr h.symm
      simpa using this
    exact (smul_eq_zero.mp h1).resolve_left (by positivity)
  obtain ⟨hu, _, _, hz, _⟩ := C95_lvlh (R t) (V t) (hne t)
  obtain ⟨hp, _⟩ := C97_position (R t) (V t) (x t) (hne t)
  have hiso := (C64_isometry _ hu (cross (R t) (V t)) (inertialPosition (R t) (V t) (x t) - R t)).2
  rw [outerProduct_cross, outerProduct_cross, h0, hz, hp] at hiso
  have hzero : (calcQuaternionI2Lvlh (R t) (V t)).frameConversion 0 = 0 := by
    rw [frame_explicit]; apply vec3_ext <;> simp
  rw [hzero] at hiso
  have hh := len_pos (hne t)
  have c0 := congrFun hiso 0
  have c1 := congrFun hiso 1
  simp [cross] at c0 c1
  rcases hoff with h | h
  · rcases c1 with c | c
    · exact hh.ne' c
    · exact h c
  · rcases c0 with c | c
    · exact hh.ne' c
    · exact h c

/-- Non-vacuity: a reference satellite on a circular orbit and a satellite ten units ahead (an equilibrium of Hill's equations). -/
example (mu ρ n : ℝ) (hρ : 0 < ρ) (hmu : 0 < mu) (hn : n ^ 2 * ρ ^ 3 = mu) : Motion mu (circlePos ρ n) (circleVel ρ n) ∧
    (∀ t, cross (circlePos ρ n t) (circleVel ρ n t) ≠ 0) ∧ HillMotion n (fun _ => ![0, 10, 0]) (fun _ => ![0, 0, 0]) := by
  have hn0 : n ≠ 0 := by rintro rfl; simp at hn; exact hmu.ne hn
  refine ⟨circle_motion hρ hn, fun t h => ?_, ⟨fun t => ?_, fun t => ?_⟩⟩
  · have := congrFun h 2
    simp [cross, circlePos, circleVel] at this
    have h2 : ρ ^ 2 * n = 0 := by
      linear_combination this - ρ ^ 2 * n * Real.sin_sq_add_cos_sq (n * t)
    have : ρ ^ 2 * n ≠ 0 := by positivity
    exact this h2
  · refine (hasDerivAt_const t (![0, 10, 0] : Fin 3 → ℝ)).congr_deriv ?_
    funext i; fin_cases i <;> simp
  · refine (hasDerivAt_const t (![0, 0, 0] : Fin 3 → ℝ)).congr_deriv ?_
    funext i; fin_cases i <;> simp

end S2E.OrbitProp
