import Verif.Model.Cantilever
import Verif.Spec.Cantilever
import Verif.Props.AttitudeRk4b
/-!
# C114, C115: `AttitudeWithCantileverVibration`
-/
namespace S2E.Att
open S2E.Lu S2E.Integ S2E.TwoBody S2E.Rigid S2E.OrbitProp

theorem omegaOf_packC (w u a : Vec 3) (q : Quat) : omegaOf (packC w u q a) = w := by apply vec3_ext <;> rfl
theorem rateOf_packC (w u a : Vec 3) (q : Quat) : rateOf (packC w u q a) = u := by apply vec3_ext <;> rfl
theorem quatOf_packC (w u a : Vec 3) (q : Quat) : quatOf (packC w u q a) = q := rfl
theorem angleOf_packC (w u a : Vec 3) (q : Quat) : angleOf (packC w u q a) = a := by apply vec3_ext <;> rfl
theorem packC_of (x : Vec 13) : packC (omegaOf x) (rateOf x) (quatOf x) (angleOf x) = x := by
  funext i; fin_cases i <;> rfl

theorem vadd_add {n : ℕ} (a b : Vec n) : vadd a b = a + b := rfl
theorem vsub_sub {n : ℕ} (a b : Vec n) : vsub a b = a - b := rfl
theorem vneg_neg {n : ℕ} (a : Vec n) : vneg a = -a := by funext i; simp [vneg, scale]
theorem scale_smul {n : ℕ} (c : ℝ) (a : Vec n) : scale c a = c • a := by funext i; simp [scale]

/-- The two accelerations in terms of the stored matrices. -/
theorem derivative_parts (o : CantileverOde) (w u a : Vec 3) (q : Quat) :
    let d := o.derivative (packC w u q a)
    let net := o.torque - cross w (o.prevInertia.mulVec w + o.wheel) - o.torqueChange
    rateOf d = -(o.invEquivalent.mulVec (o.attenuation • u + o.spring • a)) - o.inverse.mulVec net ∧
    omegaOf d = o.invTotal.mulVec (net - o.inertiaC.mulVec (rateOf d)) ∧ angleOf d = u ∧
    comps (quatOf d) = Rigid.rate w (comps q) := by
  intro d net
  have hb : rateOf d = -(o.invEquivalent.mulVec (o.attenuation • u + o.spring • a)) - o.inverse.mulVec net := by
    simp only [d, CantileverOde.derivative, rateOf_packC, omegaOf_packC, angleOf_packC, matVec_mulVec, outer_cross, vadd_add, vsub_sub, vneg_neg, scale_smul]
    rfl
  refine ⟨hb, ?_, ?_, ?_⟩
  · rw [hb]
    simp only [d, CantileverOde.derivative, rateOf_packC, omegaOf_packC, angleOf_packC, matVec_mulVec, outer_cross, vadd_add, vsub_sub, vneg_neg, scale_smul]
    rfl
  · simp only [d, CantileverOde.derivative, rateOf_packC, angleOf_packC]
  · funext i
    fin_cases i <;>
      simp [d, comps, quatOf_packC, omegaOf_packC, CantileverOde.derivative, matVec, Rigid.rate, angularVelocityMatrix, Fin.sum_univ_four] <;> ring

/-- **C114** (right-hand side). With the matrices of the constructor the derivative function is the motion of a rigid body with a damped
oscillating beam. -/
theorem C114_derivative (I J inv invT : Matrix (Fin 3) (Fin 3) ℝ) (h1 : I * inv = 1) (h3 : (I + J) * invT = 1)
    (c k : ℝ) (torque wheel w u a : Vec 3) (q : Quat) :
    let d := CantileverOde.derivative ⟨I, inv, J, matMul inv (I + J), invT, c, k, torque, wheel, 0⟩ (packC w u q a)
    (I + J).mulVec (omegaOf d) + J.mulVec (rateOf d) = torque - cross w (I.mulVec w + wheel) ∧
    rateOf d + c • u + k • a = -omegaOf d ∧ angleOf d = u ∧ comps (quatOf d) = Rigid.rate w (comps q) := by
  intro d
  obtain ⟨e1, e2, e3, e4⟩ := derivative_parts ⟨I, inv, J, matMul inv (I + J), invT, c, k, torque, wheel, 0⟩ w u a q
  have hmm : matMul inv (I + J) = inv * (I + J) := by
    ext i j; simp [matMul, Matrix.mul_apply]
  change rateOf d = _ at e1
  change omegaOf d = invT.mulVec (_ - J.mulVec (rateOf d)) at e2
  simp only [sub_zero, hmm] at e1 e2
  set net := torque - cross w (I.mulVec w + wheel) with hnet
  set y := c • u + k • a with hy
  have f1 : (I + J).mulVec (omegaOf d) + J.mulVec (rateOf d) = net := by
    rw [e2, Matrix.mulVec_mulVec, h3, Matrix.one_mulVec]; abel
  refine ⟨f1, ?_, e3, e4⟩
  have f2 : I.mulVec (rateOf d) = -((I + J).mulVec y) - net := by
    rw [e1, Matrix.mulVec_sub, Matrix.mulVec_neg, Matrix.mulVec_mulVec, Matrix.mulVec_mulVec, ← Matrix.mul_assoc, h1, Matrix.one_mul, Matrix.one_mulVec]
  have f3 : (I + J).mulVec (omegaOf d + rateOf d + y) = 0 := by
    have : (I + J).mulVec (omegaOf d + rateOf d + y) = ((I + J).mulVec (omegaOf d) + J.mulVec (rateOf d)) + I.mulVec (rateOf d) + (I + J).mulVec y := by
      rw [Matrix.mulVec_add, Matrix.mulVec_add, Matrix.add_mulVec I J (rateOf d)]; abel
    rw [this, f1, f2]; abel
  have f4 : omegaOf d + rateOf d + y = 0 := by
    have := congrArg invT.mulVec f3
    rwa [Matrix.mulVec_mulVec, mul_eq_one_comm.1 h3, Matrix.one_mulVec, Matrix.mulVec_zero] at this
  rw [add_assoc, ← hy]
  have : rateOf d + y = (omegaOf d + rateOf d + y) - omegaOf d := by abel
  rw [this, f4, zero_sub]

/-! ## Whole steps -/

theorem integrate_stepWidth (f : ℝ → Vec 13 → Vec 13) (z : Integrator 13) : (integrate rk4 f z).stepWidth = z.stepWidth := rfl

theorem integrate_update (f : ℝ → Vec 13 → Vec 13) (hf : ∀ t t' x, f t x = f t' x) (z : Integrator 13) (t : ℝ) :
    (integrate rk4 f z).current = (odeUpdate f z.stepWidth t z.current).2 := by
  have h := congrArg Prod.snd (C81_ode_update f z)
  have h2 := updates_autonomous f hf [z.stepWidth] z.time t z.current
  simp only [updates, List.foldl_cons, List.foldl_nil] at h2
  rw [← h2]
  exact h.symm

/-- `n` steps of the classical Runge-Kutta method of the width `step` for an autonomous equation. -/
noncomputable def rkSteps (f : ℝ → Vec 13 → Vec 13) (step : ℝ) (n : ℕ) (x : Vec 13) : Vec 13 := (fun y => (odeUpdate f step 0 y).2)^[n] x

theorem cantileverLoop_spec (f : ℝ → Vec 13 → Vec 13) (hf : ∀ t t' x, f t x = f t' x) (e step : ℝ) (hs : 0 < step) :
    ∀ (m : ℕ) (p : ℝ) (z : Integrator 13), z.stepWidth = step → e - p ≤ (m + 1) * step + 1e-6 → (m = 0 ∨ m * step + 1e-6 < e - p) →
      ∃ z', z'.stepWidth = step ∧ z'.current = rkSteps f step m z.current ∧
        ∀ fuel, m < fuel → cantileverLoop f e step fuel p z = .ok (p + m * step, z') := by
  intro m
  induction m with
  | zero =>
    intro p z hz h1 _
    refine ⟨z, hz, rfl, fun fuel hfu => ?_⟩
    obtain ⟨k, rfl⟩ : ∃ k, fuel = k + 1 := ⟨fuel - 1, by omega⟩
    rw [cantileverLoop, if_neg (by simp only [Nat.cast_zero, zero_add, one_mul] at h1; linarith)]
    simp
  | succ m ih =>
    intro p z hz h1 h2
    have h2' : ((m + 1 : ℕ) : ℝ) * step + 1e-6 < e - p := by
      rcases h2 with h | h
      · omega
      · exact h
    push_cast at h1 h2'
    obtain ⟨z', g1, g2, g3⟩ := ih (p + step) (integrate rk4 f z) (by rw [integrate_stepWidth, hz]) (by linarith) (Or.inr (by linarith))
    refine ⟨z', g1, ?_, fun fuel hfu => ?_⟩
    · rw [g2, integrate_update f hf z 0, hz, rkSteps, rkSteps, Function.iterate_succ_apply]
    · obtain ⟨k, rfl⟩ : ∃ k, fuel = k + 1 := ⟨fuel - 1, by omega⟩
      have hm : (0 : ℝ) ≤ m := Nat.cast_nonneg m
      have : 0 ≤ m * step := by positivity
      rw [cantileverLoop, if_pos (by linarith), g3 k (by omega)]
      push_cast
      congr 2
      ring

/-- The differential equation which a call of `Propagate` integrates when the inertia tensor has not changed. -/
noncomputable def Cantilever.ode (s : Cantilever) : CantileverOde :=
  ⟨s.base.prevInertia, s.base.inverse, s.inertiaC, s.invEquivalent, s.invTotal, s.attenuation, s.spring, s.base.torque, s.base.wheel, 0⟩

/-- What the constructor establishes and every call keeps, as long as the caller does not change the inertia tensor. -/
structure Cantilever.WF (s : Cantilever) : Prop where
  enabled : s.base.enabled = true
  step : s.integrator.stepWidth = s.base.step
  pos : 0 < s.base.step
  same : s.base.prevInertia = s.base.inertia
  inverse : calcInverseMatrix s.base.inertia = .ok s.base.inverse

/-- **C114** (whole steps). Whatever end time is requested, `Propagate` takes the smallest number `n ≥ 1` of steps of the full width
`step` which reaches the end time up to a microsecond, and then sets its clock to the end time. -/
theorem C114_whole_steps (s : Cantilever) (hs : s.WF) (e : ℝ) (n : ℕ) (h1 : 1e-6 < e - s.base.time) (h2 : e - s.base.time ≤ (n + 1 : ℕ) * s.base.step + 1e-6)
    (h3 : n = 0 ∨ n * s.base.step + 1e-6 < e - s.base.time) :
    ∃ s' : Cantilever, (∀ fuel, n < fuel → s.propagate fuel e = .ok s') ∧ s'.WF ∧ s'.base.time = e ∧
      let x := rkSteps (fun _ => s.ode.derivative) s.base.step (n + 1) (packC s.base.omega s.rate s.base.quat s.angle)
      s'.base.omega = omegaOf x ∧ s'.rate = rateOf x ∧ s'.base.quat = (quatOf x).normalize ∧ s'.angle = angleOf x ∧
      s'.base.step = s.base.step ∧ s'.base.inertia = s.base.inertia ∧ s'.inertiaC = s.inertiaC ∧ s'.invEquivalent = s.invEquivalent ∧
      s'.invTotal = s.invTotal ∧ s'.attenuation = s.attenuation ∧ s'.spring = s.spring ∧ s'.base.inverse = s.base.inverse := by
  set f : ℝ → Vec 13 → Vec 13 := fun _ => s.ode.derivative with hf
  have hfa : ∀ t t' x, f t x = f t' x := fun _ _ _ => rfl
  obtain ⟨z', g1, g2, g3⟩ := cantileverLoop_spec f hfa e s.base.step hs.pos n s.base.time
    (setState s.integrator s.base.step (packC s.base.omega s.rate s.base.quat s.angle)) hs.step (by push_cast at h2; exact h2) h3
  set z := integrate rk4 f (setState z' (e - (s.base.time + n * s.base.step)) z'.current) with hz
  have hcur : z.current = rkSteps f s.base.step (n + 1) (packC s.base.omega s.rate s.base.quat s.angle) := by
    rw [hz, integrate_update f hfa _ 0]
    change (odeUpdate f z'.stepWidth 0 z'.current).2 = _
    rw [g1, g2, rkSteps, rkSteps, Function.iterate_succ_apply']
    rfl
  have hch : matVec (Matrix.of fun i j => 1 / (e - s.base.time) * (s.base.inertia i j - s.base.prevInertia i j)) s.base.omega = 0 := by
    rw [hs.same]; exact change_zero _ _ _
  refine ⟨{ s with
          base := Attitude.calcAngularMomentum
            { s.base with omega := omegaOf z.current, quat := (quatOf z.current).normalize, torqueChange := 0, inverse := s.base.inverse, time := e,
                          prevInertia := s.base.inertia }
          rate := rateOf z.current
          angle := angleOf z.current
          integrator := z }, fun fuel hfu => ?_, ⟨hs.enabled, ?_, hs.pos, rfl, hs.inverse⟩, rfl, ?_⟩
  · rw [Cantilever.propagate, if_neg (by rw [hs.enabled]; simp), if_neg (not_not.2 h1)]
    simp only [hch, hs.inverse, Res.bind]
    have hr := g3 fuel hfu
    rw [show cantileverLoop (fun _ => CantileverOde.derivative ⟨s.base.prevInertia, s.base.inverse, s.inertiaC, s.invEquivalent, s.invTotal, s.attenuation,
      s.spring, s.base.torque, s.base.wheel, 0⟩) e s.base.step fuel s.base.time
      (setState s.integrator s.base.step (packC s.base.omega s.rate s.base.quat s.angle)) = _ from hr]
    rfl
  · change z'.stepWidth = s.base.step
    exact g1
  · exact ⟨congrArg omegaOf hcur, congrArg rateOf hcur, congrArg (fun x => (quatOf x).normalize) hcur, congrArg angleOf hcur, rfl, rfl, rfl, rfl, rfl, rfl, rfl, rfl⟩

/-- **C114** (the last step is not shortened). All end times between a microsecond and one step (plus a microsecond) after the current time lead to
the same motion: one full step. -/
theorem C114_last_step_not_shortened (s : Cantilever) (hs : s.WF) (d : ℝ) (h1 : 1e-6 < d) (h2 : d ≤ s.base.step) :
    ∃ a b : Cantilever, (∀ fuel, 0 < fuel → s.propagate fuel (s.base.time + d) = .ok a) ∧
      (∀ fuel, 0 < fuel → s.propagate fuel (s.base.time + s.base.step) = .ok b) ∧
      a.base.time = s.base.time + d ∧ b.base.time = s.base.time + s.base.step ∧
      a.base.omega = b.base.omega ∧ a.base.quat = b.base.quat ∧ a.rate = b.rate ∧ a.angle = b.angle := by
  obtain ⟨a, a1, _, a3, a4⟩ := C114_whole_steps s hs (s.base.time + d) 0 (by linarith) (by push_cast; norm_num; linarith) (Or.inl rfl)
  obtain ⟨b, b1, _, b3, b4⟩ := C114_whole_steps s hs (s.base.time + s.base.step) 0 (by linarith) (by push_cast; norm_num) (Or.inl rfl)
  exact ⟨a, b, a1, b1, a3, b3, a4.1.trans b4.1.symm, a4.2.2.1.trans b4.2.2.1.symm, a4.2.1.trans b4.2.1.symm, a4.2.2.2.1.trans b4.2.2.2.1.symm⟩

/-! ## Convergence -/

theorem updates_replicate (f : ℝ → Vec 13 → Vec 13) (hf : ∀ t t' x, f t x = f t' x) (step : ℝ) (n : ℕ) :
    ∀ (t : ℝ) (x : Vec 13), (updates f (List.replicate n step) (t, x)).2 = rkSteps f step n x := by
  induction n with
  | zero => intro t x; rfl
  | succ n ih =>
    intro t x
    have h2 := updates_autonomous f hf [step] t 0 x
    simp only [updates, List.foldl_cons, List.foldl_nil] at h2
    have := ih (odeUpdate f step t x).1 (odeUpdate f step t x).2
    simp only [updates, List.replicate_succ, List.foldl_cons] at this ⊢
    rw [this, rkSteps, rkSteps, Function.iterate_succ_apply, h2]

/-- The method converges with order four, also from an inexact start. -/
theorem rkSteps_converges (f : ℝ → Vec 13 → Vec 13) (hf : ∀ t t' x, f t x = f t' x) (x : ℝ → Vec 13) {a e : ℝ} (hae : a ≤ e)
    (hF : ∀ t ∈ Set.Icc a e, ContDiffAt ℝ 5 (fun z : ℝ × Vec 13 => f z.1 z.2) (t, x t))
    (hx : ∀ t ∈ Set.Icc a e, ∀ᶠ s in nhds t, HasDerivAt x (f s (x s)) s) :
    ∃ C h0, 0 ≤ C ∧ 0 < h0 ∧ ∀ step, 0 < step → step ≤ h0 → ∀ n : ℕ, e = a + n * step → ∀ y : Vec 13, ‖y - x a‖ ≤ h0 →
      ‖rkSteps f step n y - x e‖ ≤ C * (‖y - x a‖ + step ^ 4) := by
  obtain ⟨C, h0, hC, hpos, H⟩ := OneStep.converges_var (p := 4) hae (by omega) (increment rk4 rk4.weights f) x
    (fun t ht => increment_smooth rk4 rk4.weights f t (x t) _ (by exact_mod_cast hF t ht))
    (fun t ht => OneStep.solution_smooth _ (by exact_mod_cast hF t ht) (hx t ht)) (fun t ht => by
      have := local_error_model (p := 4) rk4 rk4_explicit 1 (fun i => ((rk4.weights i : ℚ) : ℝ)) (cast_order rk4_order) f t x
        ((hF t ht).of_le (by norm_num)) (hx t ht)
      simpa [increment] using this)
  refine ⟨C, h0, hC, hpos, fun step hs hle n hn y hy => ?_⟩
  have hsum : (List.replicate n step).sum = n * step := by simp
  have := H step hs hle (List.replicate n step) (by
    intro h hh
    rw [List.eq_of_mem_replicate hh]; exact ⟨hs.le, le_rfl⟩) (by rw [hsum]; linarith) y hy
  rw [hsum, ← hn, ← updates_eq, updates_replicate f hf] at this
  exact this

theorem smooth_cantilever (o : CantileverOde) (z : ℝ × Vec 13) : ContDiffAt ℝ 5 (fun z : ℝ × Vec 13 => o.derivative z.2) z := by
  apply ContDiff.contDiffAt
  rw [contDiff_pi]
  intro i
  fin_cases i <;>
    simp [CantileverOde.derivative, matVec, vsub, vadd, vneg, scale, outerProduct, omegaOf, rateOf, quatOf, angleOf, packC, angularVelocityMatrix,
      Fin.sum_univ_three, Fin.sum_univ_four] <;>
    fun_prop

/-- The exact motion as a curve in the state space. -/
def curveC (w u : ℝ → Fin 3 → ℝ) (q : ℝ → Fin 4 → ℝ) (φ : ℝ → Fin 3 → ℝ) (t : ℝ) : Vec 13 :=
  packC (w t) (u t) ⟨q t 0, q t 1, q t 2, q t 3⟩ (φ t)

theorem curveC_solution {I J inv invT : Matrix (Fin 3) (Fin 3) ℝ} (h1 : I * inv = 1) (h3 : (I + J) * invT = 1) {c k : ℝ} {τ h : Fin 3 → ℝ}
    {lo hi : ℝ} {w u : ℝ → Fin 3 → ℝ} {q : ℝ → Fin 4 → ℝ} {φ : ℝ → Fin 3 → ℝ} (hM : FlexOn I J c k τ h lo hi w u q φ) (t : ℝ) (hlo : lo < t) (hhi : t < hi) :
    HasDerivAt (curveC w u q φ)
      (CantileverOde.derivative ⟨I, inv, J, matMul inv (I + J), invT, c, k, τ, h, 0⟩ (curveC w u q φ t)) t := by
  obtain ⟨a, b, ha, hb, e1, e2⟩ := hM.dynamics t hlo hhi
  obtain ⟨d1, d2, d3, d4⟩ := C114_derivative I J inv invT h1 h3 c k τ h (w t) (u t) (φ t) ⟨q t 0, q t 1, q t 2, q t 3⟩
  set d := CantileverOde.derivative ⟨I, inv, J, matMul inv (I + J), invT, c, k, τ, h, 0⟩ (curveC w u q φ t) with hd
  change (I + J).mulVec (omegaOf d) + J.mulVec (rateOf d) = _ at d1
  change rateOf d + c • u t + k • φ t = -omegaOf d at d2
  change angleOf d = u t at d3
  change comps (quatOf d) = _ at d4
  have ec : comps ⟨q t 0, q t 1, q t 2, q t 3⟩ = q t := by funext i; fin_cases i <;> rfl
  rw [ec] at d4
  have hab : omegaOf d + rateOf d = a + b := by
    have x1 : rateOf d = -omegaOf d - c • u t - k • φ t := by rw [← d2]; abel
    have x2 : b = -a - c • u t - k • φ t := by rw [← e1]; abel
    rw [x1, x2]; abel
  have hI : I.mulVec (omegaOf d) = I.mulVec a := by
    have x1 : I.mulVec (omegaOf d) = ((I + J).mulVec (omegaOf d) + J.mulVec (rateOf d)) - J.mulVec (omegaOf d + rateOf d) := by
      rw [Matrix.add_mulVec, Matrix.mulVec_add]; abel
    have x2 : I.mulVec a = ((I + J).mulVec a + J.mulVec b) - J.mulVec (a + b) := by
      rw [Matrix.add_mulVec, Matrix.mulVec_add]; abel
    rw [x1, x2, d1, e2, hab]
  have ea : omegaOf d = a := by
    have := congrArg inv.mulVec hI
    rwa [Matrix.mulVec_mulVec, Matrix.mulVec_mulVec, mul_eq_one_comm.1 h1, Matrix.one_mulVec, Matrix.one_mulVec] at this
  have eb : rateOf d = b := by
    rw [ea] at hab
    exact add_left_cancel hab
  have hw := hasDerivAt_pi.1 (ea ▸ ha)
  have hu := hasDerivAt_pi.1 (eb ▸ hb)
  have hq := hasDerivAt_pi.1 (d4 ▸ hM.kinematics t hlo hhi)
  have hp := hasDerivAt_pi.1 (d3 ▸ hM.hinge t hlo hhi)
  rw [hasDerivAt_pi]
  intro i
  fin_cases i
  · exact hw 0
  · exact hw 1
  · exact hw 2
  · exact hu 0
  · exact hu 1
  · exact hu 2
  · exact hq 0
  · exact hq 1
  · exact hq 2
  · exact hq 3
  · exact hp 0
  · exact hp 1
  · exact hp 2

theorem packC_dist (w u W U a A : Vec 3) (q : Quat) (Q : Fin 4 → ℝ) {ε : ℝ} (hε : 0 ≤ ε) :
    ‖packC w u q a - packC W U ⟨Q 0, Q 1, Q 2, Q 3⟩ A‖ ≤ ε ↔
      (∀ i, |w i - W i| ≤ ε) ∧ (∀ i, |u i - U i| ≤ ε) ∧ (∀ i, |comps q i - Q i| ≤ ε) ∧ ∀ i, |a i - A i| ≤ ε := by
  rw [pi_norm_le_iff_of_nonneg hε]
  constructor
  · intro h
    refine ⟨fun i => ?_, fun i => ?_, fun i => ?_, fun i => ?_⟩
    · fin_cases i
      · exact h 0
      · exact h 1
      · exact h 2
    · fin_cases i
      · exact h 3
      · exact h 4
      · exact h 5
    · fin_cases i
      · exact h 6
      · exact h 7
      · exact h 8
      · exact h 9
    · fin_cases i
      · exact h 10
      · exact h 11
      · exact h 12
  · rintro ⟨h1, h2, h3, h4⟩ i
    fin_cases i
    · exact h1 0
    · exact h1 1
    · exact h1 2
    · exact h2 0
    · exact h2 1
    · exact h2 2
    · exact h3 0
    · exact h3 1
    · exact h3 2
    · exact h3 3
    · exact h4 0
    · exact h4 1
    · exact h4 2

/-- Distance between a state of the program and an exact state (largest component). -/
noncomputable def awayC (s : Cantilever) (w u : Fin 3 → ℝ) (q : Fin 4 → ℝ) (φ : Fin 3 → ℝ) : ℝ :=
  ‖packC s.base.omega s.rate s.base.quat s.angle - packC w u ⟨q 0, q 1, q 2, q 3⟩ φ‖

/-- The matrices and coefficients are those of the constructor. -/
structure Cantilever.Built (s : Cantilever) (I J inv invT : Matrix (Fin 3) (Fin 3) ℝ) (c k : ℝ) : Prop where
  wf : s.WF
  inertia : s.base.inertia = I
  inertiaC : s.inertiaC = J
  inverse : s.base.inverse = inv
  invTotal : s.invTotal = invT
  invEquivalent : s.invEquivalent = matMul inv (I + J)
  attenuation : s.attenuation = c
  spring : s.spring = k

theorem flex_converges {I J inv invT : Matrix (Fin 3) (Fin 3) ℝ} (h1 : I * inv = 1) (h3 : (I + J) * invT = 1) {c k : ℝ}
    {t t' : ℝ} {w u w' u' : Fin 3 → ℝ} {q q' : Fin 4 → ℝ} {φ φ' : Fin 3 → ℝ} {l : List (ℝ × (Fin 3 → ℝ) × (Fin 3 → ℝ))}
    (hsp : Flex I J c k t w u q φ l t' w' u' q' φ') :
    ∃ C h0, 0 ≤ C ∧ 0 < h0 ∧ ∀ s : Cantilever, s.Built I J inv invT c k → s.base.time = t → s.base.quat.IsUnit → 1e-6 < s.base.step →
      s.base.step ≤ h0 → WholeSteps s.base.step t l → awayC s w u q φ ≤ h0 →
      ∃ (N : ℕ) (s' : Cantilever), (∀ fuel, N ≤ fuel → runCantilever fuel l s = .ok s') ∧ s'.base.time = t' ∧ s'.base.quat.IsUnit ∧
        awayC s' w' u' q' φ' ≤ C * (awayC s w u q φ + s.base.step ^ 4) := by
  induction hsp with
  | done t w u q φ =>
    refine ⟨1, 1, zero_le_one, one_pos, fun s _ h4 h5 _ _ _ _ => ⟨0, s, fun fuel _ => rfl, h4, h5, ?_⟩⟩
    have : (0 : ℝ) ≤ s.base.step ^ 4 := by positivity
    linarith
  | @arc t e lo hi t' τ h W U Q P rest w' u' q' φ' hte hlo hhi hM _ ih =>
    obtain ⟨C2, h2, hC2, hh2, H2⟩ := ih
    set o : CantileverOde := ⟨I, inv, J, matMul inv (I + J), invT, c, k, τ, h, 0⟩ with ho
    obtain ⟨C1, g1, hC1, hg1, H1⟩ := rkSteps_converges (fun _ => o.derivative) (fun _ _ _ => rfl) (curveC W U Q P) hte.le
      (fun s hs => smooth_cantilever o (s, curveC W U Q P s))
      (fun s hs => by
        have : ∀ᶠ u in nhds s, u ∈ Set.Ioo lo hi := Ioo_mem_nhds (by linarith [hs.1]) (by linarith [hs.2])
        exact this.mono fun u hu => curveC_solution h1 h3 hM u hu.1 hu.2)
    have hpos : 0 < min h2 (1 : ℝ) := by positivity
    refine ⟨C2 * (3 * C1 + 1), min (min g1 h2) (min 1 (min h2 1 / (8 * C1 + 1))), by positivity, by positivity, ?_⟩
    intro s sb e4 e5 e6 e7 ew e8
    have k1 := e7.trans ((min_le_left _ _).trans (min_le_left _ _))
    have k2 := e7.trans ((min_le_left _ _).trans (min_le_right _ _))
    have k3 := e7.trans ((min_le_right _ _).trans (min_le_left _ _))
    have k4 := e7.trans ((min_le_right _ _).trans (min_le_right _ _))
    have n1 := e8.trans ((min_le_left _ _).trans (min_le_left _ _))
    have n4 := e8.trans ((min_le_right _ _).trans (min_le_right _ _))
    obtain ⟨⟨n, hn, hne⟩, ew'⟩ := ew
    obtain ⟨m, rfl⟩ : ∃ m, n = m + 1 := ⟨n - 1, by omega⟩
    have hε : (0 : ℝ) < 1e-6 := by norm_num
    have hHpos : 0 < s.base.step := by linarith
    have hz2 := H1 s.base.step hHpos k1 (m + 1) hne (packC s.base.omega s.rate s.base.quat s.angle) n1
    have hld : (s.load τ h).WF := ⟨sb.wf.enabled, sb.wf.step, sb.wf.pos, sb.wf.same, sb.wf.inverse⟩
    have htm : (s.load τ h).base.time = t := e4
    have hst : (s.load τ h).base.step = s.base.step := rfl
    obtain ⟨s1, p1, p2, p3, p4, p5, p6, p7, p8, p9, p10, p11, p12, p13, p14, p15⟩ := C114_whole_steps (s.load τ h) hld e m
      (by rw [htm, hne]; push_cast
          have : (0 : ℝ) ≤ m * s.base.step := by positivity
          linarith)
      (by rw [htm, hst, hne]; push_cast; linarith) (Or.inr (by rw [htm, hst, hne]; push_cast; linarith))
    have hode : (s.load τ h).ode = o := by
      rw [ho]
      change CantileverOde.mk s.base.prevInertia s.base.inverse s.inertiaC s.invEquivalent s.invTotal s.attenuation s.spring τ h 0 = _
      rw [sb.wf.same, sb.inertia, sb.inverse, sb.inertiaC, sb.invEquivalent, sb.invTotal, sb.attenuation, sb.spring]
    rw [hode] at p4 p5 p6 p7
    change s1.base.omega = omegaOf (rkSteps (fun _ => o.derivative) s.base.step (m + 1) (packC s.base.omega s.rate s.base.quat s.angle)) at p4
    change s1.rate = rateOf (rkSteps (fun _ => o.derivative) s.base.step (m + 1) (packC s.base.omega s.rate s.base.quat s.angle)) at p5
    change s1.base.quat = (quatOf (rkSteps (fun _ => o.derivative) s.base.step (m + 1) (packC s.base.omega s.rate s.base.quat s.angle))).normalize at p6
    change s1.angle = angleOf (rkSteps (fun _ => o.derivative) s.base.step (m + 1) (packC s.base.omega s.rate s.base.quat s.angle)) at p7
    set x := rkSteps (fun _ => o.derivative) s.base.step (m + 1) (packC s.base.omega s.rate s.base.quat s.angle) with hx
    change ‖x - curveC W U Q P e‖ ≤ C1 * (awayC s (W t) (U t) (Q t) (P t) + s.base.step ^ 4) at hz2
    have hH4 : s.base.step ^ 4 ≤ s.base.step := by
      calc s.base.step ^ 4 ≤ s.base.step ^ 1 := pow_le_pow_of_le_one hHpos.le k3 (by omega)
        _ = _ := pow_one _
    set δ := C1 * (awayC s (W t) (U t) (Q t) (P t) + s.base.step ^ 4) with hδ
    have hA0 : 0 ≤ awayC s (W t) (U t) (Q t) (P t) := norm_nonneg _
    have hδ0 : 0 ≤ δ := by positivity
    have hsmall : 4 * δ ≤ min h2 1 := by
      have hq : min h2 1 / (8 * C1 + 1) * (8 * C1 + 1) = min h2 1 := by field_simp
      have hq0 : 0 ≤ min h2 1 / (8 * C1 + 1) := by positivity
      have : δ ≤ C1 * (2 * (min h2 1 / (8 * C1 + 1))) := by rw [hδ]; gcongr; linarith
      nlinarith
    have hd1 : δ < 1 / 2 := by linarith [min_le_right h2 (1 : ℝ)]
    rw [← packC_of x, curveC, packC_dist _ _ _ _ _ _ _ _ hδ0] at hz2
    obtain ⟨hzw, hzu, hzq, hzp⟩ := hz2
    obtain ⟨hns, hnq⟩ := normalize_near (quatOf x) (Q e) (hM.unit e (by linarith) hhi) hd1 hzq
    have hne0 : (quatOf x) ≠ ⟨0, 0, 0, 0⟩ := by
      intro h0; apply hns; rw [h0]; simp [Quat.normSq]
    have haway : awayC s1 (W e) (U e) (Q e) (P e) ≤ 3 * δ := by
      refine (packC_dist _ _ _ _ _ _ _ _ (by positivity)).2 ⟨fun i => ?_, fun i => ?_, ?_, fun i => ?_⟩
      · rw [p4]; exact (hzw i).trans (by linarith)
      · rw [p5]; exact (hzu i).trans (by linarith)
      · rw [p6]; exact hnq
      · rw [p7]; exact (hzp i).trans (by linarith)
    have hb1 : s1.Built I J inv invT c k :=
      ⟨p2, p9.trans sb.inertia, p10.trans sb.inertiaC, p15.trans sb.inverse, p12.trans sb.invTotal, p11.trans sb.invEquivalent, p13.trans sb.attenuation,
        p14.trans sb.spring⟩
    have p8' : s1.base.step = s.base.step := p8
    obtain ⟨N2, s', f1, f2, f3, f4⟩ := H2 s1 hb1 p3 (by rw [p6]; exact ((C69_normalize _).1 hne0).1) (by rw [p8']; exact e6) (by rw [p8']; exact k2)
      (by rw [p8']; exact ew') (haway.trans (by linarith [min_le_left h2 (1 : ℝ)]))
    refine ⟨max (m + 1) N2, s', fun fuel hf => ?_, f2, f3, f4.trans ?_⟩
    · change Res.bind ((s.load τ h).propagate fuel e) _ = _
      rw [p1 fuel (lt_of_lt_of_le (Nat.lt_succ_self m) (le_trans (le_max_left _ _) hf))]
      exact f1 fuel (le_trans (le_max_right _ _) hf)
    · rw [p8', mul_assoc]
      gcongr
      have hA : 0 ≤ s.base.step ^ 4 := by positivity
      rw [hδ] at haway
      nlinarith

/-- **C114** (convergence). Let a motion of a rigid body with a damped oscillating beam be given: any number of consecutive arcs, each with a
constant body torque and wheel momentum, from rest of the beam. There are `C` and `h0` such that for every step width above a microsecond and at most
`h0` of which all arcs are whole multiples, an `AttitudeWithCantileverVibration` with damping ratio `ζ` and natural frequency `ν`, started with the initial
angular velocity and attitude and taken through the same schedule, terminates at the final time, and every component of angular velocity,
quaternion, and angle and rate of the beam is within `C step^4` of the exact one. -/
theorem C114_converges {I J : Matrix (Fin 3) (Fin 3) ℝ} (hI : I.det ≠ 0) (hIJ : (I + J).det ≠ 0) (ζ ν : ℝ) {t' : ℝ} {w w' u' φ' : Fin 3 → ℝ} {q : Quat}
    {q' : Fin 4 → ℝ} (hq : q.IsUnit) {l : List (ℝ × (Fin 3 → ℝ) × (Fin 3 → ℝ))}
    (hsp : Flex I J (2 * ζ * ν) (ν ^ 2) 0 w 0 (comps q) 0 l t' w' u' q' φ') (τ0 : Vec 3) :
    ∃ C h0, 0 < h0 ∧ ∀ step, 1e-6 < step → step ≤ h0 → WholeSteps step 0 l →
      ∃ s0, Cantilever.new w q I J ζ ν τ0 step = .ok s0 ∧ ∃ (N : ℕ) (s' : Cantilever),
      (∀ fuel, N ≤ fuel → runCantilever fuel l s0 = .ok s') ∧ s'.base.time = t' ∧ s'.base.quat.IsUnit ∧
      (∀ i, |s'.base.omega i - w' i| ≤ C * step ^ 4) ∧ (∀ i, |s'.rate i - u' i| ≤ C * step ^ 4) ∧
      (∀ i, |comps s'.base.quat i - q' i| ≤ C * step ^ 4) ∧ ∀ i, |s'.angle i - φ' i| ≤ C * step ^ 4 := by
  obtain ⟨inv, hinv, hl, -⟩ := (C73_inverse I).2 hI
  obtain ⟨invT, hinvT, hlT, -⟩ := (C73_inverse (I + J)).2 hIJ
  obtain ⟨C, h0, hC, hpos, H⟩ := flex_converges hl hlT hsp
  refine ⟨C, h0, hpos, fun step hs hle hw => ?_⟩
  have hε : (0 : ℝ) < 1e-6 := by norm_num
  have hs0 : 0 < step := by linarith
  rw [Cantilever.new, hinv, hinvT]
  refine ⟨_, rfl, ?_⟩
  generalize hs0' : (Cantilever.mk _ _ _ _ _ _ _ _ _) = s0
  have hb : s0.Built I J inv invT (2 * ζ * ν) (ν ^ 2) := by
    subst hs0'
    exact ⟨⟨rfl, rfl, hs0, rfl, hinv⟩, rfl, rfl, rfl, rfl, rfl, rfl, Real.rpow_two ν⟩
  have h00 : awayC s0 w 0 (comps q) 0 = 0 := by
    subst hs0'
    have : packC w 0 q 0 = packC w 0 ⟨comps q 0, comps q 1, comps q 2, comps q 3⟩ 0 := rfl
    change ‖packC w 0 q 0 - _‖ = 0
    rw [this, sub_self, norm_zero]
  have hstep : s0.base.step = step := by subst hs0'; rfl
  obtain ⟨N, s', g1, g2, g3, g4⟩ := H s0 hb (by subst hs0'; rfl) (by subst hs0'; exact hq) (by rw [hstep]; exact hs) (by rw [hstep]; exact hle)
    (by rw [hstep]; exact hw) (by rw [h00]; exact hpos.le)
  refine ⟨N, s', g1, g2, g3, ?_⟩
  rw [h00, zero_add, hstep] at g4
  exact (packC_dist _ _ _ _ _ _ _ _ (by positivity)).1 g4

end S2E.Att
