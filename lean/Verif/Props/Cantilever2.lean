import Verif.Props.Cantilever
/-!
# C114, C115: outputs of the attitude with a cantilever, changes of the inertia tensor, energy and angular momentum
-/
namespace S2E.Att
open S2E.Lu S2E.Integ S2E.TwoBody S2E.Rigid S2E.OrbitProp

theorem dot_comm' (a b : Fin 3 → ℝ) : dot a b = dot b a := by simp [dot]; ring

/-- **C114** (outcomes). A call that is disabled changes nothing; one whose end time is not more than a microsecond ahead aborts; one with a singular
inertia tensor throws. -/
theorem C114_outcomes (s : Cantilever) (e : ℝ) :
    (s.base.enabled = false → ∀ fuel, s.propagate fuel e = .ok s) ∧
    (s.base.enabled = true → e - s.base.time ≤ 1e-6 → ∀ fuel, s.propagate fuel e = .throws) ∧
    (s.base.enabled = true → 1e-6 < e - s.base.time → s.base.inertia.det = 0 → ∀ fuel, s.propagate fuel e = .throws) := by
  refine ⟨fun h fuel => ?_, fun h h2 fuel => ?_, fun h h1 h2 fuel => ?_⟩
  · rw [Cantilever.propagate, if_pos h]
  · rw [Cantilever.propagate, if_neg (by rw [h]; simp), if_pos (not_lt.2 h2)]
  · rw [Cantilever.propagate, if_neg (by rw [h]; simp), if_neg (not_not.2 h1)]
    have := (C73_inverse s.base.inertia).1 h2
    simp only [this, Res.bind]

/-- **C114** (outputs). After a successful call the clock shows the end time, the quaternion has length one (or is zero), and the reported total angular momentum
and kinetic energy are those of the main body and the wheels: the beam is left out. -/
theorem C114_outputs (s s' : Cantilever) (fuel : ℕ) (e : ℝ) (he : s.base.enabled = true) (h : s.propagate fuel e = .ok s') :
    s'.base.time = e ∧ (s'.base.quat.IsUnit ∨ s'.base.quat = ⟨0, 0, 0, 0⟩) ∧
    s'.base.totalMomentumI = (attitude (comps s'.base.quat)).transpose.mulVec (s.base.inertia.mulVec s'.base.omega + s.base.wheel) ∧
    s'.base.totalMomentum = len s'.base.totalMomentumI ∧
    s'.base.kineticEnergy = dot s'.base.omega (s.base.inertia.mulVec s'.base.omega) / 2 := by
  rw [Cantilever.propagate, if_neg (by rw [he]; simp)] at h
  split_ifs at h with h1
  simp only at h
  rcases h2 : calcInverseMatrix s.base.inertia with inv | _ | _ | _ <;> simp only [h2, Res.bind, reduceCtorEq] at h
  generalize cantileverLoop _ _ _ _ _ _ = r at h
  rcases r with r | _ | _ | _ <;> simp only [reduceCtorEq] at h
  obtain rfl := Res.ok.inj h
  refine ⟨rfl, ?_, ?_, ?_, ?_⟩
  · generalize hz : (integrate rk4 _ _).current = z
    change (quatOf z).normalize.IsUnit ∨ _
    by_cases h0 : quatOf z = ⟨0, 0, 0, 0⟩
    · right
      change (quatOf z).normalize = _
      rw [h0]; simp [Quat.normalize, Quat.normSq]
    · left
      exact ((C69_normalize _).1 h0).1
  · rw [attitude_conj]
    simp only [Attitude.calcAngularMomentum, vadd_add, matVec_mulVec]
    rw [add_comm]
  · simp only [Attitude.calcAngularMomentum]
    exact Kepler.calcNorm_len _
  · simp only [Attitude.calcAngularMomentum, matVec_mulVec, Kepler.innerProduct_dot]
    rw [show dot (s.base.inertia.mulVec _) _ = dot _ (s.base.inertia.mulVec _) from dot_comm' _ _]
    ring

/-! ## Stale matrices -/

/-- **C114** (changed inertia tensor). The constructor computes the inverse of the total inertia tensor, `Propagate` does not renew it. When the inertia tensor of the
structure has changed from `I0` (at construction) to `I`, and stayed there, the balance of torques holds for the old total inertia tensor. -/
theorem C114_stale (I0 I J inv0 inv invT : Matrix (Fin 3) (Fin 3) ℝ) (h3 : (I0 + J) * invT = 1)
    (c k : ℝ) (torque wheel w u a : Vec 3) (q : Quat) :
    let d := CantileverOde.derivative ⟨I, inv, J, matMul inv0 (I0 + J), invT, c, k, torque, wheel, 0⟩ (packC w u q a)
    (I0 + J).mulVec (omegaOf d) + J.mulVec (rateOf d) = torque - cross w (I.mulVec w + wheel) := by
  intro d
  obtain ⟨-, e2, -, -⟩ := derivative_parts ⟨I, inv, J, matMul inv0 (I0 + J), invT, c, k, torque, wheel, 0⟩ w u a q
  change omegaOf d = invT.mulVec (_ - J.mulVec (rateOf d)) at e2
  rw [sub_zero] at e2
  rw [e2, Matrix.mulVec_mulVec, h3, Matrix.one_mulVec]; abel

/-- **C114** (changed inertia tensor, witness). The main body's inertia tensor has doubled since construction, everything is at rest and a torque of `2` is applied: the
angular acceleration that satisfies the equation of motion is `1`, the program integrates `3/2`. -/
theorem C114_stale_witness :
    let I0 : Matrix (Fin 3) (Fin 3) ℝ := 1
    let J : Matrix (Fin 3) (Fin 3) ℝ := 1
    let I : Matrix (Fin 3) (Fin 3) ℝ := (2 : ℝ) • (1 : Matrix (Fin 3) (Fin 3) ℝ)
    let half : Matrix (Fin 3) (Fin 3) ℝ := (1 / 2 : ℝ) • (1 : Matrix (Fin 3) (Fin 3) ℝ)
    let torque : Vec 3 := ![2, 0, 0]
    (I0 + J) * half = 1 ∧ I * half = 1 ∧
    omegaOf (CantileverOde.derivative ⟨I, half, J, matMul I0 (I0 + J), half, 1, 1, torque, 0, 0⟩ (packC 0 0 ⟨0, 0, 0, 1⟩ 0)) = ![3 / 2, 0, 0] ∧
    ∀ a b : Vec 3, b = -a → (I + J).mulVec a + J.mulVec b = torque → a = ![1, 0, 0] := by
  intro I0 J I half torque
  have hIJ : (I0 + J) = I := by simp only [I0, J, I]; rw [two_smul]
  have hh : I * half = 1 := by simp [I, half, smul_smul]
  have hv : ∀ v : Vec 3, half.mulVec v = (1 / 2 : ℝ) • v := fun v => by simp only [half]; rw [Matrix.smul_mulVec, Matrix.one_mulVec]
  refine ⟨by rw [hIJ]; exact hh, hh, ?_, ?_⟩
  · obtain ⟨e1, e2, -, -⟩ := derivative_parts ⟨I, half, J, matMul I0 (I0 + J), half, 1, 1, torque, 0, 0⟩ 0 0 0 ⟨0, 0, 0, 1⟩
    simp only [smul_zero, add_zero, Matrix.mulVec_zero, neg_zero, zero_sub, sub_zero, hv] at e1 e2
    have hc : cross (0 : Vec 3) 0 = 0 := by apply vec3_ext <;> simp [cross]
    rw [e1] at e2
    rw [e2, hc, sub_zero]
    simp only [J, Matrix.one_mulVec]
    apply vec3_ext <;> simp [torque]
    norm_num
  · intro a b hb h
    subst hb
    have e : (2 : ℝ) • a = torque := by
      rw [← h, Matrix.add_mulVec]
      simp only [I, J, Matrix.smul_mulVec, Matrix.one_mulVec]
      abel
    have e0 := congrFun e 0
    have e1 := congrFun e 1
    have e2 := congrFun e 2
    simp [torque] at e0 e1 e2
    apply vec3_ext <;> simp [e0, e1, e2]

/-! ## Energy and angular momentum -/

theorem dot_hasDerivAt {a b : ℝ → Fin 3 → ℝ} {a' b' : Fin 3 → ℝ} {t : ℝ} (ha : HasDerivAt a a' t) (hb : HasDerivAt b b' t) :
    HasDerivAt (fun s => dot (a s) (b s)) (dot a' (b t) + dot (a t) b') t := by
  have h1 := hasDerivAt_pi.1 ha
  have h2 := hasDerivAt_pi.1 hb
  unfold dot
  exact (((h1 0).mul (h2 0)).add ((h1 1).mul (h2 1))).add ((h1 2).mul (h2 2)) |>.congr_deriv (by ring)

theorem dot_add_left (a b c : Fin 3 → ℝ) : dot (a + b) c = dot a c + dot b c := by simp [dot]; ring
theorem dot_add_right (a b c : Fin 3 → ℝ) : dot a (b + c) = dot a b + dot a c := by simp [dot]; ring
theorem dot_neg_right (a b : Fin 3 → ℝ) : dot a (-b) = -dot a b := by simp [dot]; ring
theorem dot_smul_right (k : ℝ) (a b : Fin 3 → ℝ) : dot a (k • b) = k * dot a b := by simp [dot]; ring
theorem dot_smul_left (k : ℝ) (a b : Fin 3 → ℝ) : dot (k • a) b = k * dot a b := by simp [dot]; ring

theorem dot_symm {M : Matrix (Fin 3) (Fin 3) ℝ} (hM : M.transpose = M) (a b : Fin 3 → ℝ) : dot a (M.mulVec b) = dot b (M.mulVec a) := by
  have h : ∀ i j, M i j = M j i := fun i j => by
    have := congrFun (congrFun hM j) i
    simpa using this
  simp only [dot, Matrix.mulVec, dotProduct, Fin.sum_univ_three]
  rw [h 1 0, h 2 0, h 2 1]; ring

/-- **C115** (energy). Along every exact motion, with symmetric inertia tensors, the rotational energy of main body and beam plus the energy of the spring changes by the
work of the outer torque minus what the damper takes. -/
theorem C115_energy {I J : Matrix (Fin 3) (Fin 3) ℝ} (hI : I.transpose = I) (hJ : J.transpose = J) {c k : ℝ} {τ h : Fin 3 → ℝ} {lo hi : ℝ}
    {w u : ℝ → Fin 3 → ℝ} {q : ℝ → Fin 4 → ℝ} {φ : ℝ → Fin 3 → ℝ} (hM : FlexOn I J c k τ h lo hi w u q φ) (t : ℝ) (hlo : lo < t) (hhi : t < hi) :
    HasDerivAt (fun t => (dot (w t) (I.mulVec (w t)) + dot (w t + u t) (J.mulVec (w t + u t)) + k * dot (φ t) (J.mulVec (φ t))) / 2)
      (dot (w t) τ - c * dot (u t) (J.mulVec (u t))) t := by
  obtain ⟨a, b, ha, hb, e1, e2⟩ := hM.dynamics t hlo hhi
  have hp := hM.hinge t hlo hhi
  have hwu := ha.add hb
  have d1 := dot_hasDerivAt ha (mulVec_hasDerivAt I ha)
  have d2 := dot_hasDerivAt hwu (mulVec_hasDerivAt J hwu)
  have d3 := dot_hasDerivAt hp (mulVec_hasDerivAt J hp)
  refine (((d1.add d2).add (d3.const_mul k)).div_const 2).congr_deriv ?_
  have hab : a + b = -(c • u t + k • φ t) := by
    have : b = -a - c • u t - k • φ t := by rw [← e1]; abel
    rw [this]; abel
  have hIa : I.mulVec a = τ - cross (w t) (I.mulVec (w t) + h) + J.mulVec (c • u t + k • φ t) := by
    have : I.mulVec a = ((I + J).mulVec a + J.mulVec b) - J.mulVec (a + b) := by
      rw [Matrix.add_mulVec, Matrix.mulVec_add]; abel
    rw [this, e2, hab, Matrix.mulVec_neg]; abel
  simp only [Pi.add_apply]
  rw [dot_symm hI a (w t), dot_symm hJ (a + b) (w t + u t), dot_symm hJ (u t) (φ t), hab, Matrix.mulVec_neg, dot_neg_right, hIa]
  have hw0 : dot (w t) (τ - cross (w t) (I.mulVec (w t) + h) + J.mulVec (c • u t + k • φ t)) = dot (w t) τ + dot (w t) (J.mulVec (c • u t + k • φ t)) := by
    generalize I.mulVec (w t) + h = y
    generalize J.mulVec (c • u t + k • φ t) = z
    simp [dot, cross, Matrix.vecHead, Matrix.vecTail]; ring
  rw [hw0, Matrix.mulVec_add, Matrix.mulVec_smul, Matrix.mulVec_smul, dot_add_left, dot_add_right, dot_add_right, dot_smul_right, dot_smul_right,
    dot_smul_right, dot_smul_right, dot_symm hJ (φ t) (u t)]
  ring

/-- **C115** (dissipation). Without outer torque, with non-negative damping and a beam of positive semidefinite inertia, the energy never grows. -/
theorem C115_dissipation {I J : Matrix (Fin 3) (Fin 3) ℝ} (hI : I.transpose = I) (hJ : J.transpose = J) (hpos : ∀ v, 0 ≤ dot v (J.mulVec v)) {c k : ℝ} (hc : 0 ≤ c)
    {h : Fin 3 → ℝ} {lo hi : ℝ} {w u : ℝ → Fin 3 → ℝ} {q : ℝ → Fin 4 → ℝ} {φ : ℝ → Fin 3 → ℝ} (hM : FlexOn I J c k 0 h lo hi w u q φ) {s t : ℝ}
    (hs : lo < s) (hst : s ≤ t) (ht : t < hi) :
    (dot (w t) (I.mulVec (w t)) + dot (w t + u t) (J.mulVec (w t + u t)) + k * dot (φ t) (J.mulVec (φ t))) / 2 ≤
    (dot (w s) (I.mulVec (w s)) + dot (w s + u s) (J.mulVec (w s + u s)) + k * dot (φ s) (J.mulVec (φ s))) / 2 := by
  have hd : ∀ r ∈ Set.Icc s t, HasDerivAt (fun t => (dot (w t) (I.mulVec (w t)) + dot (w t + u t) (J.mulVec (w t + u t)) + k * dot (φ t) (J.mulVec (φ t))) / 2)
      (dot (w r) 0 - c * dot (u r) (J.mulVec (u r))) r := fun r hr => C115_energy hI hJ hM r (by linarith [hr.1]) (by linarith [hr.2])
  have := antitoneOn_of_deriv_nonpos (convex_Icc s t) (fun r hr => (hd r hr).continuousAt.continuousWithinAt)
    (fun r hr => ((hd r (interior_subset hr)).differentiableAt).differentiableWithinAt) (fun r hr => by
      rw [(hd r (interior_subset hr)).deriv]
      have : dot (w r) 0 = 0 := by simp [dot]
      rw [this]
      have := mul_nonneg hc (hpos (u r))
      linarith)
  exact this (Set.left_mem_Icc.2 hst) (Set.right_mem_Icc.2 hst) hst

/-- **C115** (angular momentum). The total angular momentum of main body, beam and wheels, in the inertial frame, changes by the outer torque and in addition by
`w × J (w + u)`: the gyroscopic torque of the beam which the equation of motion leaves out. -/
theorem C115_momentum {I J : Matrix (Fin 3) (Fin 3) ℝ} {c k : ℝ} {τ h : Fin 3 → ℝ} {lo hi : ℝ}
    {w u : ℝ → Fin 3 → ℝ} {q : ℝ → Fin 4 → ℝ} {φ : ℝ → Fin 3 → ℝ} (hM : FlexOn I J c k τ h lo hi w u q φ) (t : ℝ) (hlo : lo < t) (hhi : t < hi) :
    HasDerivAt (fun t => (attitude (q t)).transpose.mulVec (I.mulVec (w t) + J.mulVec (w t + u t) + h))
      ((attitude (q t)).transpose.mulVec (τ + cross (w t) (J.mulVec (w t + u t)))) t := by
  obtain ⟨a, b, ha, hb, e1, e2⟩ := hM.dynamics t hlo hhi
  have hd : HasDerivAt (fun t => I.mulVec (w t) + J.mulVec (w t + u t) + h) (I.mulVec a + J.mulVec (a + b)) t :=
    ((mulVec_hasDerivAt I ha).add (mulVec_hasDerivAt J (ha.add hb))).add_const h
  have := inertial_rate (hM.kinematics t hlo hhi) hd
  refine this.congr_deriv ?_
  congr 1
  have : I.mulVec a + J.mulVec (a + b) = τ - cross (w t) (I.mulVec (w t) + h) := by
    rw [← e2, Matrix.add_mulVec, Matrix.mulVec_add]; abel
  rw [this]
  generalize I.mulVec (w t) = y
  generalize J.mulVec (w t + u t) = z
  funext i
  fin_cases i <;> simp [cross, Matrix.vecHead, Matrix.vecTail] <;> ring

/-! ## Examples -/

/-- A beam that starts to oscillate when a constant torque acts on the body (both inertia tensors the identity, no damping, `k = 2`). -/
theorem example_flex (lo hi : ℝ) : FlexOn 1 1 0 2 ![0, 0, 4] 0 lo hi (fun t => ![0, 0, 2 * t + Real.sin (2 * t)]) (fun t => ![0, 0, -2 * Real.sin (2 * t)])
    (fun t => ![0, 0, Real.sin ((t ^ 2 - Real.cos (2 * t) / 2 + 1 / 2) / 2), Real.cos ((t ^ 2 - Real.cos (2 * t) / 2 + 1 / 2) / 2)])
    (fun t => ![0, 0, Real.cos (2 * t) - 1]) := by
  have hs : ∀ t, HasDerivAt (fun t : ℝ => Real.sin (2 * t)) (2 * Real.cos (2 * t)) t := fun t =>
    ((hasDerivAt_id t).const_mul 2).sin.congr_deriv (by simp; ring)
  have hc : ∀ t, HasDerivAt (fun t : ℝ => Real.cos (2 * t)) (-2 * Real.sin (2 * t)) t := fun t =>
    ((hasDerivAt_id t).const_mul 2).cos.congr_deriv (by simp; ring)
  have hθ : ∀ t, HasDerivAt (fun t : ℝ => (t ^ 2 - Real.cos (2 * t) / 2 + 1 / 2) / 2) ((2 * t + Real.sin (2 * t)) / 2) t := fun t =>
    ((((hasDerivAt_pow 2 t).sub ((hc t).div_const 2)).add_const (1 / 2 : ℝ)).div_const 2).congr_deriv (by simp; ring)
  have vec3d : ∀ (f : ℝ → ℝ) (f' t : ℝ), HasDerivAt f f' t → HasDerivAt (fun t => (![0, 0, f t] : Fin 3 → ℝ)) ![0, 0, f'] t := by
    intro f f' t hf
    rw [hasDerivAt_pi]
    intro i
    fin_cases i
    · exact hasDerivAt_const t 0
    · exact hasDerivAt_const t 0
    · exact hf
  refine ⟨fun t _ _ => ?_, fun t _ _ => ?_, fun t _ _ => ?_, fun t _ _ => ?_⟩
  · simp
  · rw [hasDerivAt_pi]
    intro i
    fin_cases i
    · exact (hasDerivAt_const t (0 : ℝ)).congr_deriv (by simp [Rigid.rate])
    · exact (hasDerivAt_const t (0 : ℝ)).congr_deriv (by simp [Rigid.rate])
    · exact (hθ t).sin.congr_deriv (by simp [Rigid.rate]; ring)
    · exact (hθ t).cos.congr_deriv (by simp [Rigid.rate]; ring)
  · exact vec3d _ _ t ((hc t).sub_const 1)
  · refine ⟨![0, 0, 2 + 2 * Real.cos (2 * t)], ![0, 0, -4 * Real.cos (2 * t)], vec3d _ _ t ?_, vec3d _ _ t ?_, ?_, ?_⟩
    · exact (((hasDerivAt_id t).const_mul 2).add (hs t)).congr_deriv (by ring)
    · exact ((hs t).const_mul (-2)).congr_deriv (by ring)
    · funext i
      fin_cases i <;> simp
      ring
    · rw [Matrix.add_mulVec]
      simp only [Matrix.one_mulVec]
      funext i
      fin_cases i <;> simp [cross]
      ring

/-- The schedule of that motion: four seconds in two arcs. -/
example : ∃ w' u' q' φ', Flex (1 : Matrix (Fin 3) (Fin 3) ℝ) 1 (2 * 0 * Real.sqrt 2) (Real.sqrt 2 ^ 2) 0 0 0 (comps ⟨0, 0, 0, 1⟩) 0
    [(1, ![0, 0, 4], 0), (4, ![0, 0, 4], 0)] 4 w' u' q' φ' ∧ WholeSteps 0.1 0 [(1, ![0, 0, 4], 0), (4, ![0, 0, 4], 0)] := by
  have h0 := Flex.arc (t := 0) (e := 1) (lo := -1) (hi := 2) (by norm_num) (by norm_num) (by norm_num) (example_flex (-1) 2)
    (Flex.arc (t := 1) (e := 4) (lo := 0) (hi := 5) (by norm_num) (by norm_num) (by norm_num) (example_flex 0 5) (Flex.done 4 _ _ _ _))
  simp only [mul_zero, zero_mul, Real.sin_zero, Real.cos_zero, add_zero, sub_self] at h0
  have e1 : (![0, 0, 0] : Fin 3 → ℝ) = 0 := by funext i; fin_cases i <;> rfl
  rw [e1] at h0
  have e2 : (comps ⟨0, 0, 0, 1⟩ : Fin 4 → ℝ) = ![0, 0, Real.sin ((0 ^ 2 - 1 / 2 + 1 / 2) / 2), Real.cos ((0 ^ 2 - 1 / 2 + 1 / 2) / 2)] := by
    norm_num [comps]
  rw [e2, Real.sq_sqrt (by norm_num), mul_zero, zero_mul]
  exact ⟨_, _, _, _, h0, ⟨10, by norm_num, by norm_num⟩, ⟨30, by norm_num, by norm_num⟩, trivial⟩

/-- The determinants of the example are not zero. -/
example : (1 : Matrix (Fin 3) (Fin 3) ℝ).det ≠ 0 ∧ ((1 : Matrix (Fin 3) (Fin 3) ℝ) + 1).det ≠ 0 := by
  refine ⟨by simp, ?_⟩
  rw [Matrix.det_fin_three]; simp

/-- **C115** (angular momentum is not conserved). There is an exact motion without any outer torque along which the total angular momentum of main body,
beam and wheels has a rate of change of `12` everywhere. -/
theorem C115_momentum_not_conserved (lo hi : ℝ) :
    ∃ (I J : Matrix (Fin 3) (Fin 3) ℝ) (w u : ℝ → Fin 3 → ℝ) (q : ℝ → Fin 4 → ℝ) (φ : ℝ → Fin 3 → ℝ), FlexOn I J 1 1 0 0 lo hi w u q φ ∧
      ∀ t, lo < t → t < hi → ∃ r, HasDerivAt (fun t => (attitude (q t)).transpose.mulVec (I.mulVec (w t) + J.mulVec (w t + u t))) r t ∧ len r = 12 := by
  have hθ : ∀ t : ℝ, HasDerivAt (fun t : ℝ => 5 / 2 * t) (5 / 2) t := fun t => ((hasDerivAt_id t).const_mul (5 / 2)).congr_deriv (by ring)
  have hF : FlexOn 1 (Matrix.diagonal ![1, 2, 3]) 1 1 0 0 lo hi (fun _ => ![3, 4, 0]) 0
      (fun t => ![3 / 5 * Real.sin (5 / 2 * t), 4 / 5 * Real.sin (5 / 2 * t), 0, Real.cos (5 / 2 * t)]) 0 := by
    refine ⟨fun t _ _ => ?_, fun t _ _ => ?_, fun t _ _ => ?_, fun t _ _ => ?_⟩
    · have := Real.sin_sq_add_cos_sq (5 / 2 * t)
      simp
      nlinarith
    · rw [hasDerivAt_pi]
      intro i
      fin_cases i
      · exact ((hθ t).sin.const_mul (3 / 5)).congr_deriv (by simp [Rigid.rate]; ring)
      · exact ((hθ t).sin.const_mul (4 / 5)).congr_deriv (by simp [Rigid.rate]; ring)
      · exact (hasDerivAt_const t (0 : ℝ)).congr_deriv (by simp [Rigid.rate]; ring)
      · exact (hθ t).cos.congr_deriv (by simp [Rigid.rate]; ring)
    · exact hasDerivAt_const t _
    · refine ⟨0, 0, hasDerivAt_const t _, hasDerivAt_const t _, by simp, ?_⟩
      rw [Matrix.mulVec_zero, Matrix.mulVec_zero, Matrix.one_mulVec]
      funext i
      fin_cases i <;> simp [cross]
      ring
  refine ⟨_, _, _, _, _, _, hF, fun t h1 h2 => ?_⟩
  have hd := C115_momentum hF t h1 h2
  simp only [add_zero] at hd
  refine ⟨_, hd, ?_⟩
  rw [attitude_len _ (hF.unit t h1 h2), zero_add]
  have : cross (![3, 4, 0] : Fin 3 → ℝ) ((Matrix.diagonal ![1, 2, 3]).mulVec (![3, 4, 0] + (0 : ℝ → Fin 3 → ℝ) t)) = ![0, 0, 12] := by
    rw [Pi.zero_apply, add_zero]
    funext i
    fin_cases i <;> simp [cross, Matrix.mulVec_diagonal] <;> norm_num
  rw [this, len]
  have e : (![0, 0, 12] : Fin 3 → ℝ) 0 ^ 2 + (![0, 0, 12] : Fin 3 → ℝ) 1 ^ 2 + (![0, 0, 12] : Fin 3 → ℝ) 2 ^ 2 = 12 ^ 2 := by simp
  rw [e]
  exact Real.sqrt_sq (by norm_num)

/-! ## The last step, concretely -/

theorem cross_self' (w : Fin 3 → ℝ) : cross w w = 0 := by
  apply vec3_ext <;> simp [cross] <;> ring

/-- **C114** (the last step is not shortened, witness). A body with unit inertia tensor and a beam without mass, at rest, under a unit torque about its third axis, is
propagated to a time `d` smaller than the step width: its clock shows `d`, its angular velocity is that at the time `step`. The exact angular velocity is `d`. -/
theorem C114_last_step_witness (step d : ℝ) (h1 : 1e-6 < d) (h2 : d ≤ step) :
    (∃ s0 s1, Cantilever.new 0 ⟨0, 0, 0, 1⟩ 1 0 0 0 ![0, 0, 1] step = .ok s0 ∧ (∀ fuel, 0 < fuel → s0.propagate fuel d = .ok s1) ∧ s1.base.time = d ∧
      s1.base.omega = ![0, 0, step]) ∧
    ∀ (lo hi : ℝ) (w u : ℝ → Fin 3 → ℝ) (q : ℝ → Fin 4 → ℝ) (φ : ℝ → Fin 3 → ℝ), lo < 0 → d < hi → FlexOn 1 0 0 0 ![0, 0, 1] 0 lo hi w u q φ →
      w 0 = 0 → w d = ![0, 0, d] := by
  have hε : (0 : ℝ) < 1e-6 := by norm_num
  constructor
  · have hone : calcInverseMatrix (1 : Matrix (Fin 3) (Fin 3) ℝ) = .ok 1 := by
      obtain ⟨b, hb, hl, -⟩ := (C73_inverse (1 : Matrix (Fin 3) (Fin 3) ℝ)).2 (by simp)
      rw [Matrix.one_mul] at hl
      rw [hb, hl]
    have hplus : (1 : Matrix (Fin 3) (Fin 3) ℝ) + 0 = 1 := add_zero 1
    rw [Cantilever.new, hone]
    simp only [Res.bind]
    rw [hplus, hone]
    simp only
    generalize hs0 : (Cantilever.mk _ _ _ _ _ _ _ _ _) = s0
    have hwf : s0.WF := by subst hs0; exact ⟨rfl, rfl, by change 0 < step; linarith, rfl, hone⟩
    have ht : s0.base.time = 0 := by subst hs0; rfl
    have hst : s0.base.step = step := by subst hs0; rfl
    obtain ⟨s1, p1, -, p3, p4, -⟩ := C114_whole_steps s0 hwf d 0 (by rw [ht]; linarith) (by rw [ht, hst]; push_cast; linarith) (Or.inl rfl)
    refine ⟨s0, s1, rfl, p1, p3, ?_⟩
    have hode : ∀ x : Vec 13, omegaOf (s0.ode.derivative x) = ![0, 0, 1] := by
      intro x
      obtain ⟨-, e2, -, -⟩ := derivative_parts s0.ode (omegaOf x) (rateOf x) (angleOf x) (quatOf x)
      rw [packC_of] at e2
      rw [e2]
      subst hs0
      change (1 : Matrix (Fin 3) (Fin 3) ℝ).mulVec (![0, 0, 1] - cross (omegaOf x) ((1 : Matrix (Fin 3) (Fin 3) ℝ).mulVec (omegaOf x) + 0) - 0 -
        (0 : Matrix (Fin 3) (Fin 3) ℝ).mulVec _) = _
      rw [Matrix.zero_mulVec, Matrix.one_mulVec, Matrix.one_mulVec, add_zero, cross_self']
      simp
    rw [p4, hst]
    have h0 : packC s0.base.omega s0.rate s0.base.quat s0.angle = packC 0 0 ⟨0, 0, 0, 1⟩ 0 := by subst hs0; rfl
    rw [h0]
    simp only [rkSteps, zero_add, Function.iterate_one, odeUpdate]
    have lin : ∀ (c : ℝ) (x y : Vec 13), omegaOf (x + c • y) = omegaOf x + c • omegaOf y := by
      intro c x y; apply vec3_ext <;> simp [omegaOf]
    have lin1 : ∀ (x y : Vec 13), omegaOf (x + y) = omegaOf x + omegaOf y := by
      intro x y; apply vec3_ext <;> simp [omegaOf]
    have lin2 : ∀ (c : ℝ) (y : Vec 13), omegaOf (c • y) = c • omegaOf y := by
      intro c y; apply vec3_ext <;> simp [omegaOf]
    simp only [lin1, lin2, hode, omegaOf_packC]
    apply vec3_ext <;> simp
    ring
  · intro lo hi w u q φ hlo hhi hM hw0
    have hd : ∀ t, lo < t → t < hi → HasDerivAt w ![0, 0, 1] t := by
      intro t ht1 ht2
      obtain ⟨a, b, ha, -, -, e2⟩ := hM.dynamics t ht1 ht2
      rw [add_zero, Matrix.zero_mulVec, add_zero, Matrix.one_mulVec, Matrix.one_mulVec, add_zero, cross_self', sub_zero] at e2
      rwa [e2] at ha
    have hk : ∀ i : Fin 3, w d i - d * (![0, 0, 1] : Fin 3 → ℝ) i = w 0 i - 0 * (![0, 0, 1] : Fin 3 → ℝ) i := by
      intro i
      exact constant_on (f := fun t => w t i - t * (![0, 0, 1] : Fin 3 → ℝ) i) (lo := lo) (hi := hi) (fun t ht1 ht2 =>
        ((hasDerivAt_pi.1 (hd t ht1 ht2) i).sub ((hasDerivAt_id t).mul_const _)).congr_deriv (by simp)) hlo hhi (by linarith)
    rw [hw0] at hk
    funext i
    have := hk i
    fin_cases i <;> simp at this ⊢ <;> linarith


end S2E.Att
