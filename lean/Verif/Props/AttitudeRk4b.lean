import Verif.Props.AttitudeRk4
import Verif.Props.OrbitalElements
import Mathlib.Analysis.SpecialFunctions.Trigonometric.Deriv
import Mathlib.Analysis.Calculus.MeanValue
import Mathlib.Analysis.Calculus.ContDiff.RCLike
/-!
# C110 (outputs and failures), C111 (conservation laws): `AttitudeRk4`
-/
namespace S2E.Att
open S2E.Lu S2E.Integ S2E.TwoBody S2E.Rigid S2E.OrbitProp S2E.Kepler

theorem attitude_frame (q : Quat) (v : Vec 3) : (attitude (comps q)).mulVec v = q.frameConversion v := by
  rw [frame_explicit]
  apply vec3_ext <;> simp [attitude, comps, Matrix.mulVec, dotProduct, Fin.sum_univ_three] <;> ring_nf <;> simp

theorem attitude_conj (q : Quat) (v : Vec 3) : (attitude (comps q)).transpose.mulVec v = q.conjugate.frameConversion v := by
  rw [frame_explicit]
  apply vec3_ext <;> simp [attitude, comps, Matrix.mulVec, dotProduct, Fin.sum_univ_three, Quat.conjugate] <;> ring

theorem attitude_len (q : Fin 4 → ℝ) (hq : q 0 ^ 2 + q 1 ^ 2 + q 2 ^ 2 + q 3 ^ 2 = 1) (v : Fin 3 → ℝ) : len ((attitude q).transpose.mulVec v) = len v := by
  rw [len, len]
  congr 1
  simp [attitude, Matrix.mulVec, dotProduct, Fin.sum_univ_three]
  generalize q 0 = a at *
  generalize q 1 = b at *
  generalize q 2 = c at *
  generalize q 3 = d at *
  generalize v 0 = x at *
  generalize v 1 = y at *
  generalize v 2 = z at *
  grind

/-- **C110** (outputs). Whenever `Propagate` of an enabled propagator ends normally, the new time is the requested end time, the quaternion
has length one (or is zero, if a step happened to end in zero), the logged momentum is `I w + h` in inertial components, its logged length is
the length of `I w + h`, the kinetic energy is `w · I w / 2`, and torque, wheel momentum, inertia tensor and step width are untouched. -/
theorem C110_outputs (s s' : Attitude) (fuel : ℕ) (e : ℝ) (he : s.enabled = true) (h : s.propagate fuel e = .ok (some s')) :
    s'.time = e ∧ (s'.quat.IsUnit ∨ s'.quat = ⟨0, 0, 0, 0⟩) ∧
    s'.totalMomentumI = (attitude (comps s'.quat)).transpose.mulVec (s.inertia.mulVec s'.omega + s.wheel) ∧
    (s'.quat.IsUnit → s'.totalMomentum = len (s.inertia.mulVec s'.omega + s.wheel)) ∧
    s'.kineticEnergy = dot s'.omega (s.inertia.mulVec s'.omega) / 2 ∧
    s'.torque = s.torque ∧ s'.wheel = s.wheel ∧ s'.inertia = s.inertia ∧ s'.step = s.step ∧ s'.enabled = true := by
  rw [Attitude.propagate, if_neg (by simp [he])] at h
  rcases h1 : calcInverseMatrix s.inertia with inv | _ | _ | _ <;> simp only [h1, Res.bind, reduceCtorEq] at h
  split_ifs at h with h0
  · simp at h
  set f := derivative s.prevInertia inv s.torque s.wheel
    (matVec (Matrix.of fun i j => (1 / (e - s.time)) * (s.inertia i j - s.prevInertia i j)) s.omega) with hf
  rcases h2 : loop f e s.step fuel s.time (s.omega, s.quat) with r | _ | _ | _ <;> simp only [h2, reduceCtorEq] at h
  have h3 := Option.some.inj (Res.ok.inj h)
  have hu := oneStep_unit f (e - r.1) r.2
  set z := oneStep f (e - r.1) r.2
  have hL : s'.totalMomentumI = (attitude (comps s'.quat)).transpose.mulVec (s.inertia.mulVec s'.omega + s.wheel) := by
    rw [← h3]
    simp only [Attitude.calcAngularMomentum]
    rw [attitude_conj, matVec_mulVec]
    congr 1
    funext i
    simp only [vadd, Pi.add_apply]
    ring
  have hN : s'.totalMomentum = calcNorm s'.totalMomentumI := by rw [← h3]; rfl
  refine ⟨by rw [← h3]; rfl, ?_, hL, ?_, ?_, ?_⟩
  · rw [← h3]; exact hu
  · intro hq
    rw [hN, calcNorm_len, hL, attitude_len]
    have : s'.quat.normSq = 1 := hq
    simpa [Quat.normSq, comps] using this
  · have : s'.kineticEnergy = 0.5 * innerProduct (matVec s.inertia s'.omega) s'.omega := by rw [← h3]; rfl
    rw [this, innerProduct_dot, matVec_mulVec]
    simp only [dot]; ring
  · rw [← h3]; exact ⟨rfl, rfl, rfl, rfl, he⟩

theorem loop_mono (f : Vec 7 → Vec 7) (e step : ℝ) (r : ℝ × (Vec 3 × Quat)) :
    ∀ (n k : ℕ) (p : ℝ) z, n ≤ k → loop f e step n p z = .ok r → loop f e step k p z = .ok r := by
  intro n
  induction n with
  | zero => intro k p z _ h; simp [loop] at h
  | succ n ih =>
    intro k p z hk h
    obtain ⟨k, rfl⟩ : ∃ j, k = j + 1 := ⟨k - 1, by omega⟩
    rw [loop] at h ⊢
    split_ifs at h ⊢
    · exact ih k _ _ (by omega) h
    · exact h

theorem loop_stuck (f : Vec 7 → Vec 7) (e step : ℝ) (hs : step ≤ 0) (fuel : ℕ) :
    ∀ (p : ℝ) z, e - p - step > 1e-6 → loop f e step fuel p z = .stuck := by
  induction fuel with
  | zero => intro p z _; rfl
  | succ k ih => intro p z h; rw [loop, if_pos h, ih _ _ (by linarith)]

/-- **C110** (termination and failures). A disabled propagator is not changed at all. An enabled one throws for a singular inertia tensor; with
an invertible one it answers NaN when asked for the time it is already at, loops for ever when the step width is not positive and the end time
is more than `step + 1e-6` ahead, and terminates for every positive step width and every other end time, even one in the past. -/
theorem C110_termination (s : Attitude) (e : ℝ) :
    (s.enabled = false → ∀ fuel, s.propagate fuel e = .ok (some s)) ∧
    (s.enabled = true → s.inertia.det = 0 → ∀ fuel, s.propagate fuel e = .throws) ∧
    (s.enabled = true → s.inertia.det ≠ 0 → e = s.time → ∀ fuel, s.propagate fuel e = .ok none) ∧
    (s.enabled = true → s.inertia.det ≠ 0 → s.step ≤ 0 → e - s.time - s.step > 1e-6 → e ≠ s.time → ∀ fuel, s.propagate fuel e = .stuck) ∧
    (s.enabled = true → s.inertia.det ≠ 0 → 0 < s.step → e ≠ s.time →
      ∃ (N : ℕ) (s' : Attitude), ∀ fuel, N ≤ fuel → s.propagate fuel e = .ok (some s')) := by
  refine ⟨fun h fuel => ?_, fun h hd fuel => ?_, fun h hd ht fuel => ?_, fun h hd hs hg ht fuel => ?_, fun h hd hs ht => ?_⟩
  · rw [Attitude.propagate, if_pos h]
  · rw [Attitude.propagate, if_neg (by simp [h]), (C73_inverse s.inertia).1 hd]; rfl
  · obtain ⟨inv, hinv, -, -⟩ := (C73_inverse s.inertia).2 hd
    rw [Attitude.propagate, if_neg (by simp [h]), hinv]
    simp only [Res.bind]
    rw [if_pos (by rw [ht, sub_self])]
  · obtain ⟨inv, hinv, -, -⟩ := (C73_inverse s.inertia).2 hd
    rw [Attitude.propagate, if_neg (by simp [h]), hinv]
    simp only [Res.bind]
    rw [if_neg (sub_ne_zero.2 ht), loop_stuck _ _ _ hs fuel _ _ hg]
  · obtain ⟨inv, hinv, -, -⟩ := (C73_inverse s.inertia).2 hd
    set f := derivative s.prevInertia inv s.torque s.wheel
      (matVec (Matrix.of fun i j => (1 / (e - s.time)) * (s.inertia i j - s.prevInertia i j)) s.omega) with hf
    obtain ⟨m, N, last, -, -, -, h4⟩ := odePropagate_spec (fun _ => f) e s.step hs s.time (s.time, pack s.omega s.quat)
    obtain ⟨r, r1, -, -⟩ := propagate_ode (fun c x => derivative_scaleQ _ _ _ _ _ c x) e s.step s.time N s.omega s.quat _ (h4 N le_rfl)
    refine ⟨N, Attitude.calcAngularMomentum
      { s with omega := (oneStep f (e - r.1) r.2).1, quat := (oneStep f (e - r.1) r.2).2, torqueChange :=
                 (matVec (Matrix.of fun i j => (1 / (e - s.time)) * (s.inertia i j - s.prevInertia i j)) s.omega),
               inverse := inv, time := e, prevInertia := s.inertia }, fun fuel hfuel => ?_⟩
    rw [Attitude.propagate, if_neg (by simp [h]), hinv]
    simp only [Res.bind]
    rw [if_neg (sub_ne_zero.2 ht), ← hf, loop_mono f e s.step r N fuel _ _ hfuel r1]

/-- A freshly made propagator with an invertible inertia tensor, asked for the state one second later, ends normally. -/
example : ∃ s, Attitude.new ![0, 0, 1] ⟨0, 0, 0, 1⟩ (1 : Matrix (Fin 3) (Fin 3) ℝ) 0 0.1 = .ok s ∧
    ∃ (N : ℕ) (s' : Attitude), ∀ fuel, N ≤ fuel → s.propagate fuel 1 = .ok (some s') := by
  obtain ⟨inv, hinv, -, -⟩ := (C73_inverse (1 : Matrix (Fin 3) (Fin 3) ℝ)).2 (by simp)
  refine ⟨_, by rw [Attitude.new, hinv]; rfl, ?_⟩
  exact (C110_termination _ 1).2.2.2.2 rfl (by simp [Attitude.calcAngularMomentum]) (by simp [Attitude.calcAngularMomentum]; norm_num)
    (by simp [Attitude.calcAngularMomentum])

/-- **C110** (changing inertia). When the inertia tensor was changed from `P` to `I` since the last call, the angular velocity is propagated
with the new tensor's inverse, the *old* tensor in the gyroscopic term, and the torque `(I - P) w0 / Δ` for the change, frozen at the
angular velocity `w0` of the start of the interval. -/
theorem C110_changed_inertia (P I inv : Matrix (Fin 3) (Fin 3) ℝ) (h1 : I * inv = 1) (torque wheel w0 w : Vec 3) (q : Quat) (dt : ℝ) :
    I.mulVec (unpackOmega (derivative P inv torque wheel (matVec (Matrix.of fun i j => (1 / dt) * (I i j - P i j)) w0) (pack w q))) =
      torque - cross w (P.mulVec w + wheel) - (1 / dt) • (I - P).mulVec w0 := by
  have e0 : unpackOmega (pack w q) = w := by apply vec3_ext <;> rfl
  have e : unpackOmega (derivative P inv torque wheel (matVec (Matrix.of fun i j => (1 / dt) * (I i j - P i j)) w0) (pack w q)) =
      inv.mulVec (torque - cross w (P.mulVec w + wheel) - (1 / dt) • (I - P).mulVec w0) := by
    have e1 : unpackOmega (derivative P inv torque wheel (matVec (Matrix.of fun i j => (1 / dt) * (I i j - P i j)) w0) (pack w q)) =
        matVec inv (vsub (vsub torque (outerProduct w (vadd (matVec P w) wheel)))
          (matVec (Matrix.of fun i j => (1 / dt) * (I i j - P i j)) w0)) := by
      simp only [derivative, e0]
      apply vec3_ext <;> rfl
    have e2 : matVec (Matrix.of fun i j => (1 / dt) * (I i j - P i j)) w0 = (1 / dt) • (I - P).mulVec w0 := by
      funext i; simp [matVec, Matrix.mulVec, dotProduct, Finset.mul_sum, mul_assoc]
    rw [e1, e2, matVec_mulVec, matVec_mulVec, outer_cross]
    rfl
  rw [e, Matrix.mulVec_mulVec, h1, Matrix.one_mulVec]

/-! ## Conservation laws -/

/-- The rate of change of a vector given in body components, seen from the inertial frame. -/
theorem inertial_rate {w H' : Fin 3 → ℝ} {q : ℝ → Fin 4 → ℝ} {H : ℝ → Fin 3 → ℝ} {t : ℝ} (hq : HasDerivAt q (rate w (q t)) t)
    (hH : HasDerivAt H H' t) :
    HasDerivAt (fun s => (attitude (q s)).transpose.mulVec (H s)) ((attitude (q t)).transpose.mulVec (H' + cross w (H t))) t := by
  have a := hasDerivAt_pi.1 hq
  have b := hasDerivAt_pi.1 hH
  have a0 : HasDerivAt (fun s => q s 0) _ t := a 0
  have a1 : HasDerivAt (fun s => q s 1) _ t := a 1
  have a2 : HasDerivAt (fun s => q s 2) _ t := a 2
  have a3 : HasDerivAt (fun s => q s 3) _ t := a 3
  have b0 : HasDerivAt (fun s => H s 0) _ t := b 0
  have b1 : HasDerivAt (fun s => H s 1) _ t := b 1
  have b2 : HasDerivAt (fun s => H s 2) _ t := b 2
  rw [hasDerivAt_pi]
  intro i
  fin_cases i
  · simp [attitude, Matrix.mulVec, dotProduct, Fin.sum_univ_three]
    exact (((((((a3.pow 2).add (a0.pow 2)).sub (a1.pow 2)).sub (a2.pow 2)).mul b0).add
      ((((a0.mul a1).sub (a3.mul a2)).const_mul 2).mul b1)).add ((((a0.mul a2).add (a3.mul a1)).const_mul 2).mul b2)).congr_deriv
      (by simp [rate, cross]; ring)
  · simp [attitude, Matrix.mulVec, dotProduct, Fin.sum_univ_three]
    exact ((((((a0.mul a1).add (a3.mul a2)).const_mul 2).mul b0).add
      (((((a3.pow 2).sub (a0.pow 2)).add (a1.pow 2)).sub (a2.pow 2)).mul b1)).add ((((a1.mul a2).sub (a3.mul a0)).const_mul 2).mul b2)).congr_deriv
      (by simp [rate, cross]; ring)
  · simp [attitude, Matrix.mulVec, dotProduct, Fin.sum_univ_three]
    exact ((((((a0.mul a2).sub (a3.mul a1)).const_mul 2).mul b0).add ((((a1.mul a2).add (a3.mul a0)).const_mul 2).mul b1)).add
      (((((a3.pow 2).sub (a0.pow 2)).sub (a1.pow 2)).add (a2.pow 2)).mul b2)).congr_deriv
      (by simp [rate, cross]; ring)

theorem mulVec_hasDerivAt (M : Matrix (Fin 3) (Fin 3) ℝ) {w : ℝ → Fin 3 → ℝ} {a : Fin 3 → ℝ} {t : ℝ} (hw : HasDerivAt w a t) :
    HasDerivAt (fun s => M.mulVec (w s)) (M.mulVec a) t := by
  have b := hasDerivAt_pi.1 hw
  have b0 : HasDerivAt (fun s => w s 0) _ t := b 0
  have b1 : HasDerivAt (fun s => w s 1) _ t := b 1
  have b2 : HasDerivAt (fun s => w s 2) _ t := b 2
  rw [hasDerivAt_pi]
  intro i
  simp only [Matrix.mulVec, dotProduct, Fin.sum_univ_three]
  exact ((b0.const_mul (M i 0)).add (b1.const_mul (M i 1))).add (b2.const_mul (M i 2))

/-- **C111** (laws). In every rotation to which `AttitudeRk4` converges (C110), the total angular momentum in inertial components changes at
the rate of the torque in inertial components, and, for a symmetric inertia tensor, the kinetic energy changes at the rate torque times
angular velocity, whatever the wheels hold. -/
theorem C111_laws {I : Matrix (Fin 3) (Fin 3) ℝ} {τ h : Fin 3 → ℝ} {lo hi : ℝ} {w : ℝ → Fin 3 → ℝ} {q : ℝ → Fin 4 → ℝ}
    (hM : SpinOn I τ h lo hi w q) (t : ℝ) (h1 : lo < t) (h2 : t < hi) :
    HasDerivAt (fun s => (attitude (q s)).transpose.mulVec (I.mulVec (w s) + h)) ((attitude (q t)).transpose.mulVec τ) t ∧
    (I.transpose = I → HasDerivAt (fun s => dot (w s) (I.mulVec (w s)) / 2) (dot τ (w t)) t) := by
  obtain ⟨a, ha, hI⟩ := hM.dynamics t h1 h2
  have hIw := mulVec_hasDerivAt I ha
  constructor
  · have hH : HasDerivAt (fun s => I.mulVec (w s) + h) (I.mulVec a) t := hIw.add_const h
    have := inertial_rate (hM.kinematics t h1 h2) hH
    rwa [hI, sub_add_cancel] at this
  · intro hs
    have b := hasDerivAt_pi.1 ha
    have c := hasDerivAt_pi.1 hIw
    have b0 : HasDerivAt (fun s => w s 0) _ t := b 0
    have b1 : HasDerivAt (fun s => w s 1) _ t := b 1
    have b2 : HasDerivAt (fun s => w s 2) _ t := b 2
    have c0 : HasDerivAt (fun s => I.mulVec (w s) 0) _ t := c 0
    have c1 : HasDerivAt (fun s => I.mulVec (w s) 1) _ t := c 1
    have c2 : HasDerivAt (fun s => I.mulVec (w s) 2) _ t := c 2
    have e : dot (w t) (I.mulVec a) = dot τ (w t) := by
      rw [hI]; simp [dot, cross]; ring
    have sym : dot a (I.mulVec (w t)) = dot (w t) (I.mulVec a) := by
      have s01 : I 0 1 = I 1 0 := congrFun (congrFun hs 1) 0
      have s02 : I 0 2 = I 2 0 := congrFun (congrFun hs 2) 0
      have s12 : I 1 2 = I 2 1 := congrFun (congrFun hs 2) 1
      simp only [dot, Matrix.mulVec, dotProduct, Fin.sum_univ_three, s01, s02, s12]
      ring
    refine ((((b0.mul c0).add (b1.mul c1)).add (b2.mul c2)).div_const 2).congr_deriv ?_
    simp only [dot] at e sym ⊢
    linarith

theorem constant_on {f : ℝ → ℝ} {lo hi : ℝ} (hf : ∀ t, lo < t → t < hi → HasDerivAt f 0 t) {a b : ℝ} (ha : lo < a) (hb : b < hi) (hab : a ≤ b) :
    f b = f a := by
  have := (convex_Icc a b).norm_image_sub_le_of_norm_hasDerivWithin_le (f := f) (f' := fun _ => 0) (C := 0)
    (fun x hx => (hf x (by linarith [hx.1]) (by linarith [hx.2])).hasDerivWithinAt) (fun x hx => by simp) (Set.left_mem_Icc.2 hab)
    (Set.right_mem_Icc.2 hab)
  rw [zero_mul, norm_le_zero_iff, sub_eq_zero] at this
  exact this

/-- Torque-free rotation with constant wheel momentum: momentum and energy are the same at the end of a schedule. -/
theorem spin_conserved {I : Matrix (Fin 3) (Fin 3) ℝ} {t t' : ℝ} {w w' : Fin 3 → ℝ} {q q' : Fin 4 → ℝ} {l : List (ℝ × (Fin 3 → ℝ) × (Fin 3 → ℝ))}
    (hsp : Spin I t w q l t' w' q') (h : Fin 3 → ℝ) (hl : ∀ x ∈ l, x.2 = (0, h)) :
    (attitude q').transpose.mulVec (I.mulVec w' + h) = (attitude q).transpose.mulVec (I.mulVec w + h) ∧
    (I.transpose = I → dot w' (I.mulVec w') / 2 = dot w (I.mulVec w) / 2) := by
  induction hsp with
  | done t w q => exact ⟨rfl, fun _ => rfl⟩
  | @arc t e lo hi t' τ h' W Q rest w' q' hte hlo hhi hM _ ih =>
    have hx := hl (e, τ, h') (by simp)
    simp only [Prod.mk.injEq] at hx
    obtain ⟨rfl, rfl⟩ := hx
    obtain ⟨i1, i2⟩ := ih (fun x hx => hl x (by simp [hx]))
    constructor
    · rw [i1]
      funext i
      refine constant_on (f := fun s => ((attitude (Q s)).transpose.mulVec (I.mulVec (W s) + h')) i) (fun s s1 s2 => ?_) hlo hhi hte.le
      have := hasDerivAt_pi.1 (C111_laws hM s s1 s2).1 i
      simpa using this
    · intro hs
      rw [i2 hs]
      refine constant_on (f := fun s => dot (W s) (I.mulVec (W s)) / 2) (fun s s1 s2 => ?_) hlo hhi hte.le
      have := (C111_laws hM s s1 s2).2 hs
      simpa [dot] using this

/-- A smooth function of a nearby state. -/
theorem near_smooth {G : Vec 7 → ℝ} (hG : ContDiff ℝ 1 G) (x : Vec 7) : ∃ K r : ℝ, 0 < r ∧ 0 ≤ K ∧ ∀ y, ‖y - x‖ ≤ r → |G y - G x| ≤ K * ‖y - x‖ := by
  obtain ⟨K, t, ht, hK⟩ := hG.contDiffAt.exists_lipschitzOnWith (x := x)
  obtain ⟨r, hr, hb⟩ := Metric.nhds_basis_closedBall.mem_iff.1 ht
  refine ⟨K, r, hr, K.2, fun y hy => ?_⟩
  have := hK.dist_le_mul y (hb (by rw [Metric.mem_closedBall, dist_eq_norm]; exact hy)) x (hb (Metric.mem_closedBall_self hr.le))
  rwa [Real.dist_eq, dist_eq_norm] at this

theorem momentum_smooth (I : Matrix (Fin 3) (Fin 3) ℝ) (h : Fin 3 → ℝ) (i : Fin 3) :
    ContDiff ℝ 1 (fun x : Vec 7 => ((attitude ![x 3, x 4, x 5, x 6]).transpose.mulVec (I.mulVec ![x 0, x 1, x 2] + h)) i) := by
  have hc : ∀ i : Fin 7, ContDiff ℝ 1 (fun x : Vec 7 => x i) := fun i => by fun_prop
  fin_cases i <;> simp [attitude, Matrix.mulVec, dotProduct, Fin.sum_univ_three] <;> fun_prop

theorem energy_smooth (I : Matrix (Fin 3) (Fin 3) ℝ) :
    ContDiff ℝ 1 (fun x : Vec 7 => dot ![x 0, x 1, x 2] (I.mulVec ![x 0, x 1, x 2]) / 2) := by
  have hc : ∀ i : Fin 7, ContDiff ℝ 1 (fun x : Vec 7 => x i) := fun i => by fun_prop
  simp [dot, Matrix.mulVec, dotProduct, Fin.sum_univ_three]
  fun_prop

theorem runSpin_outputs (fuel : ℕ) (h : Vec 3) : ∀ (l : List (ℝ × Vec 3 × Vec 3)) (s s' : Attitude), l ≠ [] → (∀ x ∈ l, x.2 = (0, h)) →
    s.enabled = true → runSpin fuel l s = .ok (some s') →
    s'.totalMomentumI = (attitude (comps s'.quat)).transpose.mulVec (s.inertia.mulVec s'.omega + h) ∧
    s'.kineticEnergy = dot s'.omega (s.inertia.mulVec s'.omega) / 2 ∧ s'.inertia = s.inertia := by
  intro l
  induction l with
  | nil => intro s s' hl; exact absurd rfl hl
  | cons x rest ih =>
    intro s s' _ hx hen hrun
    obtain ⟨e, τ, h'⟩ := x
    have hxx := hx (e, τ, h') (by simp)
    simp only [Prod.mk.injEq] at hxx
    obtain ⟨rfl, rfl⟩ := hxx
    change Res.bind (((s.setTorque 0).setWheel h').propagate fuel e) _ = _ at hrun
    rcases h1 : ((s.setTorque 0).setWheel h').propagate fuel e with r | _ | _ | _ <;> rw [h1] at hrun <;> simp only [Res.bind, reduceCtorEq] at hrun
    rcases r with _ | s1
    · simp at hrun
    · simp only at hrun
      obtain ⟨o1, o2, o3, o4, o5, o6, o7, o8, o9, o10⟩ := C110_outputs _ s1 fuel e (by exact hen) h1
      by_cases hr : rest = []
      · subst hr
        obtain rfl := Option.some.inj (Res.ok.inj hrun)
        exact ⟨o3, o5, o8⟩
      · obtain ⟨k1, k2, k3⟩ := ih s1 s' hr (fun x hx' => hx x (by simp [hx'])) o10 hrun
        rw [o8] at k1 k2 k3
        exact ⟨k1, k2, k3⟩

/-- **C111** (conservation by the program). For a torque-free rotation with constant wheel momentum `h`, over any schedule of calls, the
total momentum vector (inertial components) logged by `AttitudeRk4` and, for a symmetric inertia tensor, its kinetic energy differ from the
initial ones by at most `C (step + 1e-6)^4`. -/
theorem C111_conserved {I : Matrix (Fin 3) (Fin 3) ℝ} (hI : I.det ≠ 0) {t' : ℝ} {w w' : Fin 3 → ℝ} {q : Quat} {q' : Fin 4 → ℝ} (hq : q.IsUnit)
    {l : List (ℝ × (Fin 3 → ℝ) × (Fin 3 → ℝ))} (hsp : Spin I 0 w (comps q) l t' w' q') (h : Fin 3 → ℝ) (hne : l ≠ [])
    (hl : ∀ x ∈ l, x.2 = (0, h)) (τ0 : Vec 3) :
    ∃ C h0, 0 < h0 ∧ ∀ step, 0 < step → step + 1e-6 ≤ h0 → ∃ s0, Attitude.new w q I τ0 step = .ok s0 ∧ ∃ (N : ℕ) (s' : Attitude),
      (∀ fuel, N ≤ fuel → runSpin fuel l s0 = .ok (some s')) ∧
      (∀ i, |s'.totalMomentumI i - (attitude (comps q)).transpose.mulVec (I.mulVec w + h) i| ≤ C * (step + 1e-6) ^ 4) ∧
      (I.transpose = I → |s'.kineticEnergy - dot w (I.mulVec w) / 2| ≤ C * (step + 1e-6) ^ 4) := by
  obtain ⟨C, h0, hpos, H⟩ := C110_converges hI hq hsp τ0
  obtain ⟨m1, m2⟩ := spin_conserved hsp h hl
  have hm := fun i => near_smooth (momentum_smooth I h i) (curve (fun _ => w') (fun _ => q') 0)
  choose Km rm hrm hKm Hm using hm
  obtain ⟨Ke, re, hre, hKe, He⟩ := near_smooth (energy_smooth I) (curve (fun _ => w') (fun _ => q') 0)
  set K := Km 0 + Km 1 + Km 2 + Ke with hK
  set r := min (min (rm 0) (rm 1)) (min (rm 2) re) with hr
  have hr0 : 0 < r := lt_min (lt_min (hrm 0) (hrm 1)) (lt_min (hrm 2) hre)
  have hKi : ∀ i, Km i ≤ K := by
    intro i
    have a0 := hKm 0; have a1 := hKm 1; have a2 := hKm 2
    fin_cases i <;> simp only [hK, Fin.mk_zero, Fin.mk_one, Fin.reduceFinMk] <;> linarith
  have hKeK : Ke ≤ K := by have a0 := hKm 0; have a1 := hKm 1; have a2 := hKm 2; linarith
  have hri : ∀ i, r ≤ rm i := by
    intro i
    fin_cases i
    · exact (min_le_left _ _).trans (min_le_left _ _)
    · exact (min_le_left _ _).trans (min_le_right _ _)
    · exact (min_le_right _ _).trans (min_le_left _ _)
  have hrer : r ≤ re := (min_le_right _ _).trans (min_le_right _ _)
  refine ⟨K * |C|, min h0 (min 1 (r / (|C| + 1))), by positivity, fun step hs hle => ?_⟩
  obtain ⟨s0, hnew, N, s', g1, g2, g3, g4, g5⟩ := H step hs (hle.trans (min_le_left _ _))
  have en : s0.enabled = true ∧ s0.inertia = I := by
    obtain ⟨inv, hinv, -, -⟩ := (C73_inverse I).2 hI
    rw [Attitude.new, hinv] at hnew
    rw [← Res.ok.inj hnew]
    exact ⟨rfl, rfl⟩
  obtain ⟨o1, o2, -⟩ := runSpin_outputs N h l s0 s' hne hl en.1 (g1 N le_rfl)
  rw [en.2] at o1 o2
  refine ⟨s0, hnew, N, s', g1, ?_⟩
  have hH : 0 < step + 1e-6 := by
    have : (0 : ℝ) < 1e-6 := by norm_num
    linarith
  have hH1 : step + 1e-6 ≤ 1 := hle.trans ((min_le_right _ _).trans (min_le_left _ _))
  have hHr : step + 1e-6 ≤ r / (|C| + 1) := hle.trans ((min_le_right _ _).trans (min_le_right _ _))
  have hH4 : (step + 1e-6) ^ 4 ≤ step + 1e-6 := by
    calc (step + 1e-6) ^ 4 ≤ (step + 1e-6) ^ 1 := pow_le_pow_of_le_one hH.le hH1 (by omega)
      _ = _ := pow_one _
  have hp4 : 0 < (step + 1e-6) ^ 4 := by positivity
  set δ := |C| * (step + 1e-6) ^ 4 with hδ
  have hδ0 : 0 ≤ δ := by positivity
  have hCδ : C * (step + 1e-6) ^ 4 ≤ δ := mul_le_mul_of_nonneg_right (le_abs_self C) hp4.le
  have hδr : δ ≤ r := by
    rw [le_div_iff₀ (by positivity)] at hHr
    have : 0 ≤ |C| := abs_nonneg C
    nlinarith
  have hd : ‖pack s'.omega s'.quat - curve (fun _ => w') (fun _ => q') 0‖ ≤ δ :=
    (curve_dist _ _ _ _ _ hδ0).2 ⟨fun i => (g4 i).trans hCδ, fun i => (g5 i).trans hCδ⟩
  have f3 : ∀ v : Fin 3 → ℝ, ![v 0, v 1, v 2] = v := fun v => by funext i; fin_cases i <;> rfl
  have f4 : ∀ v : Fin 4 → ℝ, ![v 0, v 1, v 2, v 3] = v := fun v => by funext i; fin_cases i <;> rfl
  constructor
  · intro i
    have := Hm i _ (hd.trans (hδr.trans (hri i)))
    change |((attitude (comps s'.quat)).transpose.mulVec (I.mulVec ![s'.omega 0, s'.omega 1, s'.omega 2] + h)) i -
      ((attitude ![q' 0, q' 1, q' 2, q' 3]).transpose.mulVec (I.mulVec ![w' 0, w' 1, w' 2] + h)) i| ≤ _ at this
    rw [f3, f3, f4, m1, ← o1] at this
    refine this.trans ?_
    rw [mul_assoc]
    exact mul_le_mul (hKi i) hd (norm_nonneg _) ((hKm i).trans (hKi i))
  · intro hsym
    have := He _ (hd.trans (hδr.trans hrer))
    change |dot ![s'.omega 0, s'.omega 1, s'.omega 2] (I.mulVec ![s'.omega 0, s'.omega 1, s'.omega 2]) / 2 -
      dot ![w' 0, w' 1, w' 2] (I.mulVec ![w' 0, w' 1, w' 2]) / 2| ≤ _ at this
    rw [f3, f3, m2 hsym, ← o2] at this
    refine this.trans ?_
    rw [mul_assoc]
    exact mul_le_mul hKeK hd (norm_nonneg _) (hKe.trans hKeK)

/-- Constant spin about a principal axis. -/
theorem example_spin (lo hi : ℝ) : SpinOn (1 : Matrix (Fin 3) (Fin 3) ℝ) 0 ![0, 0, 2] lo hi (fun _ => ![0, 0, 1])
    (fun t => ![0, 0, Real.sin (t / 2), Real.cos (t / 2)]) where
  unit := by intro t _ _; simp
  kinematics := by
    intro t _ _
    have hs : HasDerivAt (fun t : ℝ => Real.sin (t / 2)) (Real.cos (t / 2) * (1 / 2)) t := (Real.hasDerivAt_sin _).comp t ((hasDerivAt_id t).div_const 2)
    have hc : HasDerivAt (fun t : ℝ => Real.cos (t / 2)) (-Real.sin (t / 2) * (1 / 2)) t := (Real.hasDerivAt_cos _).comp t ((hasDerivAt_id t).div_const 2)
    rw [hasDerivAt_pi]
    intro i
    fin_cases i
    · simpa [rate] using hasDerivAt_const t (0 : ℝ)
    · simpa [rate] using hasDerivAt_const t (0 : ℝ)
    · exact hs.congr_deriv (by simp [rate]; ring)
    · exact hc.congr_deriv (by simp [rate]; ring)
  dynamics := by
    intro t _ _
    refine ⟨0, hasDerivAt_const _ _, ?_⟩
    apply vec3_ext <;> simp [cross, Matrix.one_mulVec]

/-- Non-vacuity of C110 and C111: two calls, at 1 s and 5 s, of a spinning body with a wheel. -/
example : ∃ w' q', Spin (1 : Matrix (Fin 3) (Fin 3) ℝ) 0 ![0, 0, 1] (comps ⟨0, 0, 0, 1⟩) [(1, 0, ![0, 0, 2]), (5, 0, ![0, 0, 2])] 5 w' q' ∧
    (1 : Matrix (Fin 3) (Fin 3) ℝ).det ≠ 0 ∧ (1 : Matrix (Fin 3) (Fin 3) ℝ).transpose = 1 ∧ Quat.IsUnit ⟨0, 0, 0, 1⟩ := by
  have h := Spin.arc (I := (1 : Matrix (Fin 3) (Fin 3) ℝ)) (t := 0) (e := 1) (by norm_num) (by norm_num) (by norm_num) (example_spin (-1) 10)
    (Spin.arc (t := 1) (e := 5) (by norm_num) (by norm_num) (by norm_num) (example_spin (-1) 10) (Spin.done _ _ _))
  refine ⟨![0, 0, 1], ![0, 0, Real.sin (5 / 2), Real.cos (5 / 2)], ?_, by simp, by simp, by simp [Quat.IsUnit]⟩
  have e : comps ⟨0, 0, 0, 1⟩ = ![0, 0, Real.sin (0 / 2), Real.cos (0 / 2)] := by simp [comps]
  rw [e]
  exact h

end S2E.Att
