import Verif.Proofs.OdeLoop
import Verif.Spec.PerturbedMotion
import Verif.Props.KeplerOrbit
/-!
# C93: `Rk4OrbitPropagation` ends at the requested time and converges to the motion
-/
namespace S2E.OrbitProp
open S2E.Integ S2E.TwoBody S2E.Kepler

/-- **C93 (right-hand side).** `DerivativeFunction` is velocity and central gravity plus the disturbance acceleration, for every state. -/
theorem C93_derivative (mu : ℝ) (acc p v : Fin 3 → ℝ) (t : ℝ) :
    statePosition (rk4Derivative mu acc t (joinState p v)) = v ∧
    stateVelocity (rk4Derivative mu acc t (joinState p v)) = -(mu / len p ^ 3) • p + acc := by
  have h : (p 0 * p 0 + p 1 * p 1 + p 2 * p 2) ^ (1.5 : ℝ) = len p ^ 3 := by
    have h1 : p 0 * p 0 + p 1 * p 1 + p 2 * p 2 = len p ^ (2 : ℝ) := by
      rw [show (2 : ℝ) = ((2 : ℕ) : ℝ) by norm_num, Real.rpow_natCast, len_sq, dot]
    rw [h1, ← Real.rpow_mul (len_nonneg p), show (2 : ℝ) * 1.5 = ((3 : ℕ) : ℝ) by norm_num, Real.rpow_natCast]
  constructor
  · funext i
    fin_cases i <;> simp [statePosition, rk4Derivative, joinState]
  · funext i
    fin_cases i <;> simp [stateVelocity, rk4Derivative, joinState] <;> rw [h] <;> ring

theorem join_position (p v : Vec 3) : statePosition (joinState p v) = p := by funext i; fin_cases i <;> rfl
theorem join_velocity (p v : Vec 3) : stateVelocity (joinState p v) = v := by funext i; fin_cases i <;> rfl
theorem join_state (x : Vec 6) : joinState (statePosition x) (stateVelocity x) = x := by funext i; fin_cases i <;> rfl

/-- What every operation keeps: position and velocity are those of the integrator's state. -/
def Synced (s : Rk4Orbit) : Prop := s.position = statePosition s.ode.2 ∧ s.velocity = stateVelocity s.ode.2

/-- **C93 (steps).** For every positive step width, `Propagate` terminates and takes some number of full steps and one adjusted step which
lands exactly on the end time; the adjusted step is at most 1e-6 s longer than a full one, and longer than 1e-6 s whenever full steps
were taken. Afterwards the propagation time is the end time, position and velocity are the new state, and neither the step width nor the
disturbance acceleration has changed. -/
theorem C93_steps (s : Rk4Orbit) (hs : 0 < s.step) (hen : s.enabled = true) (endTime : ℝ) :
    ∃ (m N : ℕ) (last : ℝ) (s' : Rk4Orbit), s.time + m * s.step + last = endTime ∧ last ≤ s.step + 1e-6 ∧ (m = 0 ∨ 1e-6 < last) ∧
      (∀ fuel, N ≤ fuel → s.propagate fuel endTime = .ok s') ∧
      s'.ode = updates (rk4Derivative s.mu s.acceleration) (List.replicate m s.step ++ [last]) s.ode ∧
      s'.time = endTime ∧ Synced s' ∧ s'.step = s.step ∧ s'.acceleration = s.acceleration ∧ s'.mu = s.mu ∧ s'.enabled = true := by
  obtain ⟨m, N, last, h1, h2, h3, h4⟩ := odePropagate_spec (rk4Derivative s.mu s.acceleration) endTime s.step hs s.time s.ode
  set z := updates (rk4Derivative s.mu s.acceleration) (List.replicate m s.step ++ [last]) s.ode
  refine ⟨m, N, last, { s with ode := z, time := endTime, position := statePosition z.2, velocity := stateVelocity z.2 },
    h1, h2, h3, ?_, rfl, rfl, ⟨rfl, rfl⟩, rfl, rfl, rfl, hen⟩
  intro fuel hf
  rw [Rk4Orbit.propagate, if_pos hen, h4 fuel hf]
  rfl

/-- **C93 (time steps of whole multiples).** If the time to cover is a whole number `k ≥ 1` of steps of more than 1e-6 s, exactly `k`
steps of the full width are taken. -/
theorem C93_whole_steps (s : Rk4Orbit) (hs : 1e-6 < s.step) (hen : s.enabled = true) (k : ℕ) :
    ∃ (N : ℕ) (s' : Rk4Orbit), (∀ fuel, N ≤ fuel → s.propagate fuel (s.time + (k + 1) * s.step) = .ok s') ∧
      s'.ode = updates (rk4Derivative s.mu s.acceleration) (List.replicate (k + 1) s.step) s.ode := by
  have hs' : 0 < s.step := lt_trans (by norm_num) hs
  obtain ⟨m, N, last, s', h1, h2, h3, h4, h5, _⟩ := C93_steps s hs' hen (s.time + (k + 1) * s.step)
  have hlast : last = (k + 1 - m : ℝ) * s.step := by linarith
  have hm : m = k := by
    rcases lt_trichotomy m k with h | h | h
    · exfalso
      have h' : (m : ℝ) + 1 ≤ k := by exact_mod_cast h
      have : 2 * s.step ≤ last := by rw [hlast]; nlinarith
      linarith
    · exact h
    · exfalso
      have h' : (k : ℝ) + 1 ≤ m := by exact_mod_cast h
      have : last ≤ 0 := by rw [hlast]; nlinarith
      rcases h3 with h3 | h3
      · omega
      · norm_num at h3; linarith
  subst hm
  have hl : last = s.step := by rw [hlast]; ring
  refine ⟨N, s', h4, ?_⟩
  rw [h5, hl, List.replicate_succ']

/-- **C93 (zero or negative step).** With a step width of zero or less, `Propagate` never returns once the end time is ahead. -/
theorem C93_stuck (s : Rk4Orbit) (hs : s.step ≤ 0) (hen : s.enabled = true) (endTime : ℝ) (h : endTime - s.time > 1e-6) (fuel : ℕ) :
    s.propagate fuel endTime = .stuck := by
  rw [Rk4Orbit.propagate, if_pos hen, odePropagate, odeLoop_stuck _ _ _ hs fuel _ _ (by linarith)]
  rfl

/-- **C93 (disabled).** A disabled orbit stays where it is. -/
theorem C93_disabled (s : Rk4Orbit) (h : s.enabled = false) (fuel : ℕ) (endTime : ℝ) : s.propagate fuel endTime = .ok s := by
  rw [Rk4Orbit.propagate, h]; rfl

/-! ## Convergence over a schedule of updates -/

/-- A schedule of orbit updates: before each `Propagate(e)` the disturbances of that step have set the acceleration `a`. -/
noncomputable def runSchedule (fuel : ℕ) : List (ℝ × Vec 3) → Rk4Orbit → Res Rk4Orbit
  | [], s => .ok s
  | (e, a) :: rest, s => do
    let s' ← (s.setAcceleration a).propagate fuel e
    runSchedule fuel rest s'

theorem smooth_derivative (mu : ℝ) (acc : Vec 3) (t : ℝ) {x : Vec 6} (hx : statePosition x ≠ 0) (m : WithTop ℕ∞) :
    ContDiffAt ℝ m (fun z : ℝ × Vec 6 => rk4Derivative mu acc z.1 z.2) (t, x) := by
  have hpos : 0 < x 0 * x 0 + x 1 * x 1 + x 2 * x 2 := by
    have h := len_pos hx
    have h2 := len_sq (statePosition x)
    simp only [dot, statePosition, Matrix.cons_val_zero, Matrix.cons_val_one, Matrix.cons_val_two, Matrix.head_cons, Matrix.tail_cons] at h2
    rw [← h2]; positivity
  have hc : ∀ i : Fin 6, ContDiffAt ℝ m (fun z : ℝ × Vec 6 => z.2 i) (t, x) := fun i => by fun_prop
  have hr : ContDiffAt ℝ m (fun z : ℝ × Vec 6 => (z.2 0 * z.2 0 + z.2 1 * z.2 1 + z.2 2 * z.2 2) ^ (1.5 : ℝ)) (t, x) :=
    ((((hc 0).mul (hc 0)).add ((hc 1).mul (hc 1))).add ((hc 2).mul (hc 2))).rpow_const_of_ne hpos.ne'
  have hr0 : (x 0 * x 0 + x 1 * x 1 + x 2 * x 2) ^ (1.5 : ℝ) ≠ 0 := (Real.rpow_pos_of_pos hpos _).ne'
  have hq : ContDiffAt ℝ m (fun z : ℝ × Vec 6 => mu / (z.2 0 * z.2 0 + z.2 1 * z.2 1 + z.2 2 * z.2 2) ^ (1.5 : ℝ)) (t, x) :=
    contDiffAt_const.div hr hr0
  rw [contDiffAt_pi]
  intro i
  fin_cases i
  · exact hc 3
  · exact hc 4
  · exact hc 5
  · exact contDiffAt_const.sub (hq.mul (hc 0))
  · exact contDiffAt_const.sub (hq.mul (hc 1))
  · exact contDiffAt_const.sub (hq.mul (hc 2))

theorem joined_solution {mu lo hi : ℝ} {acc : Fin 3 → ℝ} {R V : ℝ → Fin 3 → ℝ} (h : MotionOn mu acc lo hi R V) (t : ℝ) (h1 : lo < t) (h2 : t < hi) :
    HasDerivAt (fun s => joinState (R s) (V s)) (rk4Derivative mu acc t (joinState (R t) (V t))) t := by
  obtain ⟨e1, e2⟩ := C93_derivative mu acc (R t) (V t) t
  have hv := hasDerivAt_pi.1 (h.vel t h1 h2)
  have ha := hasDerivAt_pi.1 (h.acc t h1 h2)
  rw [hasDerivAt_pi]
  rw [← e2] at ha
  intro i
  fin_cases i
  · exact hv 0
  · exact hv 1
  · exact hv 2
  · exact ha 0
  · exact ha 1
  · exact ha 2

theorem norm_state_components (x y : Vec 6) (i : Fin 3) :
    |statePosition x i - statePosition y i| ≤ ‖x - y‖ ∧ |stateVelocity x i - stateVelocity y i| ≤ ‖x - y‖ := by
  have h : ∀ j : Fin 6, |x j - y j| ≤ ‖x - y‖ := fun j => norm_le_pi_norm (x - y) j
  constructor
  · fin_cases i
    · exact h 0
    · exact h 1
    · exact h 2
  · fin_cases i
    · exact h 3
    · exact h 4
    · exact h 5

theorem flight_converges {mu t t' : ℝ} {p v p' v' : Fin 3 → ℝ} {l : List (ℝ × (Fin 3 → ℝ))} (hfl : Flight mu t p v l t' p' v') :
    ∃ C h0, 0 ≤ C ∧ 0 < h0 ∧ ∀ s : Rk4Orbit, s.mu = mu → s.enabled = true → s.time = t → Synced s → 0 < s.step → s.step + 1e-6 ≤ h0 →
      ‖s.ode.2 - joinState p v‖ ≤ h0 → ∃ (N : ℕ) (s' : Rk4Orbit), (∀ fuel, N ≤ fuel → runSchedule fuel l s = .ok s') ∧ s'.time = t' ∧
        Synced s' ∧ ‖s'.ode.2 - joinState p' v'‖ ≤ C * (‖s.ode.2 - joinState p v‖ + (s.step + 1e-6) ^ 4) := by
  induction hfl with
  | done t p v =>
    refine ⟨1, 1, zero_le_one, one_pos, fun s h1 h2 h3 h4 h5 h6 h7 => ⟨0, s, fun fuel _ => rfl, h3, h4, ?_⟩⟩
    have : (0 : ℝ) ≤ (s.step + 1e-6) ^ 4 := by positivity
    linarith
  | @arc t e lo hi t' a R V rest p' v' hte hlo hhi hM _ ih =>
    obtain ⟨C2, h2, hC2, hh2, H2⟩ := ih
    obtain ⟨C1, h1, hC1, hh1, H1⟩ := odePropagate_converges (rk4Derivative mu a) (fun _ _ _ => rfl) (fun s => joinState (R s) (V s)) hte
      (fun s hs => smooth_derivative mu a s (by rw [join_position]; exact hM.away s (by linarith [hs.1]) (by linarith [hs.2])) 5)
      (fun s hs => by
        have : ∀ᶠ u in nhds s, u ∈ Set.Ioo lo hi := Ioo_mem_nhds (by linarith [hs.1]) (by linarith [hs.2])
        exact this.mono fun u hu => joined_solution hM u hu.1 hu.2)
    refine ⟨C2 * (C1 + 1), min (min h1 h2) (min 1 (h2 / (2 * C1 + 1))), by positivity, by positivity, ?_⟩
    intro s e1 e2 e3 e4 e5 e6 e7
    have k1 := e6.trans ((min_le_left _ _).trans (min_le_left _ _))
    have k2 := e6.trans ((min_le_left _ _).trans (min_le_right _ _))
    have k3 := e6.trans ((min_le_right _ _).trans (min_le_left _ _))
    have k4 := e6.trans ((min_le_right _ _).trans (min_le_right _ _))
    have n1 := e7.trans ((min_le_left _ _).trans (min_le_left _ _))
    have n4 := e7.trans ((min_le_right _ _).trans (min_le_right _ _))
    obtain ⟨N1, z, hz1, hz2⟩ := H1 s.step e5 k1 s.ode n1
    set s1 : Rk4Orbit := { s with acceleration := a, ode := z, time := e, position := statePosition z.2, velocity := stateVelocity z.2 } with hs1
    have hε : (0 : ℝ) < 1e-6 := by norm_num
    have hHpos : 0 < s.step + 1e-6 := by linarith
    have hH4 : (s.step + 1e-6) ^ 4 ≤ s.step + 1e-6 := by
      calc (s.step + 1e-6) ^ 4 ≤ (s.step + 1e-6) ^ 1 := pow_le_pow_of_le_one hHpos.le k3 (by omega)
        _ = _ := pow_one _
    have hnear : ‖s1.ode.2 - joinState (R e) (V e)‖ ≤ h2 := by
      refine hz2.trans ?_
      have q : h2 / (2 * C1 + 1) * (2 * C1 + 1) = h2 := by field_simp
      have : C1 * (‖s.ode.2 - joinState (R t) (V t)‖ + (s.step + 1e-6) ^ 4) ≤ C1 * (2 * (h2 / (2 * C1 + 1))) := by gcongr; linarith
      have hq0 : 0 ≤ h2 / (2 * C1 + 1) := by positivity
      nlinarith
    obtain ⟨N2, s', g1, g2, g3, g4⟩ := H2 s1 e1 e2 rfl ⟨rfl, rfl⟩ e5 k2 hnear
    refine ⟨max N1 N2, s', fun fuel hf => ?_, g2, g3, g4.trans ?_⟩
    · have hp : (s.setAcceleration a).propagate fuel e = .ok s1 := by
        have en : (s.setAcceleration a).enabled = true := e2
        rw [Rk4Orbit.propagate, if_pos en]
        change Res.bind (odePropagate (rk4Derivative s.mu a) e s.step fuel s.time s.ode) _ = _
        rw [e1, e3, hz1 fuel (le_trans (le_max_left _ _) hf)]
        simp only [Res.bind, Rk4Orbit.setAcceleration, hs1, e1]
      change Res.bind ((s.setAcceleration a).propagate fuel e) _ = _
      rw [hp]
      exact g1 fuel (le_trans (le_max_right _ _) hf)
    · have hst : s1.step = s.step := rfl
      rw [hst, mul_assoc]
      gcongr
      have hA : 0 ≤ (s.step + 1e-6) ^ 4 := by positivity
      have hB : 0 ≤ ‖s.ode.2 - joinState (R t) (V t)‖ := norm_nonneg _
      nlinarith

/-- **C93 (convergence).** Let a flight be given: any number of consecutive arcs, each with central gravity and a constant extra
acceleration. There are `C` and `h0` such that, whatever the step width with `step + 1e-6 ≤ h0`, an `Rk4OrbitPropagation` started with the
initial position and velocity and taken through the same schedule terminates at the final time with every component of position and
velocity within `C (step + 1e-6)^4` of the flight's. -/
theorem C93_converges {mu t' : ℝ} {p v p' v' : Fin 3 → ℝ} {l : List (ℝ × (Fin 3 → ℝ))} (hfl : Flight mu 0 p v l t' p' v') :
    ∃ C h0, 0 < h0 ∧ ∀ step t0, 0 < step → step + 1e-6 ≤ h0 → ∃ (N : ℕ) (s' : Rk4Orbit),
      (∀ fuel, N ≤ fuel → runSchedule fuel l { Rk4Orbit.new mu step p v t0 with enabled := true } = .ok s') ∧ s'.time = t' ∧
      ∀ i, |s'.position i - p' i| ≤ C * (step + 1e-6) ^ 4 ∧ |s'.velocity i - v' i| ≤ C * (step + 1e-6) ^ 4 := by
  obtain ⟨C, h0, _, hpos, H⟩ := flight_converges hfl
  refine ⟨C, h0, hpos, fun step t0 hs hle => ?_⟩
  obtain ⟨N, s', h1, h2, h3, h4⟩ := H { Rk4Orbit.new mu step p v t0 with enabled := true } rfl rfl rfl
    ⟨(join_position p v).symm, (join_velocity p v).symm⟩ hs hle (by
      change ‖joinState p v - joinState p v‖ ≤ h0
      rw [sub_self, norm_zero]; exact hpos.le)
  refine ⟨N, s', h1, h2, fun i => ?_⟩
  have e : ‖({ Rk4Orbit.new mu step p v t0 with enabled := true } : Rk4Orbit).ode.2 - joinState p v‖ = 0 := by
    change ‖joinState p v - joinState p v‖ = 0
    rw [sub_self, norm_zero]
  rw [e, zero_add] at h4
  obtain ⟨c1, c2⟩ := norm_state_components s'.ode.2 (joinState p' v') i
  rw [join_position] at c1
  rw [join_velocity] at c2
  rw [h3.1, h3.2]
  exact ⟨c1.trans h4, c2.trans h4⟩

/-- Non-vacuity: an elliptic Kepler motion over two orbit updates is a flight, so the propagator converges to it. -/
example (mu : ℝ) (oe : OrbitalElements) (h : Elliptic mu oe) :
    ∃ R V, Motion mu R V ∧ ∃ C h0, 0 < h0 ∧ ∀ step t0, 0 < step → step + 1e-6 ≤ h0 → ∃ (N : ℕ) (s' : Rk4Orbit),
      (∀ fuel, N ≤ fuel → runSchedule fuel [(10, 0), (20, 0)] { Rk4Orbit.new mu step (R 0) (V 0) t0 with enabled := true } = .ok s') ∧
      s'.time = 20 ∧ ∀ i, |s'.position i - R 20 i| ≤ C * (step + 1e-6) ^ 4 ∧ |s'.velocity i - V 20 i| ≤ C * (step + 1e-6) ^ 4 := by
  obtain ⟨R, V, hM, _⟩ := C91_motion mu oe h
  refine ⟨R, V, hM, C93_converges (.arc (lo := -1) (hi := 11) (by norm_num) (by norm_num) (by norm_num) (hM.on _ _)
    (.arc (lo := 9) (hi := 21) (by norm_num) (by norm_num) (by norm_num) (hM.on _ _) (.done _ _ _)))⟩

/-- **C93 (forces).** Forces add up, in any order, and each contributes force / mass; a body-frame force is turned into the inertial frame
first. -/
theorem C93_forces (a f g : Vec 3) (q : Quat) (mass : ℝ) :
    addForceI (addForceI a f mass) g mass = addForceI (addForceI a g mass) f mass ∧
    (∀ i, addForceI a f mass i = a i + f i / mass) ∧ (∀ i, addForceB a f q mass i = a i + q.inverseFrameConversion f i / mass) := by
  refine ⟨?_, fun i => ?_, fun i => ?_⟩
  · funext i
    simp only [addForceI, vadd, vdiv, scale]; ring
  · simp only [addForceI, vadd, vdiv, scale]; ring
  · simp only [addForceB, addForceI, vadd, vdiv, scale]; ring

end S2E.OrbitProp
