import Verif.Props.ReactionWheel
import Mathlib.Analysis.Real.Pi.Bounds
/-!
# C117–C119: speed limit, free running and momentum balance of the reaction wheel
-/
namespace S2E.Wheel
open WheelSpec

/-! ## C117 the speed limit -/

/-- One step of the driven or braked wheel with acceleration `a > 0` from a speed `ω`, for any velocity limit `L`: the acceleration is switched off
where one of the integrator's four stages is beyond the limit, for the rest of the step. -/
theorem C117_step (o : WheelOde) (ha : 0 < o.acceleration) (hh : 0 < o.step) :
    o.advance.omega = if o.limit < o.omega then o.omega
      else if o.limit < o.omega + o.step * o.acceleration / 2 then o.omega + o.step * o.acceleration / 6
      else if o.limit < o.omega + o.step * o.acceleration then o.omega + 5 * (o.step * o.acceleration) / 6
      else o.omega + o.step * o.acceleration := by
  rw [advance_omega, spin_pos _ _ _ _ ha hh]

/-- The same in the other direction, for limits that are not negative. -/
theorem C117_step_down (o : WheelOde) (ha : o.acceleration < 0) (hL : 0 ≤ o.limit) (hh : 0 < o.step) :
    o.advance.omega = if o.omega < -o.limit then o.omega
      else if o.omega + o.step * o.acceleration / 2 < -o.limit then o.omega + o.step * o.acceleration / 6
      else if o.omega + o.step * o.acceleration < -o.limit then o.omega + 5 * (o.step * o.acceleration) / 6
      else o.omega + o.step * o.acceleration := by
  rw [advance_omega, spin_neg _ _ _ _ hL ha hh]

/-- With a negative limit `L` the wheel is not accelerated above `L` and not decelerated at or below `L`: a wheel at rest can only be driven
backwards, and only to about `L`. -/
theorem C117_negative_limit (o : WheelOde) (hL : o.limit < 0) (hh : 0 < o.step) :
    (o.limit < o.omega → 0 < o.acceleration → o.advance.omega = o.omega) ∧
    (o.omega ≤ o.limit → o.acceleration < 0 → o.advance.omega = o.omega) := by
  constructor
  · intro h ha
    rw [advance_omega, spin_pos _ _ _ _ ha hh, if_pos h]
  · intro h ha
    rw [advance_omega, spin_neg' _ _ _ _ hL ha hh, if_pos h]

/-- The friction that slows a free wheel in one step by at most twice its speed. -/
def MildFriction (p : WheelParams) : Prop := ∀ v, 0 ≤ v → p.stopLimit ≤ v → 0 ≤ poly p.friction v ∧ p.step * poly p.friction v ≤ 2 * v

theorem apply_speed {p : WheelParams} {w w' : Wheel} (hh : 0 < p.step) (hJ : 0 < p.inertia) (hM : 0 ≤ p.maxTorque)
    (hτ : 0 ≤ p.timeConstant) (hf : MildFriction p) (s : Sound p w) (o : Op) (ha : w.apply o = .ok w') :
    |w'.omega| ≤ max |w.omega| (p.maxRpm * (2 * Real.pi / 60) + p.step * (p.maxTorque / p.inertia) / 3) := by
  have same : w'.omega = w.omega → |w'.omega| ≤ max |w.omega| (p.maxRpm * (2 * Real.pi / 60) + p.step * (p.maxTorque / p.inertia) / 3) := by
    intro h; rw [h]; exact le_max_left _ _
  have hpi : 0 < 2 * Real.pi / 60 := by have := Real.pi_pos; positivity
  have hlim : |w.ode.limit| ≤ p.maxRpm * (2 * Real.pi / 60) := by
    rw [s.odeLimit, rpm_eq, abs_mul, abs_of_pos hpi]
    exact mul_le_mul_of_nonneg_right s.limit hpi.le
  cases o with
  | targetRw t =>
    obtain rfl := Res.ok.inj ha
    exact same (by rw [setTargetRw_eq w (by rw [s.inertia]; exact hJ) (by rw [s.maxTorque]; exact hM)])
  | targetB t =>
    obtain rfl := Res.ok.inj ha
    exact same (by rw [Wheel.setTargetB, setTargetRw_eq w (by rw [s.inertia]; exact hJ) (by rw [s.maxTorque]; exact hM)])
  | limit l => obtain rfl := Res.ok.inj ha; exact same rfl
  | drive b => obtain rfl := Res.ok.inj ha; exact same rfl
  | powerOff => obtain rfl := Res.ok.inj ha; exact same rfl
  | main =>
    simp only [Wheel.apply] at ha
    by_cases hd : w.drive = true
    · rcases hb : w.buffer with _ | ⟨front, rest⟩
      · have := s.buffer; rw [hb] at this; simp at this
      · obtain ⟨x, y, hy, h0, -, -, -, -, -, -, -, -, -, -, -, -, -, -, -, -, -, h18, -⟩ :=
          main_drive w hd front rest hb (by rw [s.lagStep]; exact hh) (by rw [s.lagConstant]; exact hτ) s.lagGain
        rw [h0] at ha
        obtain rfl := Res.ok.inj ha
        have hyb : |y| ≤ p.maxTorque / p.inertia := by
          rw [hy, s.lagStep, s.lagConstant]
          exact lag_bound _ _ _ _ _ hh hτ s.lagBound (s.bufferBound _ (by rw [hb]; simp))
        rw [h18, s.odeStep, s.odeOmega]
        refine (spin_bound _ _ _ _ hh).trans (max_le_max le_rfl ?_)
        have := mul_le_mul_of_nonneg_left hyb hh.le
        linarith
    · obtain ⟨x, h0, -, -, -, -, -, -, -, -, -, -, -, -, -, -, -, -, -, h18, -⟩ := main_coast w (by simpa using hd)
      rw [h0] at ha
      obtain rfl := Res.ok.inj ha
      refine le_trans ?_ (le_max_left _ _)
      rw [h18]
      split_ifs with hs
      · simp
      · rw [s.stopLimit, not_lt] at hs
        obtain ⟨f0, f1⟩ := hf |w.omega| (abs_nonneg _) hs
        rw [s.odeStep, s.odeOmega]
        obtain ⟨θ, t0, t1, e⟩ := spin_between w.ode.limit p.step w.omega (coastAcceleration w) hh
        rw [e, coastAcceleration, s.friction]
        generalize poly p.friction |w.omega| = f at f0 f1
        have hf0 : 0 ≤ p.step * f := mul_nonneg hh.le f0
        have g0 : 0 ≤ θ * (p.step * f) := mul_nonneg t0 hf0
        have g1 : θ * (p.step * f) ≤ 2 * |w.omega| := (mul_le_of_le_one_left hf0 t1).trans f1
        rcases lt_or_ge 0 w.omega with hw | hw
        · rw [if_pos hw]
          rw [abs_of_pos hw] at g1 ⊢
          rw [abs_le]; constructor <;> nlinarith
        · rw [if_neg (not_lt.2 hw)]
          rw [abs_of_nonpos hw] at g1 ⊢
          rw [abs_le]; constructor <;> nlinarith

/-- **C117.** Whatever calls are made — commands, changes of the limit, driving, free running, power off — the speed never exceeds the larger of
the initial speed and the maximum speed plus a third of what the maximum torque adds in one step. No call is undefined. -/
theorem C117_speed_limit (p : WheelParams) (hh : 0 < p.step) (hJ : 0 < p.inertia) (hM : 0 ≤ p.maxTorque) (hR : 0 ≤ p.maxRpm)
    (hτ : 0 ≤ p.timeConstant) (hf : MildFriction p) (w0 : Wheel) (h0 : Wheel.new p = .ok w0) (ops : List Op) :
    ∃ w, Wheel.run ops w0 = .ok w ∧
      |w.omega| ≤ max |p.initial| (p.maxRpm * (2 * Real.pi / 60) + p.step * (p.maxTorque / p.inertia) / 3) := by
  have s0 := new_sound hJ hM hR h0
  have e0 : w0.omega = p.initial := by obtain ⟨_, _, rfl⟩ := new_ok h0; rfl
  rw [← e0]
  clear e0 h0
  induction ops generalizing w0 with
  | nil => exact ⟨w0, rfl, le_max_left _ _⟩
  | cons o ops ih =>
    obtain ⟨w1, h1, s1⟩ := apply_sound hh hJ hM hR hτ s0 o
    obtain ⟨w2, h2, b2⟩ := ih w1 s1
    refine ⟨w2, by simp only [Wheel.run, h1, Res.bind, h2], b2.trans (max_le ?_ (le_max_right _ _))⟩
    exact apply_speed hh hJ hM hτ hf s0 o h1

/-- The bound is attained: the wheel overshoots its maximum speed. -/
theorem C117_overshoot (p : WheelParams) (hdrive : p.drive = true) (hh : 0 < p.step) (hJ : 0 < p.inertia) (hM : 0 < p.maxTorque)
    (hR : 0 ≤ p.maxRpm) (hτ : p.timeConstant = 0) (hd : p.deadTime = 0)
    (hi : p.initial = p.maxRpm * (2 * Real.pi / 60) - p.step * (p.maxTorque / p.inertia) / 2) :
    ∃ w0, Wheel.new p = .ok w0 ∧ ∃ w, Wheel.run [.targetRw p.maxTorque, .main, .main] w0 = .ok w ∧
      w.omega = p.maxRpm * (2 * Real.pi / 60) + p.step * (p.maxTorque / p.inertia) / 3 := by
  have hnew : ∃ w0, Wheel.new p = .ok w0 := by
    unfold Wheel.new
    rw [if_neg hh.ne', hd]
    simp
  obtain ⟨w0, h0⟩ := hnew
  have s0 := new_sound hJ hM.le hR h0
  refine ⟨w0, h0, ?_⟩
  have e1 := setTargetRw_eq w0 (by rw [s0.inertia]; exact hJ) (by rw [s0.maxTorque]; exact hM.le) p.maxTorque
  set v1 := w0.setTargetRw p.maxTorque with hv1
  have sv1 : Sound p v1 := setTargetRw_sound hJ hM.le s0 _
  have v1t : v1.target = p.maxTorque / p.inertia := by rw [e1, s0.maxTorque, s0.inertia, clamp_id _ _ (abs_of_pos hM).le]
  have v1d : v1.drive = true := by rw [e1]; obtain ⟨_, _, rfl⟩ := new_ok h0; exact hdrive
  have v1b : v1.buffer = [0] := by rw [e1]; obtain ⟨_, _, rfl⟩ := new_ok h0; simp [hd]
  have v1o : v1.omega = p.initial := by rw [e1]; obtain ⟨_, _, rfl⟩ := new_ok h0; rfl
  have v1l : v1.limitRpm = p.maxRpm := by rw [e1]; obtain ⟨_, _, rfl⟩ := new_ok h0; rfl
  obtain ⟨v2, y2, hy2, a0, a1, a2, a3, a4, -, -, -, -, -, -, -, -, a13, -, -, a16, -, a18, -⟩ :=
    main_drive v1 v1d 0 [] v1b (by rw [sv1.lagStep]; exact hh) (by rw [sv1.lagConstant]; exact hτ.ge) sv1.lagGain
  have sv2 : Sound p v2 := by
    obtain ⟨x, hx, sx⟩ := apply_sound hh hJ hM.le hR hτ.ge sv1 .main
    simp only [Wheel.apply, a0] at hx
    exact Res.ok.inj hx ▸ sx
  have y20 : y2 = 0 := by rw [hy2, sv1.lagConstant, hτ]; simp
  have v2o : v2.omega = p.initial := by rw [a18, y20, spin_zero, sv1.odeOmega, v1o]
  have v2b : v2.buffer = [p.maxTorque / p.inertia] := by rw [a1, v1t]; rfl
  obtain ⟨v3, y3, hy3, b0, -, -, -, -, -, -, -, -, -, -, -, -, -, -, -, -, -, b18, -⟩ :=
    main_drive v2 (by rw [a13]; exact v1d) _ [] v2b (by rw [sv2.lagStep]; exact hh) (by rw [sv2.lagConstant]; exact hτ.ge) sv2.lagGain
  have y3e : y3 = p.maxTorque / p.inertia := by
    rw [hy3, sv2.lagConstant, hτ, sv2.lagStep]; field_simp; ring
  refine ⟨v3, by simp only [Wheel.run, Wheel.apply, Res.bind, ← hv1, a0, b0], ?_⟩
  have hA : 0 < p.maxTorque / p.inertia := by positivity
  have hhA := mul_pos hh hA
  rw [b18, sv2.odeLimit, sv2.odeStep, sv2.odeOmega, a4, v1l, v2o, y3e, hi, rpm_eq, spin_pos _ _ _ _ hA hh]
  generalize p.step * (p.maxTorque / p.inertia) = x at hhA ⊢
  generalize p.maxRpm * (2 * Real.pi / 60) = L
  rw [if_neg (by linarith), if_neg (by linarith), if_pos (by linarith)]
  ring

/-- A wheel as in `C117_overshoot`: 3000 rpm at most, 0.1 Nm, 0.01 kgm², friction without effect. -/
noncomputable def exampleFast : WheelParams where
  step := 0.1
  inertia := 0.01
  maxTorque := 0.1
  maxRpm := 3000
  b2c := ⟨0, 0, 0, 1⟩
  position := fun _ => 0
  deadTime := 0
  timeConstant := 0
  friction := [0.1, 0.001]
  stopLimit := 0.1
  drive := true
  initial := 3000 * (2 * Real.pi / 60) - 0.1 * (0.1 / 0.01) / 2

example : MildFriction exampleFast ∧ ∃ w0, Wheel.new exampleFast = .ok w0 ∧
    ∃ w, Wheel.run [.targetRw exampleFast.maxTorque, .main, .main] w0 = .ok w ∧ w.omega > exampleFast.maxRpm * (2 * Real.pi / 60) := by
  constructor
  · intro v hv hs
    simp only [exampleFast] at hs
    simp only [exampleFast, poly]
    norm_num at hs ⊢
    constructor <;> nlinarith
  · obtain ⟨w0, h0, w, h1, h2⟩ := C117_overshoot exampleFast rfl (by norm_num [exampleFast]) (by norm_num [exampleFast])
      (by norm_num [exampleFast]) (by norm_num [exampleFast]) rfl rfl rfl
    refine ⟨w0, h0, w, h1, ?_⟩
    rw [h2]
    have : 0 < exampleFast.step * (exampleFast.maxTorque / exampleFast.inertia) / 3 := by norm_num [exampleFast]
    linarith

/-! ## C118 free running -/

theorem poly_mono (l : List ℝ) (hl : ∀ c ∈ l, 0 ≤ c) {a b : ℝ} (ha : 0 ≤ a) (hab : a ≤ b) : 0 ≤ poly l a ∧ poly l a ≤ poly l b := by
  induction l with
  | nil => simp [poly]
  | cons c cs ih =>
    obtain ⟨i1, i2⟩ := ih fun x hx => hl x (List.mem_cons_of_mem _ hx)
    have hc := hl c (List.mem_cons_self ..)
    simp only [poly]
    constructor
    · positivity
    · have := mul_le_mul hab i2 i1 (ha.trans hab)
      linarith

/-- One update of a free wheel whose friction is mild: the speed falls below the stop limit, or by the friction at the stop limit. -/
theorem coast_step {p : WheelParams} {w : Wheel} (s : Sound p w) (hd : w.drive = false) (hh : 0 < p.step) (hJ : 0 < p.inertia)
    (hM : 0 ≤ p.maxTorque) (hR : 0 ≤ p.maxRpm) (hτ : 0 ≤ p.timeConstant) (h0 : 0 < p.stopLimit)
    (hL : p.stopLimit ≤ w.limitRpm * (2 * Real.pi / 60)) (hc : ∀ c ∈ p.friction, 0 ≤ c)
    (hf : ∀ v, p.stopLimit ≤ v → p.step * poly p.friction v < v + p.stopLimit) :
    ∃ w', w.main = .ok w' ∧ Sound p w' ∧ w'.drive = false ∧ w'.limitRpm = w.limitRpm ∧ |w'.omega| ≤ |w.omega| ∧
      (|w.omega| < p.stopLimit → w'.omega = 0) ∧
      (p.stopLimit ≤ |w.omega| → |w'.omega| < p.stopLimit ∨ |w'.omega| ≤ |w.omega| - p.step * poly p.friction p.stopLimit) ∧
      w'.torque = scale (-1 * p.inertia * ((w'.omega - w.omega) / p.step)) (p.b2c.inverseFrameConversion ![0, 0, 1]) := by
  obtain ⟨w', g0, -, -, -, g4, -, -, -, -, -, -, -, -, g13, -, -, -, -, g18, g19, -⟩ := main_coast w hd
  obtain ⟨x, hx, sx⟩ := apply_sound hh hJ hM hR hτ s .main
  simp only [Wheel.apply, g0] at hx
  obtain rfl := Res.ok.inj hx
  refine ⟨w', g0, sx, by rw [g13, hd], g4, ?_⟩
  rw [g19, s.inertia, s.step, s.axis]
  rw [s.odeLimit, s.odeStep, s.odeOmega, s.stopLimit, rpm_eq] at g18
  by_cases hs : |w.omega| < p.stopLimit
  · rw [if_pos hs] at g18
    refine ⟨by rw [g18, abs_zero]; exact abs_nonneg _, fun _ => g18, fun h => absurd hs (not_lt.2 h), rfl⟩
  · rw [if_neg hs] at g18
    rw [not_lt] at hs
    have m := (poly_mono p.friction hc h0.le hs)
    have f1 := hf _ hs
    have e : w'.omega = w.omega + p.step * coastAcceleration w ∨ |w'.omega| < p.stopLimit ∧ |w'.omega| ≤ |w.omega| := by
      obtain ⟨θ, t0, t1, e⟩ := spin_between (w.limitRpm * (2 * Real.pi / 60)) p.step w.omega (coastAcceleration w) hh
      by_cases hin : |w.omega + p.step * coastAcceleration w| ≤ w.limitRpm * (2 * Real.pi / 60) ∧ |w.omega| ≤ w.limitRpm * (2 * Real.pi / 60)
      · left; rw [g18, spin_free _ _ _ _ hh hin.2 hin.1]
      · left
        rw [g18]
        have hL0 : 0 ≤ w.limitRpm * (2 * Real.pi / 60) := h0.le.trans hL
        generalize w.limitRpm * (2 * Real.pi / 60) = L at *
        rw [coastAcceleration, s.friction] at *
        generalize poly p.friction |w.omega| = f at *
        have hf0 : 0 ≤ f := m.1.trans m.2
        have hhf : 0 ≤ p.step * f := mul_nonneg hh.le hf0
        rcases lt_or_ge 0 w.omega with hw | hw
        · rw [if_pos hw] at *
          rw [abs_of_pos hw] at *
          rcases hf0.eq_or_lt with hz | hz
          · rw [← hz]; simp [spin_zero]
          · rw [spin_neg _ _ _ _ hL0 (by linarith) hh, if_neg (by linarith), if_neg (by nlinarith), if_neg (by nlinarith)]
        · rw [if_neg (not_lt.2 hw)] at *
          rw [abs_of_nonpos hw] at *
          rcases hf0.eq_or_lt with hz | hz
          · rw [← hz]; simp [spin_zero]
          · rw [spin_pos _ _ _ _ (by linarith) hh, if_neg (by linarith), if_neg (by nlinarith), if_neg (by nlinarith)]
    rcases e with e | ⟨e1, e2⟩
    · rw [coastAcceleration, s.friction] at e
      have hstep := mul_le_mul_of_nonneg_left m.2 hh.le
      have hstep0 := mul_nonneg hh.le m.1
      generalize hF : poly p.friction |w.omega| = f at *
      generalize poly p.friction p.stopLimit = g at *
      refine ⟨?_, fun h => absurd h (not_lt.2 hs), fun _ => ?_, rfl⟩
      · rcases lt_or_ge 0 w.omega with hw | hw
        · rw [if_pos hw] at e
          rw [e]
          rw [abs_of_pos hw] at *
          rw [abs_le]; constructor <;> nlinarith
        · rw [if_neg (not_lt.2 hw)] at e
          rw [e]
          rw [abs_of_nonpos hw] at *
          rw [abs_le]; constructor <;> nlinarith
      · rcases lt_or_ge 0 w.omega with hw | hw
        · rw [if_pos hw] at e
          rw [e]
          rw [abs_of_pos hw] at *
          by_cases hsg : 0 ≤ w.omega + p.step * (f * -1)
          · right; rw [abs_of_nonneg hsg]; linarith
          · left; rw [abs_of_neg (not_le.1 hsg)]; linarith
        · rw [if_neg (not_lt.2 hw)] at e
          rw [e]
          rw [abs_of_nonpos hw] at *
          by_cases hsg : w.omega + p.step * (f * 1) ≤ 0
          · right; rw [abs_of_nonpos hsg]; linarith
          · left; rw [abs_of_pos (not_le.1 hsg)]; linarith
    · exact ⟨e2, fun h => absurd h (not_lt.2 hs), fun _ => Or.inl e1, rfl⟩

/-- **C118.** A wheel that runs freely, whose friction has non-negative coefficients, is not zero at the stop limit and takes in one step less than
the speed plus the stop limit, slows down at every update, stands still after a number of updates that the speed, the step and the friction
bound, and from the next update on no longer gives a torque. -/
theorem C118_stops (p : WheelParams) (hh : 0 < p.step) (hJ : 0 < p.inertia) (hM : 0 ≤ p.maxTorque) (hR : 0 ≤ p.maxRpm)
    (hτ : 0 ≤ p.timeConstant) (h0 : 0 < p.stopLimit) (hc : ∀ c ∈ p.friction, 0 ≤ c) (hpos : 0 < poly p.friction p.stopLimit)
    (hf : ∀ v, p.stopLimit ≤ v → p.step * poly p.friction v < v + p.stopLimit) (w0 : Wheel) (hnew : Wheel.new p = .ok w0) (ops : List Op)
    (w : Wheel) (hw : Wheel.run ops w0 = .ok w) (hd : w.drive = false) (hL : p.stopLimit ≤ w.limitRpm * (2 * Real.pi / 60)) (n : ℕ) :
    ∃ w', Wheel.run (List.replicate n .main) w = .ok w' ∧ |w'.omega| ≤ |w.omega| ∧
      (|w.omega| / (p.step * poly p.friction p.stopLimit) + 1 < n → w'.omega = 0) ∧
      (|w.omega| / (p.step * poly p.friction p.stopLimit) + 2 < n → w'.torque = fun _ => 0) := by
  obtain ⟨w1, hw1, s⟩ := run_sound hh hJ hM hR hτ ops (new_sound hJ hM hR hnew)
  rw [hw] at hw1
  obtain rfl := Res.ok.inj hw1
  have hq : 0 < p.step * poly p.friction p.stopLimit := mul_pos hh hpos
  have key : ∀ n : ℕ, ∃ w', Wheel.run (List.replicate n .main) w = .ok w' ∧ Sound p w' ∧ w'.drive = false ∧ w'.limitRpm = w.limitRpm ∧
      |w'.omega| ≤ |w.omega| ∧ (|w'.omega| < p.stopLimit ∨ |w'.omega| ≤ |w.omega| - n * (p.step * poly p.friction p.stopLimit)) ∧
      ((∃ m : ℕ, n = m + 1 ∧ |w.omega| / (p.step * poly p.friction p.stopLimit) < m) → w'.omega = 0) ∧
      ((∃ m : ℕ, n = m + 2 ∧ |w.omega| / (p.step * poly p.friction p.stopLimit) < m) → w'.torque = fun _ => 0) := by
    intro n
    induction n with
    | zero =>
      refine ⟨w, rfl, s, hd, rfl, le_rfl, Or.inr (by simp), ?_, ?_⟩
      · rintro ⟨m, hm, _⟩; omega
      · rintro ⟨m, hm, _⟩; omega
    | succ n ih =>
      obtain ⟨v, v0, v1, v2, v3, v4, v5, v6, v7⟩ := ih
      obtain ⟨x, x0, x1, x2, x3, x4, x5, x6, x7⟩ := coast_step v1 v2 hh hJ hM hR hτ h0 (by rw [v3]; exact hL) hc hf
      refine ⟨x, ?_, x1, x2, by rw [x3, v3], x4.trans v4, ?_, ?_, ?_⟩
      · rw [List.replicate_succ', run_append, v0]
        simp only [Res.bind, Wheel.run, Wheel.apply, x0]
      · rcases lt_or_ge |v.omega| p.stopLimit with h | h
        · left; rw [x5 h, abs_zero]; exact h0
        · rcases x6 h with g | g
          · exact Or.inl g
          · rcases v5 with v5 | v5
            · exact absurd v5 (not_lt.2 h)
            · right; push_cast; linarith
      · rintro ⟨m, hm, hlt⟩
        obtain rfl : m = n := by omega
        apply x5
        rcases v5 with v5 | v5
        · exact v5
        · rw [div_lt_iff₀ hq] at hlt
          have := abs_nonneg v.omega
          linarith
      · rintro ⟨m, hm, hlt⟩
        have hv := v6 ⟨m, by omega, hlt⟩
        have hx : x.omega = 0 := x5 (by rw [hv, abs_zero]; exact h0)
        rw [x7, hx, hv]
        funext i; simp [scale]
  obtain ⟨w', g0, -, -, -, g4, -, g6, g7⟩ := key n
  refine ⟨w', g0, g4, ?_, ?_⟩
  · intro hn
    have : 0 ≤ |w.omega| / (p.step * poly p.friction p.stopLimit) := by positivity
    have hn1 : 1 ≤ n := by
      have : (1 : ℝ) < n := by linarith
      exact_mod_cast this.le
    refine g6 ⟨n - 1, by omega, ?_⟩
    rw [Nat.cast_sub hn1]; push_cast; linarith
  · intro hn
    have : 0 ≤ |w.omega| / (p.step * poly p.friction p.stopLimit) := by positivity
    have hn1 : 2 ≤ n := by
      have : (2 : ℝ) < n := by linarith
      exact_mod_cast this.le
    refine g7 ⟨n - 2, by omega, ?_⟩
    rw [Nat.cast_sub hn1]; push_cast; linarith

/-- A free wheel as in `C118_stops`. -/
noncomputable def exampleCoast : WheelParams := { exampleFast with drive := false, initial := 100 }

example : ∃ w0, Wheel.new exampleCoast = .ok w0 ∧ ∃ w, Wheel.run (List.replicate 20000 .main) w0 = .ok w ∧ w.omega = 0 ∧
    w.torque = fun _ => 0 := by
  have hnew : ∃ w0, Wheel.new exampleCoast = .ok w0 := by
    unfold Wheel.new
    rw [if_neg (by norm_num [exampleCoast, exampleFast])]
    simp [exampleCoast, exampleFast]
  obtain ⟨w0, h0⟩ := hnew
  have hpi := Real.pi_gt_three
  have e1 : w0.omega = 100 := by obtain ⟨_, _, rfl⟩ := new_ok h0; rfl
  have hb : |w0.omega| / (exampleCoast.step * poly exampleCoast.friction exampleCoast.stopLimit) + 2 < (20000 : ℕ) := by
    rw [e1]; norm_num [exampleCoast, exampleFast, poly, abs_of_pos]
  obtain ⟨w, h1, _, h2, h3⟩ := C118_stops exampleCoast (by norm_num [exampleCoast, exampleFast]) (by norm_num [exampleCoast, exampleFast])
    (by norm_num [exampleCoast, exampleFast]) (by norm_num [exampleCoast, exampleFast]) (by norm_num [exampleCoast, exampleFast])
    (by norm_num [exampleCoast, exampleFast]) (by simp [exampleCoast, exampleFast]; norm_num) (by norm_num [exampleCoast, exampleFast, poly])
    (by
      intro v hv
      simp only [exampleCoast, exampleFast, poly] at hv ⊢
      norm_num at hv ⊢
      nlinarith) w0 h0 [] w0 rfl (by obtain ⟨_, _, rfl⟩ := new_ok h0; rfl)
    (by
      have : w0.limitRpm = 3000 := by obtain ⟨_, _, rfl⟩ := new_ok h0; rfl
      rw [this]; norm_num [exampleCoast, exampleFast]; linarith) 20000
  exact ⟨w0, h0, w, h1, h2 (by linarith), h3 hb⟩

/-- With too strong a friction for the step width the free wheel never stops: a constant friction of twice the speed per step reverses the
rotation at every update, for ever. -/
theorem C118_oscillates (p : WheelParams) (hh : 0 < p.step) (hJ : 0 < p.inertia) (hM : 0 ≤ p.maxTorque) (hR : 0 ≤ p.maxRpm)
    (hτ : 0 ≤ p.timeConstant) (hd : p.drive = false) (hv : 0 < p.initial) (hs : p.stopLimit ≤ p.initial) (hfr : p.friction = [2 * p.initial / p.step])
    (hL : p.initial ≤ p.maxRpm * (2 * Real.pi / 60)) (w0 : Wheel) (hnew : Wheel.new p = .ok w0) (n : ℕ) :
    ∃ w, Wheel.run (List.replicate n .main) w0 = .ok w ∧ w.omega = (-1) ^ n * p.initial := by
  have key : ∃ w, Wheel.run (List.replicate n .main) w0 = .ok w ∧ Sound p w ∧ w.drive = false ∧ w.limitRpm = p.maxRpm ∧
      w.omega = (-1) ^ n * p.initial := by
    induction n with
    | zero =>
      refine ⟨w0, rfl, new_sound hJ hM hR hnew, ?_⟩
      obtain ⟨_, _, rfl⟩ := new_ok hnew
      exact ⟨hd, rfl, by simp⟩
    | succ n ih =>
      obtain ⟨w, h1, s, h2, h3, h4⟩ := ih
      obtain ⟨w', g0, -, -, -, g4, -, -, -, -, -, -, -, -, g13, -, -, -, -, g18, -⟩ := main_coast w h2
      obtain ⟨x, hx, sx⟩ := apply_sound hh hJ hM hR hτ s .main
      simp only [Wheel.apply, g0] at hx
      obtain rfl := Res.ok.inj hx
      refine ⟨w', by rw [List.replicate_succ', run_append, h1]; simp only [Res.bind, Wheel.run, Wheel.apply, g0], sx, by rw [g13, h2],
        by rw [g4, h3], ?_⟩
      have habs : |w.omega| = p.initial := by rw [h4, abs_mul, abs_pow]; simp [abs_of_pos hv]
      rw [g18, if_neg (by rw [habs, s.stopLimit]; exact not_lt.2 hs), s.odeLimit, s.odeStep, s.odeOmega, h3, rpm_eq]
      have e : p.step * coastAcceleration w = -2 * w.omega := by
        rw [coastAcceleration, s.friction, hfr, habs]
        simp only [poly, mul_zero, add_zero]
        rcases lt_or_ge 0 w.omega with hw | hw
        · rw [if_pos hw]; rw [abs_of_pos hw] at habs; rw [habs]; field_simp
        · rw [if_neg (not_lt.2 hw)]; rw [abs_of_nonpos hw] at habs
          have : p.initial = -w.omega := habs.symm
          rw [this]; field_simp
      have e2 : w.omega + p.step * coastAcceleration w = -w.omega := by rw [e]; ring
      rw [spin_free _ _ _ _ hh (by rw [habs]; exact hL) (by rw [e2, abs_neg, habs]; exact hL), e2, h4, pow_succ]
      ring
  obtain ⟨w, h1, -, -, -, h5⟩ := key
  exact ⟨w, h1, h5⟩

/-- With stop limit zero, friction sets a resting wheel in motion. -/
theorem C118_rest (p : WheelParams) (hh : 0 < p.step) (hJ : 0 < p.inertia) (hM : 0 ≤ p.maxTorque) (hR : 0 ≤ p.maxRpm)
    (hd : p.drive = false) (hv : p.initial = 0) (hs : p.stopLimit = 0) (c : ℝ) (hc : 0 < c) (hfr : p.friction = [c])
    (hL : p.step * c ≤ p.maxRpm * (2 * Real.pi / 60)) (w0 : Wheel) (hnew : Wheel.new p = .ok w0) :
    ∃ w, w0.main = .ok w ∧ w.omega = p.step * c ∧ 0 < w.omega := by
  have s := new_sound hJ hM hR hnew
  have e1 : w0.drive = false := by obtain ⟨_, _, rfl⟩ := new_ok hnew; exact hd
  have e2 : w0.omega = 0 := by obtain ⟨_, _, rfl⟩ := new_ok hnew; exact hv
  have e3 : w0.limitRpm = p.maxRpm := by obtain ⟨_, _, rfl⟩ := new_ok hnew; rfl
  obtain ⟨w', g0, -, -, -, g4, -, -, -, -, -, -, -, -, g13, -, -, -, -, g18, -⟩ := main_coast w0 e1
  have e4 : coastAcceleration w0 = c := by rw [coastAcceleration, s.friction, hfr, e2]; simp [poly]
  have e5 : w'.omega = p.step * c := by
    have hp := mul_pos hh hc
    rw [g18, if_neg (by rw [s.stopLimit, hs]; exact not_lt.2 (abs_nonneg _)), s.odeLimit, s.odeStep, s.odeOmega, e3, rpm_eq, e4, e2,
      spin_free _ _ _ _ hh (by rw [abs_zero]; exact hp.le.trans hL) (by rw [zero_add, abs_of_pos hp]; exact hL), zero_add]
  exact ⟨w', g0, e5, by rw [e5]; exact mul_pos hh hc⟩

/-! ## C119 balance of angular momentum -/

/-- The impulse on the body: the sum over all updates in the history of the torque reported after the update times the step width. -/
noncomputable def impulse : List Op → Wheel → Vec 3
  | [], _ => fun _ => 0
  | o :: rest, w =>
    match w.apply o with
    | .ok w' => vadd (match o with | .main => scale w.step w'.torque | _ => fun _ => 0) (impulse rest w')
    | _ => fun _ => 0

theorem main_balance {p : WheelParams} {w w' : Wheel} (hh : 0 < p.step) (hτ : 0 ≤ p.timeConstant) (s : Sound p w) (h : w.main = .ok w') :
    w'.torque = scale (-1 * p.inertia * ((w'.omega - w.omega) / p.step)) (p.b2c.inverseFrameConversion ![0, 0, 1]) ∧
      w'.momentum = scale (p.inertia * w'.omega) (p.b2c.inverseFrameConversion ![0, 0, 1]) := by
  by_cases hd : w.drive = true
  · rcases hb : w.buffer with _ | ⟨front, rest⟩
    · have := s.buffer; rw [hb] at this; simp at this
    · obtain ⟨x, y, hy, h0, -, -, -, -, -, -, -, -, -, -, -, -, -, -, -, -, -, -, h19, h20⟩ :=
        main_drive w hd front rest hb (by rw [s.lagStep]; exact hh) (by rw [s.lagConstant]; exact hτ) s.lagGain
      rw [h] at h0
      obtain rfl := Res.ok.inj h0
      rw [h19, h20, s.inertia, s.step, s.axis]
      exact ⟨rfl, rfl⟩
  · obtain ⟨x, h0, -, -, -, -, -, -, -, -, -, -, -, -, -, -, -, -, -, -, h19, h20⟩ := main_coast w (by simpa using hd)
    rw [h] at h0
    obtain rfl := Res.ok.inj h0
    rw [h19, h20, s.inertia, s.step, s.axis]
    exact ⟨rfl, rfl⟩

theorem other_same {p : WheelParams} {w w' : Wheel} (hJ : 0 < p.inertia) (hM : 0 ≤ p.maxTorque) (s : Sound p w) (o : Op) (ho : o ≠ .main)
    (h : w.apply o = .ok w') : w'.omega = w.omega ∧ w'.torque = w.torque ∧ w'.momentum = w.momentum := by
  cases o with
  | targetRw t =>
    obtain rfl := Res.ok.inj h
    rw [setTargetRw_eq w (by rw [s.inertia]; exact hJ) (by rw [s.maxTorque]; exact hM)]
    exact ⟨rfl, rfl, rfl⟩
  | targetB t =>
    obtain rfl := Res.ok.inj h
    rw [Wheel.setTargetB, setTargetRw_eq w (by rw [s.inertia]; exact hJ) (by rw [s.maxTorque]; exact hM)]
    exact ⟨rfl, rfl, rfl⟩
  | limit l => obtain rfl := Res.ok.inj h; exact ⟨rfl, rfl, rfl⟩
  | drive b => obtain rfl := Res.ok.inj h; exact ⟨rfl, rfl, rfl⟩
  | powerOff => obtain rfl := Res.ok.inj h; exact ⟨rfl, rfl, rfl⟩
  | main => exact absurd rfl ho

/-- **C119.** In every history of calls the impulse on the body is minus the change of `J ω` along the rotation axis, also where the wheel is
limited, brakes or is stopped by the stop limit. The reported angular momentum is `J ω` along the axis after the first update. -/
theorem C119_momentum (p : WheelParams) (hh : 0 < p.step) (hJ : 0 < p.inertia) (hM : 0 ≤ p.maxTorque) (hR : 0 ≤ p.maxRpm)
    (hτ : 0 ≤ p.timeConstant) (w0 : Wheel) (h0 : Wheel.new p = .ok w0) (ops : List Op) :
    ∃ w, Wheel.run ops w0 = .ok w ∧ impulse ops w0 = scale (-(p.inertia * (w.omega - p.initial))) (p.b2c.inverseFrameConversion ![0, 0, 1]) ∧
      (Op.main ∈ ops → w.momentum = scale (p.inertia * w.omega) (p.b2c.inverseFrameConversion ![0, 0, 1])) ∧
      (Op.main ∉ ops → w.momentum = fun _ => 0) := by
  have s0 := new_sound hJ hM hR h0
  have e0 : w0.omega = p.initial := by obtain ⟨_, _, rfl⟩ := new_ok h0; rfl
  have m0 : w0.momentum = fun _ => 0 := by obtain ⟨_, _, rfl⟩ := new_ok h0; rfl
  set A := p.b2c.inverseFrameConversion ![0, 0, 1] with hA
  have key : ∀ (ops : List Op) (v : Wheel), Sound p v → ∃ w, Wheel.run ops v = .ok w ∧
      impulse ops v = scale (-(p.inertia * (w.omega - v.omega))) A ∧
      (v.momentum = scale (p.inertia * v.omega) A → w.momentum = scale (p.inertia * w.omega) A) ∧
      (Op.main ∈ ops → w.momentum = scale (p.inertia * w.omega) A) ∧ (Op.main ∉ ops → w.momentum = v.momentum) := by
    intro ops
    induction ops with
    | nil =>
      intro v _
      refine ⟨v, rfl, by simp only [impulse]; funext i; simp [scale], id, by simp⟩
    | cons o ops ih =>
      intro v sv
      obtain ⟨v1, h1, s1⟩ := apply_sound hh hJ hM hR hτ sv o
      obtain ⟨w, h2, i2, k2, m2, m3⟩ := ih v1 s1
      refine ⟨w, by simp only [Wheel.run, h1, Res.bind, h2], ?_⟩
      by_cases ho : o = .main
      · subst ho
        obtain ⟨t1, t2⟩ := main_balance hh hτ sv h1
        have k := k2 t2
        refine ⟨?_, fun _ => k, ?_⟩
        · simp only [impulse, h1]
          rw [i2, t1, sv.step]
          funext i
          simp only [vadd, scale, hA]
          field_simp
          ring
        · exact ⟨fun _ => k, fun h => absurd (List.mem_cons_self ..) h⟩
      · obtain ⟨q1, q2, q3⟩ := other_same hJ hM sv o ho h1
        refine ⟨?_, fun hk => k2 (by rw [q3, q1]; exact hk), ?_⟩
        · have : impulse (o :: ops) v = impulse ops v1 := by
            simp only [impulse, h1]
            cases o <;> first | exact absurd rfl ho | (funext i; simp [vadd])
          rw [this, i2, q1]
        · refine ⟨fun h => m2 ?_, fun h => (m3 fun h' => h (List.mem_cons_of_mem _ h')).trans q3⟩
          rcases List.mem_cons.1 h with h | h
          · exact absurd h.symm ho
          · exact h
  obtain ⟨w, k1, k2, -, k4, k5⟩ := key ops w0 s0
  exact ⟨w, k1, by rw [k2, e0], k4, fun h => (k5 h).trans m0⟩

/-- While the wheel is without power, or gets commands only, it goes on reporting the torque, speed and momentum of its last update: a torque
that was not zero when the power failed acts on the body until the power returns. -/
theorem C119_power_off_stale (p : WheelParams) (hh : 0 < p.step) (hJ : 0 < p.inertia) (hM : 0 ≤ p.maxTorque) (hR : 0 ≤ p.maxRpm)
    (hτ : 0 ≤ p.timeConstant) (w0 : Wheel) (h0 : Wheel.new p = .ok w0) (ops : List Op) (w : Wheel) (hw : Wheel.run ops w0 = .ok w)
    (off : List Op) (hoff : Op.main ∉ off) :
    ∃ w', Wheel.run off w = .ok w' ∧ w'.torque = w.torque ∧ w'.omega = w.omega ∧ w'.momentum = w.momentum := by
  obtain ⟨w1, hw1, s⟩ := run_sound hh hJ hM hR hτ ops (new_sound hJ hM hR h0)
  rw [hw] at hw1
  obtain rfl := Res.ok.inj hw1
  clear hw
  induction off generalizing w with
  | nil => exact ⟨w, rfl, rfl, rfl, rfl⟩
  | cons o off ih =>
    obtain ⟨v1, h1, s1⟩ := apply_sound hh hJ hM hR hτ s o
    obtain ⟨q1, q2, q3⟩ := other_same hJ hM s o (fun h => hoff (h ▸ List.mem_cons_self ..)) h1
    obtain ⟨w', r0, r1, r2, r3⟩ := ih v1 (fun h => hoff (List.mem_cons_of_mem _ h)) rfl s1
    exact ⟨w', by simp only [Wheel.run, h1, Res.bind, r0], by rw [r1, q2], by rw [r2, q1], by rw [r3, q3]⟩

/-- A wheel whose power fails while it brakes: the torque stays. -/
theorem C119_stale_witness (n : ℕ) : ∃ w0, Wheel.new exampleCoast = .ok w0 ∧ ∃ w w', w0.main = .ok w ∧
    Wheel.run (List.replicate n .powerOff) w = .ok w' ∧ w'.torque = w.torque ∧ w.torque 2 = 1 / 500 := by
  have hnew : ∃ w0, Wheel.new exampleCoast = .ok w0 := by
    unfold Wheel.new
    rw [if_neg (by norm_num [exampleCoast, exampleFast])]
    simp [exampleCoast, exampleFast]
  obtain ⟨w0, h0⟩ := hnew
  have a1 : 0 < exampleCoast.step := by norm_num [exampleCoast, exampleFast]
  have a2 : 0 < exampleCoast.inertia := by norm_num [exampleCoast, exampleFast]
  have a3 : 0 ≤ exampleCoast.maxTorque := by norm_num [exampleCoast, exampleFast]
  have a4 : 0 ≤ exampleCoast.maxRpm := by norm_num [exampleCoast, exampleFast]
  have a5 : 0 ≤ exampleCoast.timeConstant := by norm_num [exampleCoast, exampleFast]
  have s := new_sound a2 a3 a4 h0
  have e1 : w0.drive = false := by obtain ⟨_, _, rfl⟩ := new_ok h0; rfl
  have e2 : w0.omega = 100 := by obtain ⟨_, _, rfl⟩ := new_ok h0; rfl
  have e3 : w0.limitRpm = 3000 := by obtain ⟨_, _, rfl⟩ := new_ok h0; rfl
  obtain ⟨w, g0, -, -, -, -, -, -, -, -, -, -, -, -, -, -, -, -, -, g18, g19, -⟩ := main_coast w0 e1
  obtain ⟨w', r0, r1, -⟩ := C119_power_off_stale exampleCoast a1 a2 a3 a4 a5 w0 h0 [.main] w (by simp [Wheel.run, Wheel.apply, Res.bind, g0])
    (List.replicate n .powerOff) (by simp)
  refine ⟨w0, h0, w, w', g0, r0, r1, ?_⟩
  have hc : coastAcceleration w0 = -(1 / 5) := by
    rw [coastAcceleration, s.friction, e2]
    norm_num [exampleCoast, exampleFast, poly, abs_of_pos]
  have hpi := Real.pi_gt_three
  have ho : w.omega = 100 - 1 / 50 := by
    rw [g18, if_neg (by rw [e2, s.stopLimit]; norm_num [exampleCoast, exampleFast, abs_of_pos]), hc, s.odeLimit, s.odeStep, s.odeOmega, e2, e3, rpm_eq,
      spin_free]
    · norm_num [exampleCoast, exampleFast]
    · exact a1
    · rw [abs_of_pos (by norm_num)]; linarith
    · rw [abs_of_pos (by norm_num [exampleCoast, exampleFast])]; norm_num [exampleCoast, exampleFast]; linarith
  rw [g19, ho, e2, s.inertia, s.step, s.axis, inverse_explicit]
  have e : (![0, 0, 1] : Vec 3) 2 = 1 := rfl
  simp only [exampleCoast, exampleFast, scale, e]
  norm_num
  rfl

end S2E.Wheel
