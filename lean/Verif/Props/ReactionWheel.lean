import Verif.Model.ReactionWheel
import Verif.Spec.ReactionWheel
import Verif.Props.Quaternion3
import Mathlib.Algebra.BigOperators.Intervals
import Mathlib.Tactic.Linarith
import Mathlib.Tactic.FieldSimp
/-!
# C116–C119: the reaction wheel
-/
namespace S2E.Wheel
open WheelSpec

/-! ## One step of the wheel's equation -/

/-- The speed after one step, written out. -/
noncomputable def spin (L h ω a : ℝ) : ℝ :=
  let a1 := limitAcceleration L ω a
  let a2 := limitAcceleration L (ω + 1 / 2 * (a1 * h)) a1
  let a3 := limitAcceleration L (ω + 1 / 2 * (a2 * h)) a2
  let a4 := limitAcceleration L (ω + a3 * h) a3
  ω + 1 / 6 * (a1 * h + 2 * (a2 * h + a3 * h) + a4 * h)

theorem advance_omega (o : WheelOde) : o.advance.omega = spin o.limit o.step o.omega o.acceleration := rfl

theorem lim_pos (L ω a : ℝ) (ha : 0 < a) : limitAcceleration L ω a = if ω > L then 0 else a := by
  unfold limitAcceleration
  have := not_lt.2 ha.le
  split_ifs <;> first | rfl | linarith

theorem lim_zero (L ω : ℝ) : limitAcceleration L ω 0 = 0 := by
  unfold limitAcceleration; split_ifs <;> rfl

theorem lim_neg (L ω a : ℝ) (hL : 0 ≤ L) (ha : a < 0) : limitAcceleration L ω a = if ω < -L then 0 else a := by
  unfold limitAcceleration
  split_ifs <;> first | rfl | linarith

theorem spin_zero (L h ω : ℝ) : spin L h ω 0 = ω := by simp [spin, lim_zero]

theorem spin_pos (L h ω a : ℝ) (ha : 0 < a) (hh : 0 < h) :
    spin L h ω a = if L < ω then ω else if L < ω + h * a / 2 then ω + h * a / 6 else if L < ω + h * a then ω + 5 * (h * a) / 6 else ω + h * a := by
  have hp : 0 < h * a := mul_pos hh ha
  simp only [spin, lim_pos L ω a ha]
  by_cases h1 : L < ω
  · simp [h1, lim_zero]
  · simp only [gt_iff_lt, if_neg h1, lim_pos L _ a ha]
    by_cases h2 : L < ω + h * a / 2
    · have h2' : L < ω + 1 / 2 * (a * h) := by linarith
      simp only [h2, h2', if_true, lim_zero]; ring
    · have h2' : ¬ L < ω + 1 / 2 * (a * h) := by linarith
      simp only [h2, h2', if_false, lim_pos L _ a ha]
      by_cases h3 : L < ω + h * a
      · have h3' : L < ω + a * h := by linarith
        simp only [gt_iff_lt, h2', if_false, lim_pos L _ a ha, h3, h3', if_true]; ring
      · have h3' : ¬ L < ω + a * h := by linarith
        simp only [gt_iff_lt, h2', if_false, lim_pos L _ a ha, h3, h3']; ring

theorem spin_neg (L h ω a : ℝ) (hL : 0 ≤ L) (ha : a < 0) (hh : 0 < h) :
    spin L h ω a =
      if ω < -L then ω else if ω + h * a / 2 < -L then ω + h * a / 6 else if ω + h * a < -L then ω + 5 * (h * a) / 6 else ω + h * a := by
  have hp : h * a < 0 := mul_neg_of_pos_of_neg hh ha
  simp only [spin, lim_neg L ω a hL ha]
  by_cases h1 : ω < -L
  · simp [h1, lim_zero]
  · simp only [if_neg h1, lim_neg L _ a hL ha]
    by_cases h2 : ω + h * a / 2 < -L
    · have h2' : ω + 1 / 2 * (a * h) < -L := by linarith
      simp only [h2, h2', if_true, lim_zero]; ring
    · have h2' : ¬ ω + 1 / 2 * (a * h) < -L := by linarith
      simp only [h2, h2', if_false, lim_neg L _ a hL ha]
      by_cases h3 : ω + h * a < -L
      · have h3' : ω + a * h < -L := by linarith
        simp only [h2', if_false, lim_neg L _ a hL ha, h3, h3', if_true]; ring
      · have h3' : ¬ ω + a * h < -L := by linarith
        simp only [h2', if_false, lim_neg L _ a hL ha, h3, h3']; ring

/-- With a negative limit a deceleration stops as soon as the speed is not above the limit. -/
theorem spin_neg' (L h ω a : ℝ) (hL : L < 0) (ha : a < 0) (hh : 0 < h) :
    spin L h ω a =
      if ω ≤ L then ω else if ω + h * a / 2 ≤ L then ω + h * a / 6 else if ω + h * a ≤ L then ω + 5 * (h * a) / 6 else ω + h * a := by
  have hp : h * a < 0 := mul_neg_of_pos_of_neg hh ha
  have hl : ∀ x, limitAcceleration L x a = if x ≤ L then 0 else a := by
    intro x
    unfold limitAcceleration
    split_ifs <;> first | rfl | linarith
  simp only [spin, hl]
  by_cases h1 : ω ≤ L
  · simp [h1, lim_zero]
  · simp only [if_neg h1, hl]
    by_cases h2 : ω + h * a / 2 ≤ L
    · have h2' : ω + 1 / 2 * (a * h) ≤ L := by linarith
      simp only [h2, h2', if_true, lim_zero]; ring
    · have h2' : ¬ ω + 1 / 2 * (a * h) ≤ L := by linarith
      simp only [h2, h2', if_false, hl]
      by_cases h3 : ω + h * a ≤ L
      · have h3' : ω + a * h ≤ L := by linarith
        simp only [h2', if_false, hl, h3, h3', if_true]; ring
      · have h3' : ¬ ω + a * h ≤ L := by linarith
        simp only [h2', if_false, hl, h3, h3']; ring

/-- Within the limits the step is exact. -/
theorem spin_free (L h ω a : ℝ) (hh : 0 < h) (h0 : |ω| ≤ L) (h1 : |ω + h * a| ≤ L) : spin L h ω a = ω + h * a := by
  have hL : 0 ≤ L := (abs_nonneg _).trans h0
  rw [abs_le] at h0 h1
  rcases lt_trichotomy a 0 with ha | ha | ha
  · rw [spin_neg L h ω a hL ha hh]
    split_ifs <;> linarith [h0.1, h1.1, h1.2, h0.2]
  · rw [ha, spin_zero]; ring
  · rw [spin_pos L h ω a ha hh]
    split_ifs <;> linarith [h0.1, h1.1, h1.2, h0.2]

/-- The new speed lies between the old one and the one without limiter. -/
theorem spin_between (L h ω a : ℝ) (hh : 0 < h) : ∃ θ : ℝ, 0 ≤ θ ∧ θ ≤ 1 ∧ spin L h ω a = ω + θ * (h * a) := by
  have go : ∀ (P Q R : Prop) [Decidable P] [Decidable Q] [Decidable R] (x : ℝ),
      x = (if P then ω else if Q then ω + h * a / 6 else if R then ω + 5 * (h * a) / 6 else ω + h * a) →
      ∃ θ : ℝ, 0 ≤ θ ∧ θ ≤ 1 ∧ x = ω + θ * (h * a) := by
    intro P Q R _ _ _ x hx
    split_ifs at hx
    · exact ⟨0, le_rfl, by norm_num, by linarith⟩
    · exact ⟨1 / 6, by norm_num, by norm_num, by linarith⟩
    · exact ⟨5 / 6, by norm_num, by norm_num, by linarith⟩
    · exact ⟨1, by norm_num, le_rfl, by linarith⟩
  rcases lt_trichotomy a 0 with ha | ha | ha
  · rcases lt_or_ge L 0 with hL | hL
    · exact go _ _ _ _ (spin_neg' L h ω a hL ha hh)
    · exact go _ _ _ _ (spin_neg L h ω a hL ha hh)
  · exact ⟨0, le_rfl, by norm_num, by rw [ha, spin_zero]; ring⟩
  · exact go _ _ _ _ (spin_pos L h ω a ha hh)

/-- The overshoot of one step is at most a third of the step's gain. -/
theorem spin_bound (L h ω a : ℝ) (hh : 0 < h) : |spin L h ω a| ≤ max |ω| (|L| + h * |a| / 3) := by
  have l1 := le_abs_self L
  have l2 := neg_abs_le L
  have o1 := le_abs_self ω
  have o2 := neg_abs_le ω
  have m1 := le_max_left |ω| (|L| + h * |a| / 3)
  have m2 := le_max_right |ω| (|L| + h * |a| / 3)
  rcases lt_trichotomy a 0 with ha | ha | ha
  · have hp : h * a < 0 := mul_neg_of_pos_of_neg hh ha
    have e : h * |a| = -(h * a) := by rw [abs_of_neg ha]; ring
    rw [e] at m2 ⊢
    rw [e] at m1
    generalize max |ω| (|L| + -(h * a) / 3) = B at m1 m2 ⊢
    rcases lt_or_ge L 0 with hL | hL
    · rw [spin_neg' L h ω a hL ha hh, abs_le]
      split_ifs with c1 c2 c3 <;> constructor <;> linarith
    · rw [spin_neg L h ω a hL ha hh, abs_le]
      split_ifs with c1 c2 c3 <;> constructor <;> linarith
  · rw [ha, spin_zero]; exact le_max_left _ _
  · have hp : 0 < h * a := mul_pos hh ha
    have e : h * |a| = h * a := by rw [abs_of_pos ha]
    rw [e] at m2 ⊢
    rw [e] at m1
    generalize max |ω| (|L| + h * a / 3) = B at m1 m2 ⊢
    rw [spin_pos L h ω a ha hh, abs_le]
    split_ifs with c1 c2 c3 <;> constructor <;> linarith

/-! ## Settings and histories -/

theorem run_append (a b : List Op) (w : Wheel) : Wheel.run (a ++ b) w = (Wheel.run a w).bind (Wheel.run b) := by
  induction a generalizing w with
  | nil => rfl
  | cons o a ih =>
    simp only [List.cons_append, Wheel.run]
    rcases w.apply o with x | _ | _ | _ <;> simp [Res.bind, ih]

theorem rpm_eq : rpmToRadS = 2 * Real.pi / 60 := rfl

theorem setTargetRw_eq (w : Wheel) (hJ : 0 < w.inertia) (hM : 0 ≤ w.maxTorque) (t : ℝ) :
    w.setTargetRw t = { w with target := clamp w.maxTorque t / w.inertia } := by
  unfold Wheel.setTargetRw
  have : (if |t| < w.maxTorque then t else (if t > 0 then 1 else -1) * w.maxTorque) = clamp w.maxTorque t := by
    unfold clamp
    split_ifs with h1 h2
    · rw [abs_lt] at h1
      rw [min_eq_right h1.2.le, max_eq_right h1.1.le]
    · rw [abs_of_pos h2, not_lt] at h1
      rw [min_eq_left h1, max_eq_right (by linarith)]; ring
    · rw [abs_of_nonpos (not_lt.1 h2), not_lt] at h1
      rw [min_eq_right (by linarith [not_lt.1 h2]), max_eq_left (by linarith)]; ring
  rw [← this]
  split_ifs <;> rfl

theorem clamp_abs (m t : ℝ) (hm : 0 ≤ m) : |clamp m t| ≤ m := by
  unfold clamp
  rw [abs_le]
  exact ⟨le_max_left _ _, max_le (by linarith) (min_le_left _ _)⟩

theorem clamp_neg (m t : ℝ) (hm : 0 ≤ m) : clamp m (-t) = -clamp m t := by
  unfold clamp
  rcases le_total t m with h1 | h1 <;> rcases le_total (-m) t with h2 | h2
  · rw [min_eq_right h1, max_eq_right h2, min_eq_right (by linarith), max_eq_right (by linarith)]
  · rw [min_eq_right h1, max_eq_left h2, min_eq_left (by linarith), max_eq_right (by linarith)]; ring
  all_goals
    have e1 : min m (-t) = -t := min_eq_right (by linarith)
    have e2 : max (-m) (-t) = -m := max_eq_left (by linarith)
    have e3 : max (-m) m = m := max_eq_right (by linarith)
    rw [min_eq_left h1, e1, e2, e3]

theorem clamp_id (m t : ℝ) (h : |t| ≤ m) : clamp m t = t := by
  rw [abs_le] at h
  unfold clamp
  rw [min_eq_right h.2, max_eq_right h.1]

theorem frictionLoop_eq (v : ℝ) : ∀ (l : List ℝ) (i : ℕ) (acc : ℝ), frictionLoop v i l acc = acc + v ^ i * poly l v := by
  intro l
  induction l with
  | nil => intro i acc; simp [frictionLoop, poly]
  | cons c cs ih => intro i acc; rw [frictionLoop, ih, poly]; ring

/-- What every history from the constructor keeps. -/
structure Sound (p : WheelParams) (w : Wheel) : Prop where
  step : w.step = p.step
  inertia : w.inertia = p.inertia
  maxTorque : w.maxTorque = p.maxTorque
  maxRpm : w.maxRpm = p.maxRpm
  axis : w.axis = p.b2c.inverseFrameConversion ![0, 0, 1]
  position : w.position = p.position
  friction : w.friction = p.friction
  stopLimit : w.stopLimit = p.stopLimit
  odeStep : w.ode.step = p.step
  odeOmega : w.ode.omega = w.omega
  odeLimit : w.ode.limit = w.limitRpm * rpmToRadS
  limit : |w.limitRpm| ≤ p.maxRpm
  buffer : w.buffer.length = ⌊p.deadTime / p.step⌋.toNat + 1
  lagStep : w.lag.step = p.step
  lagConstant : w.lag.constant = p.timeConstant
  lagGain : w.lag.gain = 1
  rpm : w.rpm = w.omega * radSToRpm
  targetBound : |w.target| ≤ p.maxTorque / p.inertia
  bufferBound : ∀ b ∈ w.buffer, |b| ≤ p.maxTorque / p.inertia
  lagBound : |w.lag.output| ≤ p.maxTorque / p.inertia

theorem new_ok {p : WheelParams} {w : Wheel} (h : Wheel.new p = .ok w) :
    p.step ≠ 0 ∧ 0 ≤ ⌊p.deadTime / p.step⌋ ∧ w = {
      inertia := p.inertia, maxTorque := p.maxTorque, maxRpm := p.maxRpm, position := p.position
      axis := p.b2c.inverseFrameConversion ![0, 0, 1]
      step := p.step
      buffer := List.replicate (⌊p.deadTime / p.step⌋.toNat + 1) 0
      lag := ⟨0, p.step, p.timeConstant, 1⟩
      friction := p.friction, stopLimit := p.stopLimit, drive := p.drive, target := 0, generated := 0
      rpm := p.initial * radSToRpm, omega := p.initial, torque := fun _ => 0, momentum := fun _ => 0, limitRpm := p.maxRpm
      ode := ⟨0, p.initial, p.step, p.maxRpm * rpmToRadS, 0⟩ } := by
  unfold Wheel.new at h
  split_ifs at h with h1 h2 h3
  push Not at h2
  exact ⟨h1, h2.1, (Res.ok.inj h).symm⟩

theorem new_sound {p : WheelParams} {w : Wheel} (hJ : 0 < p.inertia) (hM : 0 ≤ p.maxTorque) (hR : 0 ≤ p.maxRpm) (h : Wheel.new p = .ok w) :
    Sound p w := by
  obtain ⟨_, _, rfl⟩ := new_ok h
  have hA : 0 ≤ p.maxTorque / p.inertia := by positivity
  constructor <;> first | rfl | simp [hA, abs_of_nonneg hR]

theorem lag_update_eq (l : Lag) (hs : 0 < l.step) (hc : 0 ≤ l.constant) (hg : l.gain = 1) (x : ℝ) :
    l.update x = ((l.constant * l.output + l.step * x) / (l.step + l.constant),
      { l with output := (l.constant * l.output + l.step * x) / (l.step + l.constant) }) := by
  unfold Lag.update
  have e : l.constant / (l.step + l.constant) * l.output + l.gain * l.step / (l.step + l.constant) * x =
      (l.constant * l.output + l.step * x) / (l.step + l.constant) := by rw [hg]; ring
  rw [if_neg (by linarith)]
  simp only [e]

theorem lag_bound (h τ y x A : ℝ) (hh : 0 < h) (hτ : 0 ≤ τ) (hy : |y| ≤ A) (hx : |x| ≤ A) : |(τ * y + h * x) / (h + τ)| ≤ A := by
  have hs : 0 < h + τ := by linarith
  rw [abs_div, abs_of_pos hs, div_le_iff₀ hs]
  calc |τ * y + h * x| ≤ |τ * y| + |h * x| := abs_add_le _ _
    _ = τ * |y| + h * |x| := by rw [abs_mul, abs_mul, abs_of_nonneg hτ, abs_of_pos hh]
    _ ≤ τ * A + h * A := by gcongr
    _ = A * (h + τ) := by ring

/-- The acceleration while the wheel runs freely. -/
noncomputable def coastAcceleration (w : Wheel) : ℝ := poly w.friction |w.omega| * (if w.omega > 0 then -1 else 1)

theorem main_coast (w : Wheel) (hd : w.drive = false) :
    ∃ w', w.main = .ok w' ∧ w'.buffer = w.buffer.map (fun _ => 0) ∧ w'.lag = w.lag ∧ w'.target = w.target ∧ w'.limitRpm = w.limitRpm ∧
      w'.step = w.step ∧ w'.inertia = w.inertia ∧ w'.maxTorque = w.maxTorque ∧ w'.maxRpm = w.maxRpm ∧ w'.axis = w.axis ∧ w'.position = w.position ∧
      w'.friction = w.friction ∧ w'.stopLimit = w.stopLimit ∧ w'.drive = w.drive ∧
      w'.ode.step = w.ode.step ∧ w'.ode.limit = w.ode.limit ∧ w'.ode.omega = w'.omega ∧ w'.rpm = w'.omega * radSToRpm ∧
      w'.omega = (if |w.omega| < w.stopLimit then 0 else spin w.ode.limit w.ode.step w.ode.omega (coastAcceleration w)) ∧
      w'.torque = scale (-1 * w.inertia * ((w'.omega - w.omega) / w.step)) w.axis ∧ w'.momentum = scale (w.inertia * w'.omega) w.axis := by
  unfold Wheel.main
  rw [if_pos hd]
  refine ⟨_, rfl, ?_⟩
  simp only [Wheel.finish, frictionLoop_eq, pow_zero, one_mul, zero_add, coastAcceleration]
  by_cases hs : |w.omega| < w.stopLimit
  · simp only [hs, if_true, WheelOde.advance, true_and]
    simp only [mul_zero]
    exact ⟨spin_zero w.ode.limit w.ode.step 0, trivial⟩
  · simp only [hs, if_false, WheelOde.advance, true_and]
    exact ⟨rfl, trivial⟩

theorem main_drive (w : Wheel) (hd : w.drive = true) (front : ℝ) (rest : List ℝ) (hb : w.buffer = front :: rest) (hs : 0 < w.lag.step)
    (hc : 0 ≤ w.lag.constant) (hg : w.lag.gain = 1) :
    ∃ w' y, y = (w.lag.constant * w.lag.output + w.lag.step * front) / (w.lag.step + w.lag.constant) ∧ w.main = .ok w' ∧
      w'.buffer = rest ++ [w.target] ∧ w'.lag = { w.lag with output := y } ∧ w'.target = w.target ∧ w'.limitRpm = w.limitRpm ∧
      w'.step = w.step ∧ w'.inertia = w.inertia ∧ w'.maxTorque = w.maxTorque ∧ w'.maxRpm = w.maxRpm ∧ w'.axis = w.axis ∧ w'.position = w.position ∧
      w'.friction = w.friction ∧ w'.stopLimit = w.stopLimit ∧ w'.drive = w.drive ∧
      w'.ode.step = w.ode.step ∧ w'.ode.limit = w.ode.limit ∧ w'.ode.omega = w'.omega ∧ w'.rpm = w'.omega * radSToRpm ∧
      w'.omega = spin w.ode.limit w.ode.step w.ode.omega y ∧
      w'.torque = scale (-1 * w.inertia * ((w'.omega - w.omega) / w.step)) w.axis ∧ w'.momentum = scale (w.inertia * w'.omega) w.axis := by
  unfold Wheel.main
  rw [if_neg (by simp [hd]), hb]
  simp only [lag_update_eq w.lag hs hc hg]
  refine ⟨_, _, rfl, rfl, ?_⟩
  refine ⟨rfl, rfl, rfl, rfl, rfl, rfl, rfl, rfl, rfl, rfl, rfl, rfl, rfl, rfl, rfl, rfl, rfl, rfl, rfl, rfl⟩

theorem setTargetRw_sound {p : WheelParams} {w : Wheel} (hJ : 0 < p.inertia) (hM : 0 ≤ p.maxTorque) (s : Sound p w) (t : ℝ) :
    Sound p (w.setTargetRw t) := by
  rw [setTargetRw_eq w (by rw [s.inertia]; exact hJ) (by rw [s.maxTorque]; exact hM)]
  refine { s with targetBound := ?_ }
  rw [abs_div, s.inertia, s.maxTorque, abs_of_pos hJ]
  exact div_le_div_of_nonneg_right (clamp_abs _ _ hM) hJ.le

theorem setLimit_sound {p : WheelParams} {w : Wheel} (hR : 0 ≤ p.maxRpm) (s : Sound p w) (l : ℝ) : Sound p (w.setLimit l) := by
  unfold Wheel.setLimit
  refine { s with limit := ?_, odeLimit := rfl, odeStep := s.odeStep, odeOmega := s.odeOmega }
  simp only [s.maxRpm]
  rw [abs_le]
  split_ifs <;> constructor <;> linarith

/-- Every call keeps the invariant, and none of them is undefined. -/
theorem apply_sound {p : WheelParams} {w : Wheel} (hh : 0 < p.step) (hJ : 0 < p.inertia) (hM : 0 ≤ p.maxTorque) (hR : 0 ≤ p.maxRpm)
    (hτ : 0 ≤ p.timeConstant) (s : Sound p w) (o : Op) : ∃ w', w.apply o = .ok w' ∧ Sound p w' := by
  cases o with
  | targetRw t => exact ⟨_, rfl, setTargetRw_sound hJ hM s t⟩
  | targetB t => exact ⟨_, rfl, setTargetRw_sound hJ hM s _⟩
  | limit l => exact ⟨_, rfl, setLimit_sound hR s l⟩
  | drive b => exact ⟨_, rfl, { s with }⟩
  | powerOff => exact ⟨_, rfl, { s with }⟩
  | main =>
    by_cases hd : w.drive = true
    · rcases hb : w.buffer with _ | ⟨front, rest⟩
      · have := s.buffer; rw [hb] at this; simp at this
      · obtain ⟨w', y, hy, h0, h1, h2, h3, h4, h5, h6, h7, h8, h9, h10, h11, h12, h13, h14, h15, h16, h17, -⟩ :=
          main_drive w hd front rest hb (by rw [s.lagStep]; exact hh) (by rw [s.lagConstant]; exact hτ) s.lagGain
        refine ⟨w', h0, ?_⟩
        have hlen := s.buffer
        rw [hb] at hlen
        have hyb : |y| ≤ p.maxTorque / p.inertia := by
          rw [hy, s.lagStep, s.lagConstant]
          exact lag_bound _ _ _ _ _ hh hτ s.lagBound (s.bufferBound _ (by rw [hb]; simp))
        refine ⟨by rw [h5, s.step], by rw [h6, s.inertia], by rw [h7, s.maxTorque], by rw [h8, s.maxRpm], by rw [h9, s.axis], by rw [h10, s.position],
          by rw [h11, s.friction], by rw [h12, s.stopLimit], by rw [h14, s.odeStep], h16, by rw [h15, h4, s.odeLimit], by rw [h4]; exact s.limit,
          by rw [h1]; simpa using hlen, by rw [h2]; exact s.lagStep, by rw [h2]; exact s.lagConstant, by rw [h2]; exact s.lagGain, h17,
          by rw [h3]; exact s.targetBound, ?_, by rw [h2]; exact hyb⟩
        rw [h1]
        intro b hb'
        rcases List.mem_append.1 hb' with hb' | hb'
        · exact s.bufferBound b (by rw [hb]; exact List.mem_cons_of_mem _ hb')
        · rw [List.mem_singleton.1 hb']; exact s.targetBound
    · obtain ⟨w', h0, h1, h2, h3, h4, h5, h6, h7, h8, h9, h10, h11, h12, h13, h14, h15, h16, h17, -⟩ := main_coast w (by simpa using hd)
      refine ⟨w', h0, ?_⟩
      have hA : 0 ≤ p.maxTorque / p.inertia := by positivity
      refine ⟨by rw [h5, s.step], by rw [h6, s.inertia], by rw [h7, s.maxTorque], by rw [h8, s.maxRpm], by rw [h9, s.axis], by rw [h10, s.position],
        by rw [h11, s.friction], by rw [h12, s.stopLimit], by rw [h14, s.odeStep], h16, by rw [h15, h4, s.odeLimit], by rw [h4]; exact s.limit,
        by rw [h1]; simpa using s.buffer, by rw [h2]; exact s.lagStep, by rw [h2]; exact s.lagConstant, by rw [h2]; exact s.lagGain, h17,
        by rw [h3]; exact s.targetBound, ?_, by rw [h2]; exact s.lagBound⟩
      rw [h1]
      intro b hb
      obtain ⟨_, _, rfl⟩ := List.mem_map.1 hb
      simpa using hA

theorem run_sound {p : WheelParams} (hh : 0 < p.step) (hJ : 0 < p.inertia) (hM : 0 ≤ p.maxTorque) (hR : 0 ≤ p.maxRpm)
    (hτ : 0 ≤ p.timeConstant) (ops : List Op) {w : Wheel} (s : Sound p w) : ∃ w', Wheel.run ops w = .ok w' ∧ Sound p w' := by
  induction ops generalizing w with
  | nil => exact ⟨w, rfl, s⟩
  | cons o ops ih =>
    obtain ⟨w1, h1, s1⟩ := apply_sound hh hJ hM hR hτ s o
    obtain ⟨w2, h2, s2⟩ := ih s1
    exact ⟨w2, by simp only [Wheel.run, h1, Res.bind, h2], s2⟩
