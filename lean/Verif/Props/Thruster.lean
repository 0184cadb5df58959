import Verif.Model.Thruster
import Verif.Props.ReactionWheel2
import Verif.Props.Quaternion3
import Verif.Props.LinAlg
/-!
# C125: the thruster
-/
namespace S2E.Thruster
open WheelSpec Wheel

theorem run_append {γ : Type} (std : γ → ℝ × γ) (eps : ℝ) (a b : List Op) (s : Thruster γ) :
    Thruster.run std eps (a ++ b) s = (Thruster.run std eps a s).bind (Thruster.run std eps b) := by
  induction a generalizing s with
  | nil => rfl
  | cons o a ih =>
    simp only [List.cons_append, Thruster.run]
    rcases s.apply std eps o with x | _ | _ | _ <;> simp [Res.bind, ih]

/-- The duty commands `u 0, …, u (n-1)`, each followed by an update, with random turns `t k` and centres of gravity `c k`. -/
def commands (u t : ℕ → ℝ) (c : ℕ → Vec 3) (n : ℕ) : List Op := (List.range n).flatMap fun k => [.duty (u k), .main (t k) (c k)]

theorem unit_direction (v : Vec 3) (h : v ≠ 0) : dot3 (calcNormalizedVector v) (calcNormalizedVector v) = 1 := by
  have h1 := ((C71_normalized_vector v).1 h).1
  have h2 := calcNorm_sq (calcNormalizedVector v)
  rw [h1] at h2
  simp only [dot3, innerProduct, Fin.sum_univ_three] at *
  linarith

/-- The error of the direction: turning the axis `x` about the direction `d` gives an axis that makes the same angle with `d` as `x` does; turning `d`
about it by `ε` gives a unit vector at the angle whose cosine is `c² + (1 - c²) cos ε`, where `c` is the `x` component of `d`. -/
theorem perturbed (d : Vec 3) (hd : dot3 d d = 1) (turn ε : ℝ) :
    let e := (Quat.ofAxisAngle ((Quat.ofAxisAngle d turn).frameConversion ![1, 0, 0]) ε).frameConversion d
    dot3 e e = 1 ∧ dot3 e d = d 0 ^ 2 + (1 - d 0 ^ 2) * Real.cos ε := by
  obtain ⟨u1, k1, -, -⟩ := C69_axis_angle d ![1, 0, 0] turn hd
  have i1 := (C64_isometry _ u1 ![1, 0, 0] ![1, 0, 0]).1
  have i2 := (C64_isometry _ u1 ![1, 0, 0] d).1
  rw [k1] at i2
  generalize (Quat.ofAxisAngle d turn).frameConversion ![1, 0, 0] = a at *
  have ha : dot3 a a = 1 := by rw [i1]; simp [dot3]
  have hda : dot3 a d = d 0 := by rw [i2]; simp [dot3]
  obtain ⟨u2, -, -, k2⟩ := C69_axis_angle a d ε ha
  have j1 := (C64_isometry _ u2 d d).1
  intro e
  refine ⟨by rw [j1, hd], ?_⟩
  simp only [e, k2]
  clear * - hd ha hda
  have : dot3 (outerProduct a d) d = 0 := by simp [dot3, outerProduct]; ring
  simp only [dot3, vadd, scale] at *
  grind

/-- The state after the commands. -/
structure After {γ : Type} (p : Params) (N : ℕ) (u : ℕ → ℝ) (n : ℕ) (s : Thruster γ) : Prop where
  position : s.position = p.position
  direction : s.direction = calcNormalizedVector p.direction
  maxThrust : s.maxThrust = p.maxThrust
  sigmaM : s.sigmaMagnitude = p.sigmaMagnitude
  sigmaD : s.sigmaDirection = p.sigmaDirection
  lagStep : s.lag.step = p.step
  lagConstant : s.lag.constant = p.timeConstant
  lagGain : s.lag.gain = 1
  buffer : s.buffer = (List.range N).map (fun i => delayed N u (n + i))
  output : s.lag.output = match n with | 0 => 0 | m + 1 => lagged p.step p.timeConstant (delayed N u) m

theorem new_ok {γ : Type} (p : Params) (g0 : γ) (hh : 0 < p.step) (N : ℕ) (h1 : (N : ℝ) * p.step ≤ p.deadTime + p.step)
    (h2 : p.deadTime < N * p.step) (hd : 0 ≤ p.deadTime) (hmem : N < 2 ^ 60) (u : ℕ → ℝ) :
    ∃ s0, Thruster.new p g0 = .ok s0 ∧ After p N u 0 s0 ∧ s0.noiseMagnitude = g0 ∧ s0.noiseDirection = g0 := by
  have hN : ⌊p.deadTime / p.step⌋.toNat + 1 = N := by
    have hN : 1 ≤ N := by
      rcases Nat.eq_zero_or_pos N with h | h
      · rw [h] at h2; simp at h2; linarith
      · exact h
    have : ⌊p.deadTime / p.step⌋ = (N : ℤ) - 1 := by
      rw [Int.floor_eq_iff, le_div_iff₀ hh, div_lt_iff₀ hh]
      push_cast
      constructor <;> linarith
    rw [this]; omega
  have hf : 0 ≤ ⌊p.deadTime / p.step⌋ := Int.floor_nonneg.2 (by positivity)
  have hf2 : ⌊p.deadTime / p.step⌋ + 1 = (N : ℤ) := by rw [← hN]; omega
  unfold Thruster.new
  rw [if_neg hh.ne', if_neg (by omega), if_neg (by omega)]
  refine ⟨_, rfl, ⟨rfl, rfl, rfl, rfl, rfl, rfl, rfl, rfl, ?_, rfl⟩, rfl, rfl⟩
  simp only [hN, Nat.zero_add]
  symm
  rw [List.eq_replicate_iff]
  refine ⟨by simp, ?_⟩
  intro b hb
  obtain ⟨i, hi, rfl⟩ := List.mem_map.1 hb
  rw [delayed, if_pos (List.mem_range.1 hi)]

theorem main_ok {γ : Type} (std : γ → ℝ × γ) (eps : ℝ) (p : Params) (hh : 0 < p.step) (hτ : 0 ≤ p.timeConstant) (M : ℕ) (u : ℕ → ℝ) (n : ℕ)
    (s : Thruster γ) (a : After p (M + 1) u n s) (turn : ℝ) (c : Vec 3) :
    ∃ s', (s.setDuty (u n)).main std eps turn c = .ok s' ∧ After p (M + 1) u (n + 1) s' ∧
      s'.thrust = scale (p.maxThrust * lagged p.step p.timeConstant (delayed (M + 1) u) n +
        if u n > eps then p.sigmaMagnitude * (std s.noiseMagnitude).1 else 0) (s.trueDirection std eps turn).1 ∧
      s'.torque = outerProduct (vsub p.position c) s'.thrust ∧
      s'.noiseMagnitude = (if u n > eps then (std s.noiseMagnitude).2 else s.noiseMagnitude) ∧
      s'.noiseDirection = (s.trueDirection std eps turn).2 := by
  have hbuf : s.buffer = delayed (M + 1) u n :: (List.range M).map (fun i => delayed (M + 1) u (n + 1 + i)) := by
    rw [a.buffer, List.range_succ_eq_map, List.map_cons, List.map_map]
    congr 1
    exact List.map_congr_left fun i _ => by simp only [Function.comp]; congr 1; omega
  have hl := lag_update_eq s.lag (by rw [a.lagStep]; exact hh) (by rw [a.lagConstant]; exact hτ) a.lagGain (delayed (M + 1) u n)
  have hy : (s.lag.constant * s.lag.output + s.lag.step * delayed (M + 1) u n) / (s.lag.step + s.lag.constant) =
      lagged p.step p.timeConstant (delayed (M + 1) u) n := by
    rw [a.lagStep, a.lagConstant, a.output]
    rcases n with _ | m
    · simp only [lagged]; ring
    · simp only [lagged]
  rw [hy] at hl
  have hdir : (s.setDuty (u n)).trueDirection std eps turn = s.trueDirection std eps turn := rfl
  unfold Thruster.main
  simp only [Thruster.setDuty, hbuf, hl]
  refine ⟨_, rfl, ⟨a.position, a.direction, a.maxThrust, a.sigmaM, a.sigmaD, a.lagStep, a.lagConstant, a.lagGain, ?_, rfl⟩, ?_, ?_, ?_, ?_⟩
  · rw [List.range_succ, List.map_append]
    congr 1
    simp only [List.map_cons, List.map_nil, delayed]
    rw [if_neg (by omega), show n + 1 + M - (M + 1) = n by omega]
  · simp only [a.maxThrust, a.sigmaM, zero_add]
    change scale _ (s.trueDirection std eps turn).1 = _
    congr 1
    split_ifs <;> ring
  · simp only [a.position]
  · simp only [zero_add]
  · rfl

theorem commands_state {γ : Type} (std : γ → ℝ × γ) (eps : ℝ) (p : Params) (hh : 0 < p.step) (hτ : 0 ≤ p.timeConstant) (M : ℕ) (u t : ℕ → ℝ)
    (c : ℕ → Vec 3) (s0 : Thruster γ) (a : After p (M + 1) u 0 s0) (n : ℕ) :
    ∃ s, Thruster.run std eps (commands u t c n) s0 = .ok s ∧ After p (M + 1) u n s := by
  induction n with
  | zero => exact ⟨s0, rfl, a⟩
  | succ n ih =>
    obtain ⟨s, h, as⟩ := ih
    obtain ⟨s', h', as', -⟩ := main_ok std eps p hh hτ M u n s as (t n) (c n)
    refine ⟨s', ?_, as'⟩
    unfold commands at h ⊢
    rw [List.range_succ, List.flatMap_append, run_append, h]
    simp only [Res.bind, List.flatMap_cons, List.flatMap_nil, List.append_nil, Thruster.run, Thruster.apply, h']

/-- **C125.** Give a thruster with dead time `d` the duties `u 0, u 1, …` — any numbers, they are not limited —, one before each update. With `N` the
number of steps such that `d < N h ≤ d + h`, the thrust after update `n` is the maximum thrust times the lagged response to the duty of update
`n - N`, plus noise `σ z` if the duty *commanded now* is positive, along a unit vector `e`; without direction error `e` is the nominal direction, with
error angle `ε` it is at the angle of cosine `x² + (1 - x²) cos ε` from it, `x` the first component of the direction. The torque is the lever arm from
the centre of gravity times the thrust. Nothing is undefined. -/
theorem C125_thrust {γ : Type} (std : γ → ℝ × γ) (eps : ℝ) (p : Params) (g0 : γ) (hdir : p.direction ≠ 0) (hh : 0 < p.step)
    (hτ : 0 ≤ p.timeConstant) (hd : 0 ≤ p.deadTime) (N : ℕ) (h1 : (N : ℝ) * p.step ≤ p.deadTime + p.step) (h2 : p.deadTime < N * p.step)
    (hmem : N < 2 ^ 60) (u t : ℕ → ℝ) (c : ℕ → Vec 3) (n : ℕ) :
    ∃ s0 s s', Thruster.new p g0 = .ok s0 ∧ Thruster.run std eps (commands u t c n) s0 = .ok s ∧
      Thruster.run std eps (commands u t c (n + 1)) s0 = .ok s' ∧
      s'.torque = outerProduct (vsub p.position (c n)) s'.thrust ∧
      ∃ e, s'.thrust = scale (p.maxThrust * lagged p.step p.timeConstant (delayed N u) n +
          if u n > eps then p.sigmaMagnitude * (std s.noiseMagnitude).1 else 0) e ∧
        dot3 e e = 1 ∧ (p.sigmaDirection ≤ eps → e = calcNormalizedVector p.direction) ∧
        (eps < p.sigmaDirection → dot3 e (calcNormalizedVector p.direction) = calcNormalizedVector p.direction 0 ^ 2 +
          (1 - calcNormalizedVector p.direction 0 ^ 2) * Real.cos (p.sigmaDirection * (std s.noiseDirection).1)) := by
  obtain ⟨s0, h0, a0, -, -⟩ := new_ok p g0 hh N h1 h2 hd hmem u
  obtain ⟨M, rfl⟩ : ∃ M, N = M + 1 := by
    rcases N with _ | M
    · simp at h2; linarith
    · exact ⟨M, rfl⟩
  obtain ⟨s, hs, as⟩ := commands_state std eps p hh hτ M u t c s0 a0 n
  obtain ⟨s', hs', as', e1, e2, -, -⟩ := main_ok std eps p hh hτ M u n s as (t n) (c n)
  refine ⟨s0, s, s', h0, hs, ?_, e2, (s.trueDirection std eps (t n)).1, e1, ?_⟩
  · unfold commands at hs ⊢
    rw [List.range_succ, List.flatMap_append, run_append, hs]
    simp only [Res.bind, List.flatMap_cons, List.flatMap_nil, List.append_nil, Thruster.run, Thruster.apply, hs']
  · have ud := unit_direction p.direction hdir
    unfold Thruster.trueDirection
    rw [as.direction, as.sigmaD, zero_add]
    by_cases hg : p.sigmaDirection > eps
    · rw [if_pos hg]
      obtain ⟨q1, q2⟩ := perturbed _ ud (t n) (p.sigmaDirection * (std s.noiseDirection).1)
      exact ⟨q1, fun h => absurd hg (not_lt.2 h), fun _ => q2⟩
    · rw [if_neg hg]
      exact ⟨ud, fun _ => rfl, fun h => absurd h hg⟩

/-- The response to a constant duty: nothing for `N` updates, then `1 - (τ / (h + τ))^k`. -/
theorem C125_step_response (h τ : ℝ) (hh : 0 < h) (hτ : 0 ≤ τ) (N : ℕ) (u : ℝ) (k : ℕ) :
    lagged h τ (delayed N fun _ => u) k = if k < N then 0 else u * (1 - (τ / (h + τ)) ^ (k + 1 - N)) := by
  have := C116_step_response ⟨h, 1, |u|, 0, ⟨0, 0, 0, 1⟩, 0, 0, τ, [], 0, true, 0⟩ hh hτ N u k
  simpa [demanded, clamp_id |u| u le_rfl] using this

/-- A thruster along the body's `x` axis (either way) never shows a direction error, whatever its configured standard deviation. -/
theorem C125_no_error_along_x {γ : Type} (std : γ → ℝ × γ) (eps : ℝ) (s : Thruster γ) (hd : s.direction = ![1, 0, 0] ∨ s.direction = ![-1, 0, 0])
    (turn : ℝ) : (s.trueDirection std eps turn).1 = s.direction := by
  unfold Thruster.trueDirection
  split_ifs with h
  · have hu : dot3 s.direction s.direction = 1 := by rcases hd with h | h <;> rw [h] <;> simp [dot3]
    have hx : s.direction 0 ^ 2 = 1 := by rcases hd with h | h <;> rw [h] <;> norm_num
    obtain ⟨q1, q2⟩ := perturbed s.direction hu turn (s.sigmaDirection * (std s.noiseDirection).1)
    rw [hx] at q2
    simp only
    generalize (Quat.ofAxisAngle _ _).frameConversion s.direction = e at *
    simp only [dot3] at q1 q2 hu
    apply vec3_ext <;> nlinarith [sq_nonneg (e 0 - s.direction 0), sq_nonneg (e 1 - s.direction 1), sq_nonneg (e 2 - s.direction 2)]
  · rfl

/-- Without power, thrust and torque are zero; duty, dead time buffer and lag are kept, so that the first update after the power is back gives what it
would have given without the interruption. -/
theorem C125_power_off {γ : Type} (std : γ → ℝ × γ) (eps : ℝ) (s : Thruster γ) (n : ℕ) (turn : ℝ) (c : Vec 3) :
    ∃ s', Thruster.run std eps (List.replicate (n + 1) .powerOff) s = .ok s' ∧ s'.thrust = (fun _ => 0) ∧ s'.torque = (fun _ => 0) ∧
      s'.main std eps turn c = s.main std eps turn c := by
  induction n generalizing s with
  | zero =>
    refine ⟨s.powerOff, rfl, by funext i; simp [Thruster.powerOff, scale], by funext i; simp [Thruster.powerOff, scale], ?_⟩
    obtain ⟨p, d, du, mx, sd, sm, nm, nd, b, l, th, tq⟩ := s
    unfold Thruster.main Thruster.powerOff
    cases b <;> rfl
  | succ n ih =>
    obtain ⟨s', h1, h2, h3, h4⟩ := ih s.powerOff
    refine ⟨s', ?_, h2, h3, ?_⟩
    · rw [List.replicate_succ]
      simp only [Thruster.run, Thruster.apply, Res.bind]
      exact h1
    · rw [h4]
      obtain ⟨p, d, du, mx, sd, sm, nm, nd, b, l, th, tq⟩ := s
      unfold Thruster.main Thruster.powerOff
      cases b <;> rfl

/-- The two noise sources have the same seed: as long as every commanded duty is positive and there is a direction error, the error of the magnitude
and that of the direction are, at every update, the same value times the two standard deviations. -/
theorem C125_same_noise {γ : Type} (std : γ → ℝ × γ) (eps : ℝ) (p : Params) (g0 : γ) (hh : 0 < p.step)
    (hτ : 0 ≤ p.timeConstant) (hd : 0 ≤ p.deadTime) (N : ℕ) (h1 : (N : ℝ) * p.step ≤ p.deadTime + p.step) (h2 : p.deadTime < N * p.step)
    (hmem : N < 2 ^ 60) (hsd : eps < p.sigmaDirection) (u t : ℕ → ℝ) (hu : ∀ k, eps < u k) (c : ℕ → Vec 3) (n : ℕ) :
    ∃ s0 s, Thruster.new p g0 = .ok s0 ∧ Thruster.run std eps (commands u t c n) s0 = .ok s ∧ s.noiseMagnitude = s.noiseDirection := by
  obtain ⟨s0, h0, a0, m0, d0⟩ := new_ok p g0 hh N h1 h2 hd hmem u
  obtain ⟨M, rfl⟩ : ∃ M, N = M + 1 := by
    rcases N with _ | M
    · simp at h2; linarith
    · exact ⟨M, rfl⟩
  refine ⟨s0, ?_⟩
  have key : ∃ s, Thruster.run std eps (commands u t c n) s0 = .ok s ∧ After p (M + 1) u n s ∧ s.noiseMagnitude = s.noiseDirection := by
    induction n with
    | zero => exact ⟨s0, rfl, a0, by rw [m0, d0]⟩
    | succ n ih =>
      obtain ⟨s, hs, as, es⟩ := ih
      obtain ⟨s', hs', as', -, -, e3, e4⟩ := main_ok std eps p hh hτ M u n s as (t n) (c n)
      refine ⟨s', ?_, as', ?_⟩
      · unfold commands at hs ⊢
        rw [List.range_succ, List.flatMap_append, run_append, hs]
        simp only [Res.bind, List.flatMap_cons, List.flatMap_nil, List.append_nil, Thruster.run, Thruster.apply, hs']
      · rw [e3, e4, if_pos (hu n), Thruster.trueDirection, as.sigmaD, zero_add, if_pos hsd, es]
  obtain ⟨s, k1, -, k3⟩ := key
  exact ⟨s, h0, k1, k3⟩

/-- A thruster with a dead time of two and a half steps of 0.1 s: full duty from the start, no noise; thrust begins with the fourth update. -/
example : ∃ s0 s, Thruster.new (γ := Unit) ⟨![0, 0, -1], ![0, 0, 2], 5, 0, 0, 1 / 4, 0, 1 / 10⟩ () = .ok s0 ∧
    Thruster.run (fun g => (0, g)) (1 / 1000) (commands (fun _ => 1) (fun _ => 0) (fun _ => ![1, 0, 0]) 4) s0 = .ok s ∧
    s.thrust = scale 5 (calcNormalizedVector ![0, 0, 2]) := by
  obtain ⟨s0, s, s', h0, -, h2, -, e, h3, -, h4, -⟩ := C125_thrust (γ := Unit) (fun g => (0, g)) (1 / 1000)
    ⟨![0, 0, -1], ![0, 0, 2], 5, 0, 0, 1 / 4, 0, 1 / 10⟩ () (fun h => two_ne_zero (α := ℝ) (congrFun h 2)) (by norm_num) (by norm_num)
    (by norm_num) 3 (by norm_num) (by norm_num) (by norm_num) (fun _ => 1) (fun _ => 0) (fun _ => ![1, 0, 0]) 3
  refine ⟨s0, s', h0, h2, ?_⟩
  rw [h3, h4 (by norm_num), C125_step_response _ _ (by norm_num) (by norm_num)]
  norm_num

end S2E.Thruster
