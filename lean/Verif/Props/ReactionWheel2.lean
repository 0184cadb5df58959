import Verif.Props.ReactionWheel
import Mathlib.Analysis.Real.Pi.Bounds
/-!
# C116–C119: the reaction wheel (claims)
-/
namespace S2E.Wheel
open WheelSpec

/-! ## C116 commands, dead time and lag -/

/-- The commands `u 0, …, u (n-1)`, each followed by an update of the driven wheel. -/
def commands (u : ℕ → ℝ) (n : ℕ) : List Op := (List.range n).flatMap fun k => [.targetRw (u k), .main]

/-- The same with commands of the torque on the body. -/
def commandsB (u : ℕ → ℝ) (n : ℕ) : List Op := (List.range n).flatMap fun k => [.targetB (u k), .main]

/-- The accelerations that the commands `u` demand, `n` updates later and behind the lag. -/
noncomputable def demanded (p : WheelParams) (n : ℕ) (u : ℕ → ℝ) : ℕ → ℝ :=
  lagged p.step p.timeConstant (delayed n fun k => clamp p.maxTorque (u k) / p.inertia)

theorem commandsB_eq (u : ℕ → ℝ) (n : ℕ) (w : Wheel) : Wheel.run (commandsB u n) w = Wheel.run (commands (fun k => -u k) n) w := by
  unfold commandsB commands
  induction (List.range n) generalizing w with
  | nil => rfl
  | cons k l ih =>
    simp only [List.flatMap_cons, List.cons_append, List.nil_append, Wheel.run, Wheel.apply, Res.bind, Wheel.setTargetB]
    rw [show (-1 * u k : ℝ) = -u k by ring]
    rcases (w.setTargetRw (-u k)).main with x | _ | _ | _ <;> simp [ih]

/-- The number of updates between a command and its effect: the dead time in whole steps, plus one. -/
theorem delay_count (p : WheelParams) (hh : 0 < p.step) (hd : 0 ≤ p.deadTime) (N : ℕ) (h1 : (N : ℝ) * p.step ≤ p.deadTime + p.step)
    (h2 : p.deadTime < N * p.step) : ⌊p.deadTime / p.step⌋.toNat + 1 = N := by
  have hN : 1 ≤ N := by
    rcases Nat.eq_zero_or_pos N with h | h
    · rw [h] at h2; simp at h2; linarith
    · exact h
  have : ⌊p.deadTime / p.step⌋ = (N : ℤ) - 1 := by
    rw [Int.floor_eq_iff, le_div_iff₀ hh, div_lt_iff₀ hh]
    push_cast
    constructor <;> linarith
  rw [this]; omega

theorem commands_state (p : WheelParams) (hdrive : p.drive = true) (hh : 0 < p.step) (hJ : 0 < p.inertia) (hM : 0 ≤ p.maxTorque)
    (hR : 0 ≤ p.maxRpm) (hτ : 0 ≤ p.timeConstant) (N : ℕ) (hN : ⌊p.deadTime / p.step⌋.toNat + 1 = N) (u : ℕ → ℝ)
    (w0 : Wheel) (h0 : Wheel.new p = .ok w0) (n : ℕ) :
    ∃ w, Wheel.run (commands u n) w0 = .ok w ∧ Sound p w ∧ w.drive = true ∧ w.limitRpm = p.maxRpm ∧
      w.buffer = (List.range N).map (fun i => delayed N (fun k => clamp p.maxTorque (u k) / p.inertia) (n + i)) ∧
      (n = 0 → w.omega = p.initial ∧ w.lag.output = 0) ∧
      (∀ m, n = m + 1 → w.lag.output = demanded p N u m ∧ ∃ v, Wheel.run (commands u m) w0 = .ok v ∧
        w.omega = spin (p.maxRpm * rpmToRadS) p.step v.omega (demanded p N u m) ∧
        w.torque = scale (-1 * p.inertia * ((w.omega - v.omega) / p.step)) (p.b2c.inverseFrameConversion ![0, 0, 1]) ∧
        w.momentum = scale (p.inertia * w.omega) (p.b2c.inverseFrameConversion ![0, 0, 1])) := by
  induction n with
  | zero =>
    have s := new_sound hJ hM hR h0
    refine ⟨w0, rfl, s, ?_⟩
    obtain ⟨_, _, rfl⟩ := new_ok h0
    refine ⟨hdrive, rfl, ?_, fun _ => ⟨rfl, rfl⟩, fun m h => by omega⟩
    simp only [hN, Nat.zero_add]
    symm
    rw [List.eq_replicate_iff]
    refine ⟨by simp, ?_⟩
    intro b hb
    obtain ⟨i, hi, rfl⟩ := List.mem_map.1 hb
    rw [delayed, if_pos (List.mem_range.1 hi)]
  | succ n ih =>
    obtain ⟨w, hw, s, hd, hl, hb, hz, hs⟩ := ih
    have hrun : Wheel.run (commands u (n + 1)) w0 = (w.setTargetRw (u n)).main := by
      unfold commands at hw ⊢
      rw [List.range_succ, List.flatMap_append, run_append, hw]
      simp only [Res.bind, List.flatMap_cons, List.flatMap_nil, List.append_nil, Wheel.run, Wheel.apply]
      rcases (w.setTargetRw (u n)).main with x | _ | _ | _ <;> rfl
    set v := w.setTargetRw (u n) with hv
    have hveq := setTargetRw_eq w (by rw [s.inertia]; exact hJ) (by rw [s.maxTorque]; exact hM) (u n)
    have sv : Sound p v := setTargetRw_sound hJ hM s (u n)
    have v1 : v.omega = w.omega := by rw [hv, hveq]
    have v2 : v.buffer = w.buffer := by rw [hv, hveq]
    have v3 : v.drive = true := by rw [hv, hveq]; exact hd
    have v4 : v.limitRpm = p.maxRpm := by rw [hv, hveq]; exact hl
    have v5 : v.lag = w.lag := by rw [hv, hveq]
    have v6 : v.target = clamp p.maxTorque (u n) / p.inertia := by rw [hv, hveq, s.maxTorque, s.inertia]
    obtain ⟨M, rfl⟩ : ∃ M, N = M + 1 := ⟨_, hN.symm⟩
    set D := delayed (M + 1) (fun k => clamp p.maxTorque (u k) / p.inertia) with hD
    have hbuf : v.buffer = D n :: (List.range M).map (fun i => D (n + 1 + i)) := by
      rw [v2, hb, List.range_succ_eq_map, List.map_cons, List.map_map]
      congr 1
      exact List.map_congr_left fun i _ => by simp only [Function.comp]; congr 1; omega
    obtain ⟨w', y, hy, g0, g1, g2, g3, g4, g5, g6, g7, g8, g9, g10, g11, g12, g13, g14, g15, g16, g17, g18, g19, g20⟩ :=
      main_drive v v3 _ _ hbuf (by rw [sv.lagStep]; exact hh) (by rw [sv.lagConstant]; exact hτ) sv.lagGain
    obtain ⟨w'', g0', s'⟩ := apply_sound hh hJ hM hR hτ sv .main
    have : w'' = w' := by simp only [Wheel.apply, g0] at g0'; exact (Res.ok.inj g0').symm
    subst this
    have hyd : y = demanded p (M + 1) u n := by
      rw [hy, sv.lagStep, sv.lagConstant, v5]
      unfold demanded
      rcases n with _ | m
      · rw [(hz rfl).2, lagged]; ring
      · rw [(hs m rfl).1, lagged]
        simp only [demanded, hD]
    refine ⟨w'', by rw [hrun, g0], s', by rw [g13]; exact v3, by rw [g4]; exact v4, ?_, fun h => by omega, ?_⟩
    · rw [g1, v6, List.range_succ, List.map_append]
      congr 1
      simp only [List.map_cons, List.map_nil, hD, delayed]
      rw [if_neg (by omega)]
      congr 4
      omega
    · intro m hm
      obtain rfl : m = n := by omega
      refine ⟨by rw [g2]; exact hyd, w, hw, ?_, ?_, ?_⟩
      · rw [g18, sv.odeLimit, sv.odeStep, sv.odeOmega, v4, v1, hyd]
      · rw [g19, sv.inertia, sv.step, sv.axis, v1]
      · rw [g20, sv.inertia, sv.axis]

/-- **C116.** Issue the torque commands `u 0, u 1, …` to a driven wheel, one before each update. If the dead time is `d` and `N` is the number of
steps with `d < N h ≤ d + h`, the acceleration in update `k` is the lagged response to the clamped command of update `k - N` (none before update
`N`). As long as that does not lead beyond the speed limit, the speed is the sum of these accelerations, the torque on the body is `-J` times the
acceleration along the rotation axis and the angular momentum is `J` times the speed along the axis. Nothing is undefined. -/
theorem C116_response (p : WheelParams) (hdrive : p.drive = true) (hh : 0 < p.step) (hJ : 0 < p.inertia) (hM : 0 ≤ p.maxTorque)
    (hR : 0 ≤ p.maxRpm) (hτ : 0 ≤ p.timeConstant) (hd : 0 ≤ p.deadTime) (N : ℕ) (h1 : (N : ℝ) * p.step ≤ p.deadTime + p.step)
    (h2 : p.deadTime < N * p.step) (hmem : N < 2 ^ 60) (u : ℕ → ℝ) (n : ℕ)
    (hL : ∀ k ≤ n, |p.initial + p.step * ∑ j ∈ Finset.range k, demanded p N u j| ≤ p.maxRpm * (2 * Real.pi / 60)) :
    ∃ w0, Wheel.new p = .ok w0 ∧ ∃ w, Wheel.run (commands u n) w0 = .ok w ∧
      w.omega = p.initial + p.step * ∑ j ∈ Finset.range n, demanded p N u j ∧
      (∀ m, n = m + 1 → w.torque = scale (-(p.inertia * demanded p N u m)) (p.b2c.inverseFrameConversion ![0, 0, 1]) ∧
        w.momentum = scale (p.inertia * w.omega) (p.b2c.inverseFrameConversion ![0, 0, 1])) := by
  have hN := delay_count p hh hd N h1 h2
  have hf : 0 ≤ ⌊p.deadTime / p.step⌋ := Int.floor_nonneg.2 (by positivity)
  have hf2 : ⌊p.deadTime / p.step⌋ + 1 = (N : ℤ) := by rw [← hN]; omega
  have hnew : ∃ w0, Wheel.new p = .ok w0 := by
    unfold Wheel.new
    rw [if_neg hh.ne', if_neg (by omega), if_neg (by omega)]
    exact ⟨_, rfl⟩
  obtain ⟨w0, h0⟩ := hnew
  refine ⟨w0, h0, ?_⟩
  have key : ∀ m ≤ n, ∀ w, Wheel.run (commands u m) w0 = .ok w → w.omega = p.initial + p.step * ∑ j ∈ Finset.range m, demanded p N u j := by
    intro m
    induction m with
    | zero =>
      intro _ w hw
      obtain ⟨w', hw', _, _, _, _, hz, _⟩ := commands_state p hdrive hh hJ hM hR hτ N hN u w0 h0 0
      rw [hw] at hw'
      obtain rfl := Res.ok.inj hw'
      simp [(hz rfl).1]
    | succ m ih =>
      intro hm w hw
      obtain ⟨w', hw', _, _, _, _, _, hs⟩ := commands_state p hdrive hh hJ hM hR hτ N hN u w0 h0 (m + 1)
      rw [hw] at hw'
      obtain rfl := Res.ok.inj hw'
      obtain ⟨_, v, hv, hw2, _⟩ := hs m rfl
      have e := ih (by omega) v hv
      have b1 := hL m (by omega)
      have b2 := hL (m + 1) hm
      rw [Finset.sum_range_succ] at b2 ⊢
      rw [hw2, spin_free, e]
      · ring
      · exact hh
      · rw [e, rpm_eq]; exact b1
      · rw [e, rpm_eq, show p.initial + p.step * ∑ j ∈ Finset.range m, demanded p N u j + p.step * demanded p N u m =
          p.initial + p.step * (∑ j ∈ Finset.range m, demanded p N u j + demanded p N u m) by ring]
        exact b2
  obtain ⟨w, hw, _, _, _, _, _, hs⟩ := commands_state p hdrive hh hJ hM hR hτ N hN u w0 h0 n
  refine ⟨w, hw, key n le_rfl w hw, ?_⟩
  intro m hm
  obtain ⟨_, v, hv, _, ht, hmom⟩ := hs m hm
  refine ⟨?_, hmom⟩
  rw [ht, key n le_rfl w hw, key m (by omega) v hv, hm, Finset.sum_range_succ]
  congr 1
  field_simp
  ring

/-- The response to a constant command `t`: nothing for `N` updates, then `1 - (τ / (h + τ))^(k+1-N)` of the clamped command. -/
theorem C116_step_response (p : WheelParams) (hh : 0 < p.step) (hτ : 0 ≤ p.timeConstant) (N : ℕ) (t : ℝ) (k : ℕ) :
    demanded p N (fun _ => t) k =
      if k < N then 0 else clamp p.maxTorque t / p.inertia * (1 - (p.timeConstant / (p.step + p.timeConstant)) ^ (k + 1 - N)) := by
  have hs : 0 < p.step + p.timeConstant := by linarith
  unfold demanded
  induction k with
  | zero =>
    rw [lagged, delayed]
    split_ifs with h
    · ring
    · have : N = 0 := by omega
      subst this
      simp; field_simp; ring
  | succ k ih =>
    rw [lagged, ih, delayed]
    by_cases h : k + 1 < N
    · rw [if_pos h, if_pos h, if_pos (by omega)]; simp
    · rw [if_neg h, if_neg h]
      by_cases h' : k < N
      · rw [if_pos h']
        have : k + 1 + 1 - N = 1 := by omega
        rw [this]; field_simp; ring
      · rw [if_neg h', show k + 1 + 1 - N = (k + 1 - N) + 1 by omega, pow_succ]
        field_simp; ring

/-- Asking for the torque `t` on the body gives, without lag, within the limits and after the delay, the torque `t` along the rotation axis. -/
theorem C116_body_torque (p : WheelParams) (hdrive : p.drive = true) (hh : 0 < p.step) (hJ : 0 < p.inertia) (hR : 0 ≤ p.maxRpm)
    (hτ : p.timeConstant = 0) (hd : 0 ≤ p.deadTime) (N : ℕ) (h1 : (N : ℝ) * p.step ≤ p.deadTime + p.step) (h2 : p.deadTime < N * p.step)
    (hmem : N < 2 ^ 60) (t : ℝ) (ht : |t| ≤ p.maxTorque) (n : ℕ) (hn : N < n)
    (hL : |p.initial| + n * (p.step * (|t| / p.inertia)) ≤ p.maxRpm * (2 * Real.pi / 60)) :
    ∃ w0, Wheel.new p = .ok w0 ∧ ∃ w, Wheel.run (commandsB (fun _ => t) n) w0 = .ok w ∧
      w.torque = scale t (p.b2c.inverseFrameConversion ![0, 0, 1]) := by
  have hM : 0 ≤ p.maxTorque := (abs_nonneg _).trans ht
  have hdem : ∀ k, demanded p N (fun _ => -t) k = if k < N then 0 else -t / p.inertia := by
    intro k
    rw [C116_step_response p hh hτ.ge, clamp_id _ _ (by rwa [abs_neg]), hτ]
    split_ifs with h
    · rfl
    · rw [zero_div, zero_pow (by omega)]; ring
  obtain ⟨w0, e0, w, e1, -, e3⟩ := C116_response p hdrive hh hJ hM hR hτ.ge hd N h1 h2 hmem (fun _ => -t) n (by
    intro k hk
    refine le_trans ?_ hL
    calc |p.initial + p.step * ∑ j ∈ Finset.range k, demanded p N (fun _ => -t) j|
        ≤ |p.initial| + |p.step * ∑ j ∈ Finset.range k, demanded p N (fun _ => -t) j| := abs_add_le _ _
      _ ≤ |p.initial| + p.step * (k * (|t| / p.inertia)) := by
        rw [abs_mul, abs_of_pos hh]
        gcongr
        refine (Finset.abs_sum_le_sum_abs _ _).trans ?_
        rw [show (k : ℝ) * (|t| / p.inertia) = ∑ j ∈ Finset.range k, |t| / p.inertia by simp]
        refine Finset.sum_le_sum fun j _ => ?_
        rw [hdem]
        split_ifs
        · rw [abs_zero]; positivity
        · rw [abs_div, abs_neg, abs_of_pos hJ]
      _ ≤ |p.initial| + n * (p.step * (|t| / p.inertia)) := by
        have : (k : ℝ) ≤ n := by exact_mod_cast hk
        have : 0 ≤ p.step * (|t| / p.inertia) := by positivity
        nlinarith)
  refine ⟨w0, e0, w, by rw [commandsB_eq]; exact e1, ?_⟩
  obtain ⟨m, rfl⟩ : ∃ m, n = m + 1 := ⟨n - 1, by omega⟩
  rw [(e3 m rfl).1, hdem, if_neg (by omega)]
  congr 1
  field_simp

/-- A wheel with inertia 1, maximum torque 2 and dead time half a step. -/
noncomputable def exampleWheel : WheelParams where
  step := 1
  inertia := 1
  maxTorque := 2
  maxRpm := 6000
  b2c := ⟨0, 0, 0, 1⟩
  position := fun _ => 0
  deadTime := 1 / 2
  timeConstant := 0
  friction := []
  stopLimit := 0
  drive := true
  initial := 0

/-- The example delivers the torque 1 asked for from its second update on. -/
example : ∃ w0, Wheel.new exampleWheel = .ok w0 ∧ ∃ w, Wheel.run (commandsB (fun _ => 1) 3) w0 = .ok w ∧
    w.torque = scale 1 (exampleWheel.b2c.inverseFrameConversion ![0, 0, 1]) := by
  have hp := Real.pi_gt_three
  apply C116_body_torque exampleWheel rfl (by norm_num [exampleWheel]) (by norm_num [exampleWheel]) (by norm_num [exampleWheel]) rfl
    (by norm_num [exampleWheel]) 1 (by norm_num [exampleWheel]) (by norm_num [exampleWheel]) (by norm_num) 1 (by norm_num [exampleWheel]) 3
    (by norm_num)
  norm_num [exampleWheel]
  linarith

set_option maxHeartbeats 1000000 in
/-- The state of the lag outlives a switch to free running: a wheel which was driven with torque `t`, switched to free running and then driven
again with command zero accelerates although nothing was commanded any more. -/
theorem C116_residual (p : WheelParams) (hdrive : p.drive = true) (hh : 0 < p.step) (hJ : 0 < p.inertia) (hR : 0 ≤ p.maxRpm)
    (hτ : 0 < p.timeConstant) (hd : p.deadTime = 0) (hi : p.initial = 0) (hf : p.friction = []) (hst : p.stopLimit = 0) (t : ℝ)
    (ht : |t| ≤ p.maxTorque) (hL : 2 * (p.step * (|t| / p.inertia)) ≤ p.maxRpm * (2 * Real.pi / 60)) :
    ∃ w0, Wheel.new p = .ok w0 ∧ ∃ w1 w2, Wheel.run ([.targetRw t, .main, .main, .targetRw 0, .drive false, .main]) w0 = .ok w1 ∧
      Wheel.run [.drive true, .main] w1 = .ok w2 ∧
      w2.omega - w1.omega = p.step * (p.timeConstant / (p.step + p.timeConstant) * (p.step / (p.step + p.timeConstant) * (t / p.inertia))) := by
  have hM : 0 ≤ p.maxTorque := (abs_nonneg _).trans ht
  have hs : 0 < p.step + p.timeConstant := by linarith
  have hnew : ∃ w0, Wheel.new p = .ok w0 := by
    unfold Wheel.new
    rw [if_neg hh.ne', hd]
    simp
  obtain ⟨w0, h0⟩ := hnew
  have s0 := new_sound hJ hM hR h0
  refine ⟨w0, h0, ?_⟩
  -- after the command
  have e1 := setTargetRw_eq w0 (by rw [s0.inertia]; exact hJ) (by rw [s0.maxTorque]; exact hM) t
  set v1 := w0.setTargetRw t with hv1
  have sv1 : Sound p v1 := setTargetRw_sound hJ hM s0 t
  have v1t : v1.target = t / p.inertia := by rw [e1, s0.maxTorque, s0.inertia, clamp_id _ _ ht]
  have v1d : v1.drive = true := by rw [e1]; obtain ⟨_, _, rfl⟩ := new_ok h0; exact hdrive
  have v1b : v1.buffer = [0] := by rw [e1]; obtain ⟨_, _, rfl⟩ := new_ok h0; simp [hd]
  have v1l : v1.lag.output = 0 := by rw [e1]; obtain ⟨_, _, rfl⟩ := new_ok h0; rfl
  have v1o : v1.omega = 0 := by rw [e1]; obtain ⟨_, _, rfl⟩ := new_ok h0; exact hi
  have v1r : v1.limitRpm = p.maxRpm := by rw [e1]; obtain ⟨_, _, rfl⟩ := new_ok h0; rfl
  -- first update
  obtain ⟨v2, y2, hy2, a0, a1, a2, a3, a4, -, -, -, -, -, -, -, -, a13, -, -, a16, -, a18, -⟩ :=
    main_drive v1 v1d 0 [] v1b (by rw [sv1.lagStep]; exact hh) (by rw [sv1.lagConstant]; exact hτ.le) sv1.lagGain
  have sv2 : Sound p v2 := by
    obtain ⟨x, hx, sx⟩ := apply_sound hh hJ hM hR hτ.le sv1 .main
    simp only [Wheel.apply, a0] at hx
    exact Res.ok.inj hx ▸ sx
  have y20 : y2 = 0 := by rw [hy2, v1l]; simp
  have v2o : v2.omega = 0 := by rw [a18, y20, spin_zero, sv1.odeOmega, v1o]
  have v2b : v2.buffer = [t / p.inertia] := by rw [a1, v1t]; rfl
  have v2l : v2.lag.output = 0 := by rw [a2, y20]
  -- second update
  obtain ⟨v3, y3, hy3, b0, b1, b2, b3, b4, -, -, -, -, -, -, -, -, b13, -, -, b16, -, b18, -⟩ :=
    main_drive v2 (by rw [a13]; exact v1d) (t / p.inertia) [] v2b (by rw [sv2.lagStep]; exact hh) (by rw [sv2.lagConstant]; exact hτ.le) sv2.lagGain
  have sv3 : Sound p v3 := by
    obtain ⟨x, hx, sx⟩ := apply_sound hh hJ hM hR hτ.le sv2 .main
    simp only [Wheel.apply, b0] at hx
    exact Res.ok.inj hx ▸ sx
  have y3e : y3 = p.step / (p.step + p.timeConstant) * (t / p.inertia) := by rw [hy3, v2l, sv2.lagStep, sv2.lagConstant]; ring
  have hyb : |y3| ≤ |t| / p.inertia := by
    have : |t / p.inertia| = |t| / p.inertia := by rw [abs_div, abs_of_pos hJ]
    rw [y3e, abs_mul, abs_of_pos (by positivity), this]
    have : p.step / (p.step + p.timeConstant) ≤ 1 := by rw [div_le_one hs]; linarith
    have h0 : 0 ≤ |t| / p.inertia := by positivity
    exact mul_le_of_le_one_left h0 this
  have hy0 : p.step * |y3| ≤ p.step * (|t| / p.inertia) := by gcongr
  have hL0 : 0 ≤ p.maxRpm * (2 * Real.pi / 60) := by have := Real.pi_pos; positivity
  have hpos : 0 ≤ p.step * (|t| / p.inertia) := by positivity
  have hlim3 : p.maxRpm * rpmToRadS = p.maxRpm * (2 * Real.pi / 60) := by rw [rpm_eq]
  have v3o : v3.omega = p.step * y3 := by
    rw [b18, sv2.odeLimit, sv2.odeStep, sv2.odeOmega, a4, v1r, v2o, spin_free, zero_add]
    · exact hh
    · rw [abs_zero, hlim3]; exact hL0
    · rw [zero_add, abs_mul, abs_of_pos hh, hlim3]; linarith only [hy0, hL, hpos]
  -- command zero, free running
  have e4 := setTargetRw_eq v3 (by rw [sv3.inertia]; exact hJ) (by rw [sv3.maxTorque]; exact hM) 0
  set v4 := v3.setTargetRw 0 with hv4
  have sv4 : Sound p v4 := setTargetRw_sound hJ hM sv3 0
  have sv5 : Sound p (v4.setDrive false) := { sv4 with }
  obtain ⟨v6, c0, c1, c2, c3, c4, -, -, -, -, -, -, -, -, c13, -, -, c16, -, c18, -⟩ := main_coast (v4.setDrive false) rfl
  have sv6 : Sound p v6 := by
    obtain ⟨x, hx, sx⟩ := apply_sound hh hJ hM hR hτ.le sv5 .main
    simp only [Wheel.apply, c0] at hx
    exact Res.ok.inj hx ▸ sx
  have v4o : v4.omega = p.step * y3 := by rw [e4]; exact v3o
  have v6o : v6.omega = p.step * y3 := by
    rw [c18, if_neg (by rw [sv5.stopLimit, hst]; exact not_lt.2 (abs_nonneg _))]
    have : coastAcceleration (v4.setDrive false) = 0 := by unfold coastAcceleration; rw [sv5.friction, hf]; simp [poly]
    rw [this, spin_zero, sv5.odeOmega]
    exact v4o
  have v6b : v6.buffer = [0] := by
    rw [c1]
    change List.map (fun _ => (0 : ℝ)) v4.buffer = [0]
    rw [e4]
    change List.map (fun _ => (0 : ℝ)) v3.buffer = [0]
    rw [b1]; rfl
  have v6l : v6.lag.output = y3 := by
    rw [c2]
    change v4.lag.output = y3
    rw [e4]
    change v3.lag.output = y3
    rw [b2]
  have v6r : v6.limitRpm = p.maxRpm := by
    rw [c4]
    change v4.limitRpm = _
    rw [e4]
    change v3.limitRpm = _
    rw [b4, a4, v1r]
  -- driven again
  have sv7 : Sound p (v6.setDrive true) := { sv6 with }
  obtain ⟨v8, y8, hy8, d0, -, -, -, -, -, -, -, -, -, -, -, -, -, -, -, d16, -, d18, -⟩ :=
    main_drive (v6.setDrive true) rfl 0 [] v6b (by rw [sv7.lagStep]; exact hh) (by rw [sv7.lagConstant]; exact hτ.le) sv7.lagGain
  have y8e : y8 = p.timeConstant / (p.step + p.timeConstant) * y3 := by
    rw [hy8, sv7.lagStep, sv7.lagConstant]
    change (p.timeConstant * v6.lag.output + p.step * 0) / _ = _
    rw [v6l]; ring
  have hy8b : |y8| ≤ |t| / p.inertia := by
    rw [y8e, abs_mul, abs_of_pos (by positivity)]
    have : p.timeConstant / (p.step + p.timeConstant) ≤ 1 := by rw [div_le_one hs]; linarith
    exact (mul_le_of_le_one_left (abs_nonneg y3) this).trans hyb
  have hy80 : p.step * |y8| ≤ p.step * (|t| / p.inertia) := by gcongr
  refine ⟨v6, v8, ?_, ?_, ?_⟩
  · simp only [Wheel.run, Wheel.apply, Res.bind, ← hv1, a0, b0, ← hv4, c0]
  · simp only [Wheel.run, Wheel.apply, Res.bind, d0]
  · rw [d18, sv7.odeLimit, sv7.odeStep, sv7.odeOmega]
    change spin (v6.limitRpm * rpmToRadS) p.step v6.omega y8 - _ = _
    rw [v6r, v6o, hlim3, spin_free]
    · rw [y8e, y3e]; ring
    · exact hh
    · rw [abs_mul, abs_of_pos hh]; linarith only [hy0, hL, hpos]
    · refine (abs_add_le _ _).trans ?_
      rw [abs_mul, abs_mul, abs_of_pos hh]; linarith only [hy0, hy80, hL, hpos]

/-- The direction given in the settings file is the rotation axis. -/
theorem C116_axis (eps : ℝ) (heps : 0 < eps) (heps1 : eps < 1) (d : Vec 3) (hd : calcNorm d > eps) :
    ∃ q, directionQuaternion eps d = .ok q ∧
      (let n := scale (1 / calcNorm d) d
       let e := vsub (q.inverseFrameConversion ![0, 0, 1]) n
       dot3 e e < 2 * eps ∧ (n 2 ≤ 1 - eps → -1 + eps ≤ n 2 → q.inverseFrameConversion ![0, 0, 1] = n)) := by
  have hz : calcNorm (![0, 0, 1] : Vec 3) = 1 := by simp [calcNorm, Fin.sum_univ_three]
  obtain ⟨q, h1, hq, h2, h3⟩ := C70_two_vectors eps heps d ![0, 0, 1] hd (by rw [hz]; exact heps1)
  refine ⟨q.conjugate, by simp only [directionQuaternion, h1, Res.bind], ?_⟩
  have hc : ∀ v, q.conjugate.inverseFrameConversion v = q.frameConversion v := by
    intro v
    rw [frame_explicit, inverse_explicit]
    apply vec3_ext <;> simp [Quat.conjugate] <;> left <;> ring
  have hs : scale (1 / calcNorm (![0, 0, 1] : Vec 3)) ![0, 0, 1] = ![0, 0, 1] := by
    rw [hz]; apply vec3_ext <;> simp [scale]
  rw [hs] at h2 h3
  simp only [hc]
  generalize scale (1 / calcNorm d) d = n at h2 h3 ⊢
  have hdot : dot3 n ![0, 0, 1] = n 2 := by simp [dot3]
  rw [hdot] at h3
  constructor
  · refine lt_of_eq_of_lt ?_ h2
    rw [← (C64_isometry q hq (vsub (q.inverseFrameConversion n) ![0, 0, 1]) _).1]
    have : q.frameConversion (vsub (q.inverseFrameConversion n) ![0, 0, 1]) = vneg (vsub (q.frameConversion ![0, 0, 1]) n) := by
      have h := C64_linear q 1 (-1) (q.inverseFrameConversion n) ![0, 0, 1]
      rw [(C64_inverse q hq n).2] at h
      have e : vsub (q.inverseFrameConversion n) ![0, 0, 1] = vadd (scale 1 (q.inverseFrameConversion n)) (scale (-1) ![0, 0, 1]) := by
        funext i; simp [vsub, vadd, scale]; ring
      rw [e, h]
      funext i; simp [vsub, vadd, scale, vneg]; ring
    rw [this]
    simp [dot3, vneg, scale]
  · intro a b
    rw [← h3 a b, (C64_inverse q hq n).2]

end S2E.Wheel
