import Verif.Model.Magnetorquer
import Verif.Spec.Magnetorquer
import Verif.Props.Quaternion
import Verif.Props.Random
import Mathlib.Tactic.Linarith
/-!
# C123: the magnetorquer; C124: its interference with magnetometers
-/
namespace S2E.Mtq
open S2E.Random MtqSpec

/-- A history ends with the state the model computes from the state before. -/
theorem run_append {γ δ : Type} (std : γ → ℝ × γ) (draw : δ → ℝ × δ) (a b : List Op) (s : Mtq γ δ) :
    Mtq.run std draw (a ++ b) s = Mtq.run std draw b (Mtq.run std draw a s) := by
  induction a generalizing s with
  | nil => rfl
  | cons o a ih => cases o <;> simp only [List.cons_append, Mtq.run, ih]

/-- What never changes. -/
structure Same {γ δ : Type} (s s' : Mtq γ δ) : Prop where
  c2b : s'.c2b = s.c2b
  scaleFactor : s'.scaleFactor = s.scaleFactor
  max : s'.max = s.max
  min : s'.min = s.min
  bias : s'.bias = s.bias
  sigma : s'.sigma = s.sigma
  walkLimit : s'.walkLimit = s.walkLimit

theorem Same.trans {γ δ : Type} {a b c : Mtq γ δ} (h : Same a b) (k : Same b c) : Same a c :=
  ⟨k.1.trans h.1, k.2.trans h.2, k.3.trans h.3, k.4.trans h.4, k.5.trans h.5, k.6.trans h.6, k.7.trans h.7⟩

theorem run_same {γ δ : Type} (std : γ → ℝ × γ) (draw : δ → ℝ × δ) (ops : List Op) (s : Mtq γ δ) : Same s (Mtq.run std draw ops s) := by
  induction ops generalizing s with
  | nil => exact ⟨rfl, rfl, rfl, rfl, rfl, rfl, rfl⟩
  | cons o a ih =>
    cases o with
    | command m => exact Same.trans (b := s.command m) ⟨rfl, rfl, rfl, rfl, rfl, rfl, rfl⟩ (ih _)
    | main B => exact Same.trans (b := s.main std draw B) ⟨rfl, rfl, rfl, rfl, rfl, rfl, rfl⟩ (ih _)
    | powerOff => exact Same.trans (b := s.powerOff) ⟨rfl, rfl, rfl, rfl, rfl, rfl, rfl⟩ (ih _)

theorem conjugate_conversion (q : Quat) (v : Vec 3) : q.conjugate.frameConversion v = q.inverseFrameConversion v := by
  rw [frame_explicit, inverse_explicit]
  apply vec3_ext <;> simp [Quat.conjugate] <;> ring_nf <;> simp

theorem limited_eq (lo hi m : ℝ) (h : lo ≤ hi) : limited hi lo m = nearest lo hi m := by
  unfold limited nearest
  split_ifs with h1 h2
  · rw [min_eq_left h1.le, max_eq_right h]
  · rw [min_eq_right (not_lt.1 h1), max_eq_left h2.le]
  · rw [min_eq_right (not_lt.1 h1), max_eq_right (not_lt.1 h2)]

/-- **C123.** In every history: an update after the command `m` in the field `B` (nT) gives the moment `S (n + b + w + σ z)` in component frame — `n`
the command limited to the range, `b` the bias, `w` the random walk, `z` the noise values —, and the torque on the body is that moment, turned
into the body frame, times the field in tesla: perpendicular to field and moment. -/
theorem C123_output {γ δ : Type} (std : γ → ℝ × γ) (draw : δ → ℝ × δ) (b2c : Quat) (S : Mat 3 3) (hi lo bias : Vec 3) (hlim : ∀ i, lo i ≤ hi i)
    (step : ℝ) (limit : Vec 3) (walkG : Fin 3 → δ) (sigma : Vec 3) (g0 : γ) (ops : List Op) (m B : Vec 3) :
    let start := Mtq.new b2c S hi lo bias step limit walkG sigma g0
    let before := Mtq.run std draw ops start
    let after := Mtq.run std draw (ops ++ [.command m, .main B]) start
    (∀ i, after.momentC i = ∑ j, S i j * (nearest (lo j) (hi j) (m j) + bias j + before.walkX j + sigma j * (std (before.noise j)).1)) ∧
    after.momentB = b2c.inverseFrameConversion after.momentC ∧
    after.torque = outerProduct after.momentB (scale (1 / 10 ^ 9) B) ∧ dot3 after.torque B = 0 ∧ dot3 after.torque after.momentB = 0 := by
  intro start before after
  have e : after = (before.command m).main std draw B := by
    simp only [after, before, run_append]; rfl
  have s : Same start before := run_same ..
  have e1 : after.momentB = b2c.inverseFrameConversion after.momentC := by
    rw [e]; simp only [Mtq.main, Mtq.command, s.c2b]
    exact conjugate_conversion _ _
  have e2 : after.torque = outerProduct after.momentB (scale (1 / 10 ^ 9) B) := by
    rw [e]; simp only [Mtq.main]; norm_num
  refine ⟨fun i => ?_, e1, e2, ?_, ?_⟩
  · rw [e]
    simp only [Mtq.main, Mtq.command, s.scaleFactor, s.max, s.min, s.bias, s.sigma, matVec, start, Mtq.new]
    simp only [limited_eq _ _ _ (hlim _)]
  · rw [e2]; simp only [dot3, outerProduct, scale]; simp; ring
  · rw [e2]; simp only [dot3, outerProduct, scale]; simp; ring

/-- Updates in the fields of a list, without a command between them. -/
def updates (Bs : List (Vec 3)) : List Op := Bs.map .main

/-- No noise at all: noise and walk sources that yield zero only. -/
theorem walk_still {γ δ : Type} (std : γ → ℝ × γ) (draw : δ → ℝ × δ) (hz : ∀ g, (draw g).1 = 0) (ops : List Op) (s : Mtq γ δ)
    (h0 : s.walkX = fun _ => 0) : (Mtq.run std draw ops s).walkX = fun _ => 0 := by
  induction ops generalizing s with
  | nil => exact h0
  | cons o a ih =>
    cases o with
    | command m => exact ih _ h0
    | powerOff => exact ih _ h0
    | main B =>
      apply ih
      have : (s.main std draw B).walkX = s.walkX :=
        (C48_zero_noise s.walkStep draw s.walkLimit hz 1 s.walkT s.walkX s.walkG).1
      rw [this, h0]

/-- One noise-free update. -/
theorem main_quiet {γ δ : Type} (std : γ → ℝ × γ) (draw : δ → ℝ × δ) (s : Mtq γ δ) (hs : ∀ g, (std g).1 = 0) (hw : s.walkX = fun _ => 0) (B : Vec 3)
    (i : Fin 3) : (s.main std draw B).momentC i = ∑ j, s.scaleFactor i j * (limited (s.max j) (s.min j) (s.momentC j) + s.bias j) := by
  simp only [Mtq.main, matVec, hw, hs, mul_zero, add_zero]

theorem nearest_idem (lo hi x : ℝ) (h : lo ≤ hi) : nearest lo hi (nearest lo hi x) = nearest lo hi x := by
  unfold nearest
  rw [min_eq_right (max_le h (min_le_left _ _)), max_eq_right (le_max_left _ _)]

theorem one_sum (v : Vec 3) (i : Fin 3) : ∑ j, (1 : Mat 3 3) i j * v j = v i := by
  simp [Matrix.one_apply]

/-- Without errors (unit scale factor, no bias, no noise) one command is enough: at every later update the moment is the limited command, and the
torque that of the present field. -/
theorem C123_ideal {γ δ : Type} (std : γ → ℝ × γ) (draw : δ → ℝ × δ) (hs : ∀ g, (std g).1 = 0) (hd : ∀ g, (draw g).1 = 0) (b2c : Quat)
    (hi lo : Vec 3) (hlim : ∀ i, lo i ≤ hi i) (step : ℝ) (limit : Vec 3) (walkG : Fin 3 → δ) (sigma : Vec 3) (g0 : γ) (ops : List Op)
    (m : Vec 3) (Bs : List (Vec 3)) (B : Vec 3) :
    let s := Mtq.run std draw (ops ++ .command m :: updates (Bs ++ [B])) (Mtq.new b2c 1 hi lo (fun _ => 0) step limit walkG sigma g0)
    s.momentC = (fun i => nearest (lo i) (hi i) (m i)) ∧
      s.torque = outerProduct (b2c.inverseFrameConversion fun i => nearest (lo i) (hi i) (m i)) (scale (1 / 10 ^ 9) B) := by
  set start := Mtq.new b2c 1 hi lo (fun _ => 0) step limit walkG sigma g0 with hstart
  have key : ∀ Bs : List (Vec 3), ∀ i, nearest (lo i) (hi i) ((Mtq.run std draw (ops ++ .command m :: updates Bs) start).momentC i) =
      nearest (lo i) (hi i) (m i) := by
    intro Bs
    induction Bs using List.reverseRecOn with
    | nil => intro i; rw [run_append]; rfl
    | append_singleton Bs B ih =>
      intro i
      rw [show ops ++ Op.command m :: updates (Bs ++ [B]) = (ops ++ .command m :: updates Bs) ++ [.main B] by simp [updates], run_append]
      have s := run_same std draw (ops ++ .command m :: updates Bs) start
      have hw := walk_still std draw hd (ops ++ .command m :: updates Bs) start rfl
      generalize Mtq.run std draw (ops ++ .command m :: updates Bs) start = v at *
      simp only [Mtq.run]
      rw [main_quiet std draw v hs hw]
      simp only [s.scaleFactor, s.max, s.min, s.bias, hstart, Mtq.new, add_zero]
      rw [one_sum (fun j => limited (hi j) (lo j) (v.momentC j)), limited_eq _ _ _ (hlim i), nearest_idem _ _ _ (hlim i), ih]
  intro s
  have e : s = (Mtq.run std draw (ops ++ .command m :: updates Bs) start).main std draw B := by
    simp only [s]
    rw [show ops ++ Op.command m :: updates (Bs ++ [B]) = (ops ++ .command m :: updates Bs) ++ [.main B] by simp [updates], run_append]
    rfl
  have k := key Bs
  have sm := run_same std draw (ops ++ .command m :: updates Bs) start
  have hw := walk_still std draw hd (ops ++ .command m :: updates Bs) start rfl
  generalize Mtq.run std draw (ops ++ .command m :: updates Bs) start = v at *
  have e1 : s.momentC = fun i => nearest (lo i) (hi i) (m i) := by
    funext i
    rw [e, main_quiet std draw v hs hw]
    simp only [sm.scaleFactor, sm.max, sm.min, sm.bias, hstart, Mtq.new, add_zero]
    rw [one_sum (fun j => limited (hi j) (lo j) (v.momentC j)), limited_eq _ _ _ (hlim i), k]
  refine ⟨e1, ?_⟩
  have e2 : s.torque = outerProduct (v.c2b.frameConversion s.momentC) (scale (1 / 10 ^ 9) B) := by
    rw [e]; simp only [Mtq.main]; norm_num
  rw [e2, e1, sm.c2b, hstart]
  congr 1
  exact conjugate_conversion _ _

/-- With errors it is not: the output of an update is the command of the next one. A bias `b ≥ 0` adds up at every update without a new command,
until it stands at the limit plus the bias. -/
theorem C123_bias_accumulates {γ δ : Type} (std : γ → ℝ × γ) (draw : δ → ℝ × δ) (hs : ∀ g, (std g).1 = 0) (hd : ∀ g, (draw g).1 = 0) (b2c : Quat)
    (hi lo bias : Vec 3) (step : ℝ) (limit : Vec 3) (walkG : Fin 3 → δ) (sigma : Vec 3) (g0 : γ) (ops : List Op)
    (m : Vec 3) (i : Fin 3) (hb : 0 ≤ bias i) (h1 : lo i ≤ m i) (h2 : m i ≤ hi i) (Bs : List (Vec 3)) (B : Vec 3) :
    let s := Mtq.run std draw (ops ++ .command m :: updates (Bs ++ [B])) (Mtq.new b2c 1 hi lo bias step limit walkG sigma g0)
    s.momentC i = min (m i + (Bs.length + 1) * bias i) (hi i + bias i) := by
  set start := Mtq.new b2c 1 hi lo bias step limit walkG sigma g0 with hstart
  have hlim : lo i ≤ hi i := h1.trans h2
  intro s
  have step1 : ∀ (Bs : List (Vec 3)) (B : Vec 3), (Mtq.run std draw (ops ++ .command m :: updates (Bs ++ [B])) start).momentC i =
      nearest (lo i) (hi i) ((Mtq.run std draw (ops ++ .command m :: updates Bs) start).momentC i) + bias i := by
    intro Bs B
    rw [show ops ++ Op.command m :: updates (Bs ++ [B]) = (ops ++ .command m :: updates Bs) ++ [.main B] by simp [updates], run_append]
    have sm := run_same std draw (ops ++ .command m :: updates Bs) start
    have hw := walk_still std draw hd (ops ++ .command m :: updates Bs) start rfl
    generalize Mtq.run std draw (ops ++ .command m :: updates Bs) start = v at *
    simp only [Mtq.run]
    rw [main_quiet std draw v hs hw]
    simp only [sm.scaleFactor, sm.max, sm.min, sm.bias, hstart, Mtq.new]
    rw [one_sum (fun j => limited (hi j) (lo j) (v.momentC j) + bias j), limited_eq _ _ _ hlim]
  have key : ∀ Bs : List (Vec 3), ∀ B : Vec 3, (Mtq.run std draw (ops ++ .command m :: updates (Bs ++ [B])) start).momentC i =
      min (m i + (Bs.length + 1) * bias i) (hi i + bias i) := by
    intro Bs
    induction Bs using List.reverseRecOn with
    | nil =>
      intro B
      rw [step1 [] B, run_append]
      have : (Mtq.run std draw (.command m :: updates []) (Mtq.run std draw ops start)).momentC i = m i := rfl
      rw [this, nearest, min_eq_right h2, max_eq_right h1, min_eq_left (by simp; linarith)]
      simp
    | append_singleton Bs B ih =>
      intro B'
      have hn : 0 ≤ (Bs.length + 1 : ℝ) * bias i := by positivity
      rw [step1 (Bs ++ [B]) B', ih B, nearest]
      have a1 : lo i ≤ min (hi i) (min (m i + (Bs.length + 1) * bias i) (hi i + bias i)) :=
        le_min hlim (le_min (by linarith) (by linarith))
      rw [max_eq_right a1]
      rw [show min (hi i) (min (m i + (Bs.length + 1) * bias i) (hi i + bias i)) = min (m i + (Bs.length + 1) * bias i) (hi i) by
        rw [min_comm (m i + _), ← min_assoc, min_eq_left (by linarith : hi i ≤ hi i + bias i), min_comm]]
      rw [← min_add_add_right]
      congr 1
      simp only [List.length_append, List.length_cons, List.length_nil]
      push_cast; ring
  exact key Bs B

/-- A scale factor below one lets the moment fade away: after `n` updates without a new command it is `kⁿ` times the command. -/
theorem C123_scale_decays {γ δ : Type} (std : γ → ℝ × γ) (draw : δ → ℝ × δ) (hs : ∀ g, (std g).1 = 0) (hd : ∀ g, (draw g).1 = 0) (b2c : Quat)
    (k : ℝ) (hk : 0 ≤ k) (hk1 : k ≤ 1) (hi lo : Vec 3) (step : ℝ) (limit : Vec 3) (walkG : Fin 3 → δ) (sigma : Vec 3) (g0 : γ) (ops : List Op)
    (m : Vec 3) (i : Fin 3) (hlo : lo i ≤ 0) (hhi : 0 ≤ hi i) (h1 : lo i ≤ m i) (h2 : m i ≤ hi i) (Bs : List (Vec 3)) :
    (Mtq.run std draw (ops ++ .command m :: updates Bs) (Mtq.new b2c (Matrix.diagonal fun _ => k) hi lo (fun _ => 0) step limit walkG sigma g0)).momentC i =
      k ^ Bs.length * m i := by
  set start := Mtq.new b2c (Matrix.diagonal fun _ => k) hi lo (fun _ => 0) step limit walkG sigma g0 with hstart
  induction Bs using List.reverseRecOn with
  | nil => rw [run_append]; simp [Mtq.run, updates, Mtq.command]
  | append_singleton Bs B ih =>
    rw [show ops ++ Op.command m :: updates (Bs ++ [B]) = (ops ++ .command m :: updates Bs) ++ [.main B] by simp [updates], run_append]
    have sm := run_same std draw (ops ++ .command m :: updates Bs) start
    have hw := walk_still std draw hd (ops ++ .command m :: updates Bs) start rfl
    generalize Mtq.run std draw (ops ++ .command m :: updates Bs) start = v at *
    simp only [Mtq.run]
    rw [main_quiet std draw v hs hw]
    simp only [sm.scaleFactor, sm.max, sm.min, sm.bias, hstart, Mtq.new, add_zero]
    have h0 : 0 ≤ k ^ Bs.length := by positivity
    have h01 : k ^ Bs.length ≤ 1 := pow_le_one₀ hk hk1
    have : limited (hi i) (lo i) (v.momentC i) = k ^ Bs.length * m i := by
      rw [limited_eq _ _ _ (hlo.trans hhi), ih, nearest, min_eq_right (by nlinarith), max_eq_right (by nlinarith)]
    simp only [Matrix.diagonal_apply, ite_mul, zero_mul, Finset.sum_ite_eq, Finset.mem_univ, if_true, this]
    simp only [List.length_append, List.length_cons, List.length_nil, pow_succ]
    ring

/-- Power off: moment and torque are zero, and the command is lost — the next update without a new command starts from a command of zero. -/
theorem C123_power_off {γ δ : Type} (std : γ → ℝ × γ) (draw : δ → ℝ × δ) (ops : List Op) (s : Mtq γ δ) (B : Vec 3) :
    let off := Mtq.run std draw (ops ++ [.powerOff]) s
    off.torque = (fun _ => 0) ∧ off.momentC = (fun _ => 0) ∧ off.momentB = (fun _ => 0) ∧
      Mtq.run std draw (ops ++ [.powerOff, .main B]) s = Mtq.run std draw (ops ++ [.powerOff, .command (fun _ => 0), .main B]) s := by
  intro off
  have e : off = (Mtq.run std draw ops s).powerOff := by simp only [off, run_append]; rfl
  refine ⟨?_, ?_, ?_, ?_⟩
  · rw [e]; funext i; simp [Mtq.powerOff, scale]
  · rw [e]; funext i; simp [Mtq.powerOff, scale]
  · rw [e]; funext i; simp [Mtq.powerOff, scale]
  · rw [run_append, run_append]
    simp only [Mtq.run]
    congr 1
    simp only [Mtq.command, Mtq.powerOff]
    congr 1
    funext i; simp [scale]

/-- The white noise of the three axes comes from generators with the same seed: after any history their states are equal, a function of the number of
updates only, so the noise of each axis is always its standard deviation times the same value — in every magnetorquer of the program. -/
theorem C123_same_noise {γ δ : Type} (std : γ → ℝ × γ) (draw : δ → ℝ × δ) (b2c : Quat) (S : Mat 3 3) (hi lo bias : Vec 3) (step : ℝ) (limit : Vec 3)
    (walkG : Fin 3 → δ) (sigma : Vec 3) (g0 : γ) (ops : List Op) (i : Fin 3) :
    (Mtq.run std draw ops (Mtq.new b2c S hi lo bias step limit walkG sigma g0)).noise i =
      (fun g => (std g).2)^[(ops.filter fun o => match o with | .main _ => true | _ => false).length] g0 := by
  have key : ∀ (ops : List Op) (s : Mtq γ δ), (Mtq.run std draw ops s).noise i =
      (fun g => (std g).2)^[(ops.filter fun o => match o with | .main _ => true | _ => false).length] (s.noise i) := by
    intro ops
    induction ops with
    | nil => intro s; rfl
    | cons o a ih =>
      intro s
      cases o with
      | command m => simp only [Mtq.run, List.filter_cons]; rw [ih]; rfl
      | powerOff => simp only [Mtq.run, List.filter_cons]; rw [ih]; rfl
      | main B =>
        simp only [Mtq.run, List.filter_cons, if_true, List.length_cons, Function.iterate_succ, Function.comp]
        rw [ih]; rfl
  exact key ops _

/-- The generators of the program are of the assumed form: with average zero and standard deviation `σ` the value drawn is `σ` times the one drawn with
standard deviation one, and the generator after it does not depend on `σ`. -/
theorem C123_normal_scaled (eps : ℝ) (fuel : ℕ) (n : NormalRand) (σ : ℝ) :
    (n.setParameters 0 σ).draw eps fuel =
      ((n.setParameters 0 1).draw eps fuel).bind fun r => .ok (σ * r.1, r.2.setParameters 0 σ) := by
  unfold NormalRand.draw
  simp only [NormalRand.setParameters]
  by_cases h : n.isEmpty
  · simp only [h, if_true]
    rcases polarLoop eps fuel n.rnd with ⟨v1, v2, g⟩ | _ | _ | _
    · simp only [bind, Res.bind, mul_one, add_zero]
      congr 2
      ring
    all_goals rfl
  · simp only [h, Bool.false_eq_true, if_false, Res.bind, mul_one, add_zero]
    congr 2
    ring

/-- A magnetorquer along the body axes with a bias of 1/10: commanded once to 1, after three updates it gives 1.3. -/
example (B : Vec 3) : (Mtq.run (γ := Unit) (δ := Unit) (fun g => (0, g)) (fun g => (0, g)) (.command ![1, 0, 0] :: updates ([B, B] ++ [B]))
    (Mtq.new ⟨0, 0, 0, 1⟩ 1 (fun _ => 10) (fun _ => -10) (fun _ => 1 / 10) 1 (fun _ => 0) (fun _ => ()) (fun _ => 0) ())).momentC 0 = 13 / 10 := by
  have := C123_bias_accumulates (γ := Unit) (δ := Unit) (fun g => (0, g)) (fun g => (0, g)) (fun _ => rfl) (fun _ => rfl) ⟨0, 0, 0, 1⟩ (fun _ => 10)
    (fun _ => -10) (fun _ => 1 / 10) 1 (fun _ => 0) (fun _ => ()) (fun _ => 0) () [] ![1, 0, 0] 0 (by norm_num) (by norm_num) (by norm_num) [B, B] B
  simp only [List.nil_append] at this
  rw [this]
  norm_num

/-! ## C124 interference with a magnetometer -/

/-- The loop is the polynomial. -/
theorem loop_eq (m : Vec 3) (i : Fin 3) : ∀ (a : List (Mat 3 3)) (d : ℕ) (acc : Vec 3), interferenceLoop m d a acc i =
    acc i + ∑ e ∈ Finset.range a.length, ∑ j, (a.getD e 0) i j * m j ^ (e + d)
  | [], d, acc => by simp [interferenceLoop]
  | x :: a, d, acc => by
    rw [interferenceLoop, loop_eq m i a (d + 1), List.length_cons, Finset.sum_range_succ']
    simp only [vadd, matVec, List.getD_cons_succ, List.getD_cons_zero, zero_add]
    rw [add_assoc, add_comm (∑ j, x i j * m j ^ d)]
    simp only [add_comm, add_left_comm]

theorem added_eq (m : Vec 3) (a : List (Mat 3 3)) : interferenceLoop m 1 a (fun _ => 0) = polynomial a m := by
  funext i
  rw [loop_eq, polynomial, zero_add]

/-- The sum of the `AddConstantBiasNoise_c_nT` calls. -/
def added : List BiasOp → Vec 3
  | [] => fun _ => 0
  | .add b :: rest => vadd b (added rest)
  | _ :: rest => added rest

/-- The moments with which interference `k` was updated, in order. -/
def moments (k : ℕ) (ops : List BiasOp) : List (Vec 3) :=
  ops.filterMap fun o => match o with
    | .update j m => if j = k then some m else none
    | _ => none

/-- What interference `k` with coefficients `a` contributes after the history: its polynomial at the moment of its last update, nothing before. -/
noncomputable def contribution (a : List (Mat 3 3)) (k : ℕ) (ops : List BiasOp) : Vec 3 :=
  match (moments k ops).getLast? with
  | none => fun _ => 0
  | some m => polynomial a m

theorem bias_append (a b : List BiasOp) (s : Vec 3 × List Interference) : biasRun (a ++ b) s = biasRun b (biasRun a s) := by
  induction a generalizing s with
  | nil => rfl
  | cons o a ih =>
    cases o with
    | add x => exact ih _
    | set x => exact ih _
    | update k m =>
      simp only [List.cons_append, biasRun]
      split <;> exact ih _

/-- **C124.** Whatever updates of any number of interferences on one magnetometer and additions to its bias are made, in any order: the bias of the
magnetometer is the original one plus the additions plus, for each interference, the polynomial of the output moment at its latest update — old
contributions never remain. -/
theorem C124_net_bias (b0 : Vec 3) (as : List (List (Mat 3 3))) (ops : List BiasOp) (hset : ∀ b, BiasOp.set b ∉ ops) :
    let r := biasRun ops (b0, as.map fun a => ⟨a, fun _ => 0⟩)
    r.2.length = as.length ∧ ∀ i, r.1 i = b0 i + added ops i + ∑ k ∈ Finset.range as.length, contribution (as.getD k []) k ops i := by
  have key : ∀ ops : List BiasOp, (∀ b, BiasOp.set b ∉ ops) →
      let r := biasRun ops (b0, as.map fun a => ⟨a, fun _ => 0⟩)
      r.2 = (as.zipIdx.map fun x => (⟨x.1, contribution x.1 x.2 ops⟩ : Interference)) ∧
        ∀ i, r.1 i = b0 i + added ops i + ∑ k ∈ Finset.range as.length, contribution (as.getD k []) k ops i := by
    intro ops
    induction ops using List.reverseRecOn with
    | nil =>
      intro _ r
      refine ⟨?_, fun i => by simp [r, biasRun, added, contribution, moments]⟩
      apply List.ext_getElem (by simp [r, biasRun])
      intro k h1 h2
      simp [r, biasRun, contribution, moments]
    | append_singleton ops o ih =>
      intro hset r
      have hset' : ∀ b, BiasOp.set b ∉ ops := fun b hb => hset b (List.mem_append_left _ hb)
      obtain ⟨i1, i2⟩ := ih hset'
      have er : r = biasRun [o] (biasRun ops (b0, as.map fun a => ⟨a, fun _ => 0⟩)) := bias_append _ _ _
      generalize hv : biasRun ops (b0, as.map fun a => ⟨a, fun _ => 0⟩) = v at *
      have hadd : ∀ (l : List BiasOp) (o : BiasOp), added (l ++ [o]) = vadd (added l) (added [o]) := by
        intro l o
        induction l with
        | nil => funext i; simp [added, vadd]
        | cons p l ihl => cases p <;> simp only [List.cons_append, added, ihl] <;> (funext i; simp only [vadd]; try ring)
      cases o with
      | set b => exact absurd (by simp) (hset b)
      | add b =>
        have hc : ∀ a k, contribution a k (ops ++ [.add b]) = contribution a k ops := by
          intro a k; simp [contribution, moments]
        simp only [er, biasRun, hc, hadd]
        refine ⟨i1, fun i => ?_⟩
        simp only [vadd, i2 i, added]
        ring
      | update k m =>
        have hne : ∀ a j, j ≠ k → contribution a j (ops ++ [.update k m]) = contribution a j ops := by
          intro a j hj
          simp [contribution, moments, Ne.symm hj]
        have heq : ∀ a, contribution a k (ops ++ [.update k m]) = polynomial a m := by
          intro a
          simp [contribution, moments]
        have ha : added (ops ++ [.update k m]) = added ops := by
          rw [hadd]; funext i; simp [added, vadd]
        by_cases hk : k < as.length
        · have hget : v.2[k]? = some ⟨as[k], contribution as[k] k ops⟩ := by
            rw [i1]; simp [hk]
          have er' : r = (((⟨as[k], contribution as[k] k ops⟩ : Interference).update m v.1).1,
              v.2.set k ((⟨as[k], contribution as[k] k ops⟩ : Interference).update m v.1).2) := by
            rw [er]; simp only [biasRun, hget]
          refine ⟨?_, fun i => ?_⟩
          · rw [er', i1]
            apply List.ext_getElem (by simp)
            intro j h1 h2
            simp only [List.getElem_set, List.getElem_map, List.getElem_zipIdx, zero_add]
            by_cases hj : k = j
            · subst hj
              simp only [if_true, Interference.update, added_eq, heq]
            · rw [if_neg hj, hne _ _ (Ne.symm hj)]
          · rw [er', ha]
            simp only [Interference.update, vadd, scale, added_eq, i2 i]
            rw [← Finset.sum_erase_add (Finset.range as.length) _ (Finset.mem_range.2 hk),
              ← Finset.sum_erase_add (Finset.range as.length) (fun j => contribution (as.getD j []) j (ops ++ [BiasOp.update k m]) i) (Finset.mem_range.2 hk)]
            have hg : as.getD k [] = as[k] := by simp [List.getD_eq_getElem?_getD, hk]
            rw [hg, heq]
            have : ∑ j ∈ (Finset.range as.length).erase k, contribution (as.getD j []) j (ops ++ [.update k m]) i =
                ∑ j ∈ (Finset.range as.length).erase k, contribution (as.getD j []) j ops i :=
              Finset.sum_congr rfl fun j hj => by rw [hne _ _ (Finset.ne_of_mem_erase hj)]
            rw [this]
            ring
        · have hget : v.2[k]? = none := by rw [i1]; simp [not_lt.1 hk]
          have er' : r = v := by rw [er]; simp only [biasRun, hget]
          refine ⟨?_, fun i => ?_⟩
          · rw [er', i1]
            apply List.ext_getElem (by simp)
            intro j h1 h2
            simp only [List.getElem_map, List.getElem_zipIdx, zero_add]
            have : j < as.length := by simpa using h1
            rw [hne _ _ (by omega)]
          · rw [er', ha, i2 i]
            congr 1
            refine Finset.sum_congr rfl fun j hj => ?_
            have := Finset.mem_range.1 hj
            rw [hne _ _ (by omega)]
  obtain ⟨k1, k2⟩ := key ops hset
  exact ⟨by rw [k1]; simp, k2⟩

/-- If the bias is *set* in between, the next update takes away a contribution that is no longer there. -/
theorem C124_set_bias (b0 b m m' : Vec 3) (a : List (Mat 3 3)) (i : Fin 3) :
    (biasRun [.update 0 m, .set b, .update 0 m'] (b0, [⟨a, fun _ => 0⟩])).1 i = b i - polynomial a m i + polynomial a m' i := by
  simp only [biasRun, List.getElem?_cons_zero, List.set_cons_zero, Interference.update, added_eq, vadd, scale]
  ring

/-- Two interferences, linear and quadratic, updated several times. -/
example : (biasRun [.update 0 ![5, 0, 0], .update 1 ![0, 0, 3], .add ![0, 1, 0], .update 0 ![2, 0, 0]]
    ((fun _ => 1), [⟨[1], fun _ => 0⟩, ⟨[0, 1], fun _ => 0⟩])).1 = ![3, 2, 10] := by
  have h := (C124_net_bias (fun _ => 1) [[1], [0, 1]] [.update 0 ![5, 0, 0], .update 1 ![0, 0, 3], .add ![0, 1, 0], .update 0 ![2, 0, 0]] (by simp)).2
  apply vec3_ext <;> rw [show [(⟨[1], fun _ => 0⟩ : Interference), ⟨[0, 1], fun _ => 0⟩] = [[1], [0, 1]].map fun a => ⟨a, fun _ => 0⟩ from rfl, h] <;>
    simp [added, vadd, contribution, moments, polynomial, Finset.sum_range_succ, Fin.sum_univ_three, Matrix.one_apply] <;> norm_num

end S2E.Mtq
