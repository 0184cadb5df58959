import Verif.Model.SampleInterference
import Verif.Props.Magnetorquer
/-! # C198: the magnetorquer disturbs the magnetometer one step later -/
namespace S2E.SampleInterference
open SensorBase Mtq MtqSpec

variable {γ δ : Type} (draw std : γ → ℝ × γ) (walk : δ → ℝ × δ) (q : Quat)

/-- The parts at the start: nothing added to the bias yet. -/
def start (sensor : Sensor 3 γ) (reading : Vec 3) (torquer : Mtq γ δ) (a : List (Mat 3 3)) : Parts γ δ := ⟨sensor, reading, torquer, ⟨a, fun _ => 0⟩⟩

/-- `p` is `z` but for what `extra` adds to the bias of the magnetometer. -/
def Disturbed (b0 : Vec 3) (a : List (Mat 3 3)) (extra : Vec 3) (p z : Parts γ δ) : Prop :=
  p.torquer = z.torquer ∧ p.sensor = z.sensor.setBias (vadd b0 extra) ∧ z.sensor.bias = b0 ∧ p.interference = ⟨a, extra⟩ ∧ z.interference = ⟨[], fun _ => 0⟩

theorem measure_bias (s : Sensor 3 γ) (b x : Vec 3) : ((s.setBias b).measure draw x).2 = ((s.measure draw x).2).setBias b := rfl

theorem measure_keeps (s : Sensor 3 γ) (x : Vec 3) : (s.measure draw x).2.bias = s.bias := rfl

theorem tick_disturbed {b0 : Vec 3} {a : List (Mat 3 3)} {extra : Vec 3} {p z : Parts γ δ} (h : Disturbed b0 a extra p z) (u : Step) :
    Disturbed b0 a extra (tickAll draw std walk q p u) (tickAll draw std walk q z u) := by
  obtain ⟨h1, h2, h3, h4, h5⟩ := h
  unfold tickAll
  cases u.magnetometer with
  | main => exact ⟨by simp only [tickMagnetometer, h1], by simp only [tickMagnetometer, h2, frameSensor, measure_bias], h3, h4, h5⟩
  | idle => exact ⟨by simp only [tickMagnetometer, h1], h2, h3, h4, h5⟩
  | off => exact ⟨by simp only [tickMagnetometer, h1], h2, h3, h4, h5⟩

theorem interfere_disturbed {b0 : Vec 3} {a : List (Mat 3 3)} {extra : Vec 3} {p z : Parts γ δ} (h : Disturbed b0 a extra p z) :
    Disturbed b0 a (polynomial a z.torquer.momentC) (interfere p) (interfere z) ∧ (interfere z).torquer = z.torquer := by
  obtain ⟨h1, h2, h3, h4, h5⟩ := h
  obtain ⟨ps, pr, pt, pi⟩ := p
  obtain ⟨zs, zr, zt, zi⟩ := z
  dsimp only at h1 h2 h3 h4 h5
  subst h1 h2 h4 h5
  refine ⟨⟨rfl, ?_, ?_, ?_, ?_⟩, rfl⟩
  · unfold interfere Interference.update
    dsimp only
    rw [added_eq]
    have e : vadd (vadd (zs.setBias (vadd b0 extra)).bias (scale (-1) extra)) (polynomial a pt.momentC) = vadd b0 (polynomial a pt.momentC) := by
      funext i; simp only [Sensor.setBias, vadd, scale]; ring
    rw [e]
    rfl
  · unfold interfere Interference.update interferenceLoop
    dsimp only [Sensor.setBias]
    rw [h3]
    funext i; simp [vadd, scale]
  · unfold interfere Interference.update
    dsimp only
    rw [added_eq]
  · rfl

theorem step_disturbed {b0 : Vec 3} {a : List (Mat 3 3)} {extra : Vec 3} {p z : Parts γ δ} (h : Disturbed b0 a extra p z) (u : Step) :
    Disturbed b0 a (polynomial a (step draw std walk q z u).torquer.momentC) (step draw std walk q p u) (step draw std walk q z u) := by
  unfold step
  cases u.ticks
  · have := interfere_disturbed h
    rw [this.2.symm] at this
    exact this.1
  · have := interfere_disturbed (tick_disturbed draw std walk q h u)
    rw [this.2.symm] at this
    exact this.1

theorem run_disturbed (sensor : Sensor 3 γ) (r : Vec 3) (torquer : Mtq γ δ) (a : List (Mat 3 3)) (us : List Step) :
    Disturbed sensor.bias a (if us = [] then fun _ => 0 else polynomial a (run draw std walk q (start sensor r torquer []) us).torquer.momentC)
      (run draw std walk q (start sensor r torquer a) us) (run draw std walk q (start sensor r torquer []) us) := by
  induction us using List.reverseRecOn with
  | nil =>
    refine ⟨rfl, ?_, rfl, rfl, rfl⟩
    show sensor = sensor.setBias (vadd sensor.bias fun _ => 0)
    rw [show vadd sensor.bias (fun _ => 0) = sensor.bias from funext fun i => by simp [vadd]]
    rfl
  | append_singleton us u ih =>
    rw [if_neg (by simp)]
    have e : ∀ a, run draw std walk q (start sensor r torquer a) (us ++ [u]) = step draw std walk q (run draw std walk q (start sensor r torquer a) us) u := by
      intro a; unfold run; rw [List.foldl_append]; rfl
    rw [e, e]
    exact step_disturbed draw std walk q ih u

/-- **C198.** A measurement of the magnetometer in the example is the measurement of the same spacecraft without the interference, with one thing added to
the bias: the interference polynomial of the moment that the magnetorquer had at the end of the previous step. In the first step nothing is added. The
magnetorquer itself is the same as without the interference. -/
theorem C198_delay (sensor : Sensor 3 γ) (r : Vec 3) (torquer : Mtq γ δ) (a : List (Mat 3 3)) (us : List Step) (u : Step) (ht : u.ticks = true)
    (hm : u.magnetometer = .main) :
    let clean := run draw std walk q (start sensor r torquer []) us
    clean.sensor.bias = sensor.bias ∧
    (run draw std walk q (start sensor r torquer a) us).torquer = clean.torquer ∧
    (run draw std walk q (start sensor r torquer a) (us ++ [u])).reading =
      (frameSensor draw q { clean.sensor with bias := fun i => sensor.bias i + if us = [] then 0 else polynomial a clean.torquer.momentC i } u.field).1 := by
  intro clean
  obtain ⟨h1, h2, h3, -, -⟩ := run_disturbed draw std walk q sensor r torquer a us
  refine ⟨h3, h1, ?_⟩
  have e : run draw std walk q (start sensor r torquer a) (us ++ [u]) = step draw std walk q (run draw std walk q (start sensor r torquer a) us) u := by
    unfold run; rw [List.foldl_append]; rfl
  rw [e]
  unfold step
  rw [if_pos ht]
  show (tickAll draw std walk q _ u).reading = _
  unfold tickAll
  rw [hm]
  show (frameSensor draw q _ u.field).1 = _
  rw [h2]
  congr 2
  unfold Sensor.setBias
  congr 1
  funext i
  show sensor.bias i + (if us = [] then fun _ => (0 : ℝ) else _) i = _
  split <;> rfl

/-- **C198.** In numbers, for each axis: frame, scale factor, bias, the moment of the previous step, random walk and noise, then the clipping of the sensor; the
walk and the noise are those of the spacecraft without the interference. -/
theorem C198_value (sensor : Sensor 3 γ) (r : Vec 3) (torquer : Mtq γ δ) (a : List (Mat 3 3)) (us : List Step) (hus : us ≠ []) (u : Step) (ht : u.ticks = true)
    (hm : u.magnetometer = .main) (i : Fin 3) :
    let clean := run draw std walk q (start sensor r torquer []) us
    (run draw std walk q (start sensor r torquer a) (us ++ [u])).reading i =
      clip (clean.sensor.toConst i) (clean.sensor.toZero i)
        (matVec clean.sensor.scale (q.frameConversion u.field) i + (sensor.bias i + polynomial a clean.torquer.momentC i) + clean.sensor.walkX i +
          (draw (clean.sensor.noise i)).1) := by
  intro clean
  rw [(C198_delay draw std walk q sensor r torquer a us u ht hm).2.2]
  unfold frameSensor Sensor.measure
  dsimp only [vadd]
  rw [if_neg hus]

/-- **C198.** What the magnetorquer does or is told in a step has no effect on the reading of the same step. -/
theorem C198_same_step (p : Parts γ δ) (u : Step) (act : Act) (b c : Option (Vec 3)) :
    (step draw std walk q p { u with magnetorquer := act, before := b, after := c }).reading = (step draw std walk q p u).reading := by
  unfold step
  cases u.ticks <;> rfl

/-- **C198.** A step in which it is not the components' turn, or not the magnetometer's, leaves the reading as it was; and in the former the magnetorquer
keeps its moment. -/
theorem C198_no_turn (p : Parts γ δ) (u : Step) :
    (u.ticks = false ∨ u.magnetometer ≠ .main → (step draw std walk q p u).reading = p.reading) ∧
    (u.ticks = false → (step draw std walk q p u).torquer = p.torquer) := by
  refine ⟨?_, fun h => by unfold step; rw [h]; rfl⟩
  rintro (h | h)
  · unfold step; rw [h]; rfl
  · unfold step
    cases u.ticks
    · rfl
    · show (tickAll draw std walk q p u).reading = _
      unfold tickAll
      cases hm : u.magnetometer with
      | main => exact absurd hm h
      | idle => rfl
      | off => rfl

/-- The magnetometer switched off in a step with ticks. -/
example (p : Parts Unit Unit) (q : Quat) : (step (fun g => (0, g)) (fun g => (0, g)) (fun g => (0, g)) q p ⟨true, 0, .off, .main, none, none⟩).reading = p.reading :=
  (C198_no_turn _ _ _ q p _).1 (Or.inr (by simp))

/-! ### A magnetorquer told 2 Am2 about the first axis, 3 nT/Am2 -/

def exSensor : Sensor 3 Unit := ⟨![1, 0, 0], 1, fun _ => 1000, fun _ => 2000, fun _ => (), 1, fun _ => 0, 0, fun _ => 0, fun _ => ()⟩
def exTorquer : Mtq Unit Unit := ⟨⟨0, 0, 0, 1⟩, 1, fun _ => 10, fun _ => -10, fun _ => 0, 1, fun _ => 0, 0, fun _ => 0, fun _ => (), fun _ => 0, fun _ => (), fun _ => 0,
  fun _ => 0, fun _ => 0⟩
def exStep (a : Act) (m : Option (Vec 3)) : Step := ⟨true, ![100, 0, 0], a, .idle, m, none⟩
def exDraw : Unit → ℝ × Unit := fun _ => (0, ())

/-- The command of the first step shows in the reading of the second: 100 + 1 + 3 * 2. -/
example : (run exDraw exDraw exDraw ⟨0, 0, 0, 1⟩ (start exSensor 0 exTorquer [Matrix.diagonal ![3, 3, 3]])
    ([exStep .idle (some ![2, 0, 0])] ++ [exStep .main none])).reading 0 = 107 := by
  rw [C198_value exDraw exDraw exDraw _ exSensor 0 exTorquer [Matrix.diagonal ![3, 3, 3]] _ (by simp) (exStep .main none) rfl rfl 0]
  have e1 : (run exDraw exDraw exDraw ⟨0, 0, 0, 1⟩ (start exSensor 0 exTorquer []) [exStep .idle (some ![2, 0, 0])]).torquer.momentC = ![2, 0, 0] := rfl
  have e2 : (⟨0, 0, 0, 1⟩ : Quat).frameConversion (exStep .main none).field = ![100, 0, 0] := by
    funext i; fin_cases i <;> simp [Quat.frameConversion, Quat.conjugate, Quat.mulVec, Quat.mul, exStep]
  have e3 : polynomial [Matrix.diagonal ![3, 3, 3]] ![2, 0, 0] 0 = 6 := by
    simp [polynomial, Fin.sum_univ_three]; norm_num
  rw [e1, e2, e3]
  have e4 : matVec (run exDraw exDraw exDraw ⟨0, 0, 0, 1⟩ (start exSensor 0 exTorquer []) [exStep .idle (some ![2, 0, 0])]).sensor.scale ![100, 0, 0] 0 = 100 := by
    show matVec (1 : Mat 3 3) ![100, 0, 0] 0 = 100
    simp [matVec, Fin.sum_univ_three]
  rw [e4]
  show clip 1000 2000 (100 + (1 + 6) + 0 + 0) = 107
  norm_num [clip]

/-- ... and not in that of the first. -/
example : (step exDraw exDraw exDraw ⟨0, 0, 0, 1⟩ (start exSensor 0 exTorquer [Matrix.diagonal ![3, 3, 3]]) (exStep .main (some ![2, 0, 0]))).reading =
    (step exDraw exDraw exDraw ⟨0, 0, 0, 1⟩ (start exSensor 0 exTorquer [Matrix.diagonal ![3, 3, 3]]) (exStep .main none)).reading :=
  C198_same_step exDraw exDraw exDraw _ _ (exStep .main none) .idle (some ![2, 0, 0]) none

/-- The magnetometer measures in this step. -/
def measures (u : Step) : Bool := u.ticks && (match u.magnetometer with | .main => true | _ => false)

/-- **C198.** The noise source of every axis is drawn from once per measurement, and not otherwise: after any history its state is that after as many
draws as there were steps in which the magnetometer measured. -/
theorem C198_noise (p : Parts γ δ) (us : List Step) (i : Fin 3) :
    (run draw std walk q p us).sensor.noise i = (fun g => (draw g).2)^[us.countP measures] (p.sensor.noise i) := by
  induction us generalizing p with
  | nil => rfl
  | cons u us ih =>
    have hs : (step draw std walk q p u).sensor.noise i = if measures u = true then (draw (p.sensor.noise i)).2 else p.sensor.noise i := by
      rcases u with ⟨t, f, m, g, b, a⟩
      cases t <;> cases m <;> rfl
    show (run draw std walk q (step draw std walk q p u) us).sensor.noise i = _
    rw [ih, hs, List.countP_cons]
    by_cases h : measures u = true
    · rw [if_pos h, if_pos h, Function.iterate_succ_apply]
    · rw [if_neg h, if_neg h, Nat.add_zero]

/-- Three steps, two of them with a measurement. -/
example (p : Parts ℕ ℕ) (i : Fin 3) (hp : p.sensor.noise i = 5) :
    (run (fun g : ℕ => ((g : ℝ), g + 1)) (fun g => (0, g)) (fun g => (0, g)) ⟨0, 0, 0, 1⟩ p
      [⟨true, 0, .main, .main, none, none⟩, ⟨true, 0, .off, .main, none, none⟩, ⟨true, 0, .main, .idle, none, none⟩]).sensor.noise i = 7 := by
  rw [C198_noise, hp]; rfl

end S2E.SampleInterference
