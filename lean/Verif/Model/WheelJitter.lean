import Verif.Model.ReactionWheel
import Mathlib.Analysis.SpecialFunctions.Trigonometric.Basic
/-!
# `src/components/real/aocs/reaction_wheel_jitter.{cpp,hpp}` and the jitter part of `reaction_wheel.cpp`

Doubles are real numbers. The initial phases, which the constructor draws from `std::random_device`, are parameters. An update interval of zero
(infinite or undefined coefficients) is excluded in the theorems.
-/
namespace S2E.Wheel

/-- Three successive values of a vector: `…_n_c_`, `…_n_1_c_`, `…_n_2_c_`, reaction_wheel_jitter.hpp:99-110. -/
structure Window where
  now : Vec 3
  last : Vec 3
  lastButOne : Vec 3

/-- All zero, reaction_wheel_jitter.hpp:99-110. -/
def Window.zero : Window := ⟨fun _ => 0, fun _ => 0, fun _ => 0⟩

/-- Members of `ReactionWheelJitter`, reaction_wheel_jitter.hpp:82-114. -/
structure Jitter where
  forceRows : List (List ℝ)
  torqueRows : List (List ℝ)
  interval : ℝ
  b2c : Quat
  /-- `structural_resonance_angular_frequency_Hz_` -/
  resonance : ℝ
  damping : ℝ
  bandwidth : ℝ
  considers : Bool
  forcePhase : List ℝ
  torquePhase : List ℝ
  forceIn : Window
  torqueIn : Window
  forceOut : Window
  torqueOut : Window
  coef : Fin 6 → ℝ
  forceB : Vec 3
  torqueB : Vec 3

/-- `CalcCoefficients`, reaction_wheel_jitter.cpp:116-130. -/
noncomputable def Jitter.calcCoefficients (j : Jitter) : Jitter :=
  let w := 2 / j.interval * Real.tan (j.resonance * j.interval / 2)
  let T := j.interval
  { j with
    resonance := w
    coef := ![4 + 4 * j.bandwidth * j.damping * T * w + T ^ 2 * w ^ 2, -8 + 2 * T ^ 2 * w ^ 2, 4 - 4 * j.bandwidth * j.damping * T * w + T ^ 2 * w ^ 2,
      4 + 4 * j.damping * T * w + T ^ 2 * w ^ 2, -8 + 2 * T ^ 2 * w ^ 2, 4 - 4 * j.damping * T * w + T ^ 2 * w ^ 2] }

/-- The constructor, reaction_wheel_jitter.cpp:14-43, with the drawn phases. `coefficients_` starts uninitialised; it is read only if the structural
resonance is considered, after `CalcCoefficients` has set it. -/
noncomputable def Jitter.new (forceRows torqueRows : List (List ℝ)) (interval : ℝ) (b2c : Quat) (frequency damping bandwidth : ℝ) (considers : Bool)
    (forcePhase torquePhase : List ℝ) (uninitialised : Fin 6 → ℝ) : Jitter :=
  let j : Jitter :=
    { forceRows := forceRows, torqueRows := torqueRows, interval := interval, b2c := b2c, resonance := tau * frequency, damping := damping,
      bandwidth := bandwidth, considers := considers, forcePhase := forcePhase, torquePhase := torquePhase, forceIn := .zero, torqueIn := .zero,
      forceOut := .zero, torqueOut := .zero, coef := uninitialised, forceB := fun _ => 0, torqueB := fun _ => 0 }
  if considers then j.calcCoefficients else j

/-- The loops of `CalcJitter`, reaction_wheel_jitter.cpp:53-62 and 65-74: phases, then the sums of the first two components. A row with fewer than
two columns is read out of range. -/
noncomputable def harmonics (interval omega : ℝ) : List (List ℝ) → List ℝ → ℝ → ℝ → Res (List ℝ × ℝ × ℝ)
  | _, [], sx, sy => .ok ([], sx, sy)
  | [], _ :: _, _, _ => .ub
  | row :: rows, phase :: phases, sx, sy =>
    match row with
    | h :: c :: _ =>
      let phase' := phase + h * omega * interval
      (harmonics interval omega rows phases (sx + c * omega * omega * Real.sin phase') (sy + c * omega * omega * Real.cos phase')).bind fun r =>
        .ok (phase' :: r.1, r.2)
    | _ => .ub

/-- `AddStructuralResonance` for one quantity, reaction_wheel_jitter.cpp:89-99. -/
noncomputable def filter (c : Fin 6 → ℝ) (i o : Window) : Vec 3 := fun k =>
  (-(c 1) * o.last k - c 2 * o.lastButOne k + c 3 * i.now k + c 4 * i.last k + c 5 * i.lastButOne k) / c 0

/-- `ShiftTimeStep` for one quantity, reaction_wheel_jitter.cpp:104-114. -/
def Window.shift (w : Window) : Window := ⟨w.now, w.now, w.last⟩

/-- `CalcJitter`, reaction_wheel_jitter.cpp:47-85. -/
noncomputable def Jitter.calcJitter (j : Jitter) (omega : ℝ) : Res Jitter :=
  (harmonics j.interval omega j.forceRows j.forcePhase 0 0).bind fun f =>
    (harmonics j.interval omega j.torqueRows j.torquePhase 0 0).bind fun t =>
      let fi : Window := { j.forceIn with now := ![f.2.1, f.2.2, 0] }
      let ti : Window := { j.torqueIn with now := ![t.2.1, t.2.2, 0] }
      if j.considers then
        let fo : Window := { j.forceOut with now := filter j.coef fi j.forceOut }
        let tq : Window := { j.torqueOut with now := filter j.coef ti j.torqueOut }
        .ok { j with
          forcePhase := f.1, torquePhase := t.1, forceIn := fi.shift, torqueIn := ti.shift, forceOut := fo.shift, torqueOut := tq.shift
          forceB := j.b2c.inverseFrameConversion fo.now, torqueB := j.b2c.inverseFrameConversion tq.now }
      else
        .ok { j with
          forcePhase := f.1, torquePhase := t.1, forceIn := fi, torqueIn := ti
          forceB := j.b2c.inverseFrameConversion fi.now, torqueB := j.b2c.inverseFrameConversion ti.now }

/-- `GetJitterForce_c_N`, `GetJitterTorque_c_Nm`, reaction_wheel_jitter.hpp:70-79. -/
def Jitter.forceC (j : Jitter) : Vec 3 := if j.considers then j.forceOut.now else j.forceIn.now
def Jitter.torqueC (j : Jitter) : Vec 3 := if j.considers then j.torqueOut.now else j.torqueIn.now

/-- Successive calls with the given speeds. -/
noncomputable def Jitter.run : List ℝ → Jitter → Res Jitter
  | [], j => .ok j
  | w :: rest, j => (j.calcJitter w).bind (Jitter.run rest)

/-! ## Wheels made by `InitReactionWheel` -/

/-- The wheels made by `InitReactionWheel` and the namespace-scope object `rw_jitter` (reaction_wheel.cpp:259), to which all of them keep a
reference (reaction_wheel.cpp:37, 64, 339-341, 352-354). Each wheel comes with its flag `is_calculated_jitter_`. -/
structure Fleet where
  jitter : Jitter
  wheels : List (Wheel × Bool)

/-- `InitReactionWheel`, reaction_wheel.cpp:331-332, 336-357: assign the new jitter to the global object, construct the wheel. -/
noncomputable def Fleet.init (f : Fleet) (p : WheelParams) (j : Jitter) (enabled : Bool) : Res Fleet :=
  (Wheel.new p).bind fun w => .ok ⟨j, f.wheels ++ [(w, enabled)]⟩

/-- `FastUpdate` of wheel `k`, reaction_wheel.cpp:98-102. -/
noncomputable def Fleet.fastUpdate (f : Fleet) (k : ℕ) : Res Fleet :=
  match f.wheels[k]? with
  | none => .ok f
  | some (w, enabled) => if enabled then (f.jitter.calcJitter w.omega).bind fun j => .ok { f with jitter := j } else .ok f

/-- Any other call on wheel `k`. -/
noncomputable def Fleet.call (f : Fleet) (k : ℕ) (o : Op) : Res Fleet :=
  match f.wheels[k]? with
  | none => .ok f
  | some (w, enabled) => (w.apply o).bind fun w' => .ok { f with wheels := f.wheels.set k (w', enabled) }

/-- `GetJitterForce_b_N`, reaction_wheel.cpp:164-171. -/
def Fleet.jitterForce (f : Fleet) (enabled : Bool) : Vec 3 := if enabled then f.jitter.forceB else fun _ => 0

/-- `GetOutputTorque_b_Nm`, reaction_wheel.cpp:155-162. -/
def Fleet.outputTorque (f : Fleet) (w : Wheel) (enabled : Bool) : Vec 3 :=
  if enabled then vsub (vsub w.torque (outerProduct w.position f.jitter.forceB)) f.jitter.torqueB else w.torque

end S2E.Wheel
