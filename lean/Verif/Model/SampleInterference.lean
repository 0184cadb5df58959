import Verif.Model.Magnetorquer
import Verif.Model.Sensor
/-!
# Magnetometer and magnetorquer of the example spacecraft

`example/src/simulation/spacecraft/sample_components.cpp:44-48, 69-73, 124-126, 212` within `Spacecraft::Update` (spacecraft.cpp:62-64): the components
are ticked in the order in which they were made, the magnetometer (line 46) before the magnetorquer (line 71), when the component flag is set
(clock_generator.cpp:38-42); then `ComponentInterference` runs `UpdateInterference`, in every step. The other components are left out, except that
any of them may command the magnetorquer.
-/
namespace S2E.SampleInterference
open SensorBase Mtq

/-- What a tick makes of a component (component.cpp:37-44, `Model/Clock`): not its turn, `MainRoutine`, or `PowerOffRoutine`. -/
inductive Act where
  | idle
  | main
  | off

/-- `magnetometer_` with `magnetic_field_c_nT_`, `magnetorquer_`, `mtq_magnetometer_interference_`. -/
structure Parts (γ δ : Type) where
  sensor : Sensor 3 γ
  reading : Vec 3
  torquer : Mtq γ δ
  interference : Interference

/-- What a step of the simulation brings: the component flag, the field in the body frame, what becomes of the two components, and commands to the
magnetorquer from components that are ticked before and after it. -/
structure Step where
  ticks : Bool
  field : Vec 3
  magnetometer : Act
  magnetorquer : Act
  before : Option (Vec 3)
  after : Option (Vec 3)

/-- A command, or none. -/
def command {γ δ : Type} (m : Mtq γ δ) : Option (Vec 3) → Mtq γ δ
  | none => m
  | some v => m.command v

/-- `Magnetometer::MainRoutine`, magnetometer.cpp:29-34; its `PowerOffRoutine` is the empty one of component.hpp. -/
noncomputable def tickMagnetometer {γ δ : Type} (draw : γ → ℝ × γ) (q : Quat) (field : Vec 3) (p : Parts γ δ) : Act → Parts γ δ
  | .main =>
    let r := frameSensor draw q p.sensor field
    { p with sensor := r.2, reading := r.1 }
  | _ => p

/-- `Magnetorquer::MainRoutine` and `PowerOffRoutine`, magnetorquer.cpp:62-72. -/
noncomputable def tickMagnetorquer {γ δ : Type} (std : γ → ℝ × γ) (walk : δ → ℝ × δ) (field : Vec 3) (m : Mtq γ δ) : Act → Mtq γ δ
  | .idle => m
  | .main => m.main std walk field
  | .off => m.powerOff

/-- The ticks of a step, clock_generator.cpp:25-36 in the order of sample_components.cpp. -/
noncomputable def tickAll {γ δ : Type} (draw std : γ → ℝ × γ) (walk : δ → ℝ × δ) (q : Quat) (p : Parts γ δ) (u : Step) : Parts γ δ :=
  let p := tickMagnetometer draw q u.field p u.magnetometer
  { p with torquer := command (tickMagnetorquer std walk u.field (command p.torquer u.before) u.magnetorquer) u.after }

/-- `ComponentInterference`, sample_components.cpp:212. -/
noncomputable def interfere {γ δ : Type} (p : Parts γ δ) : Parts γ δ :=
  let r := p.interference.update p.torquer.momentC p.sensor.bias
  { p with sensor := p.sensor.setBias r.1, interference := r.2 }

/-- The component part of `Spacecraft::Update`, spacecraft.cpp:62-64. -/
noncomputable def step {γ δ : Type} (draw std : γ → ℝ × γ) (walk : δ → ℝ × δ) (q : Quat) (p : Parts γ δ) (u : Step) : Parts γ δ :=
  interfere (if u.ticks then tickAll draw std walk q p u else p)

/-- A history of steps. -/
noncomputable def run {γ δ : Type} (draw std : γ → ℝ × γ) (walk : δ → ℝ × δ) (q : Quat) (p : Parts γ δ) (us : List Step) : Parts γ δ :=
  us.foldl (step draw std walk q) p

end S2E.SampleInterference
