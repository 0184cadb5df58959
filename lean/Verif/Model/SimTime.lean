import Verif.Model.Quantization
/-!
# `src/environment/global/simulation_time.cpp` and the main loop of `src/simulation/case/simulation_case.cpp`

Numbers are elements of a linearly ordered field `K`. The two floating-point operations whose rounding can change the *schedule* are
parameters: `Arith.add` (the rounded `elapsed + step`) and `Arith.prod` (the rounded `double(counter) * step`). The other operations
are exact. `int` counters are natural numbers; the theorems bound them where a wrap could matter.

Not modelled here: `sscanf`, SPICE `str2et_c` (sidereal time, decimal year and calendar fields are in `Model/Julian`),
console output and the actual sleeping.
-/
namespace S2E

variable {K : Type} [Field K] [LinearOrder K] [IsStrictOrderedRing K] [FloorRing K]

/-- The rounded operations of the scheduler. -/
structure Arith (K : Type) where
  add : K → K → K
  prod : Nat → K → K

/-- Exact arithmetic. -/
def Arith.exact : Arith K := ⟨(· + ·), fun n x => n * x⟩

/-- Constants of `SimulationTime`, simulation_time.hpp (private section "Constants"). -/
structure TimeCfg (K : Type) where
  endSec : K
  step : K
  attitude : K     -- attitude_update_interval_sec_
  orbit : K
  thermal : K
  component : K
  log : K
  startJd : K
  startEt : K
  speed : K        -- simulation_speed_
  limitSec : K     -- time_exceeds_continuously_limit_sec_

/-- `display_period_`, simulation_time.cpp:42. -/
def TimeCfg.displayPeriod (c : TimeCfg K) : K := c.endSec / c.step / 100

/-- An update counter with its flag. -/
structure Timer where
  count : Nat
  flag : Bool
  deriving Repr, DecidableEq

/-- Variable part of `SimulationTime`. Clock times are nanoseconds since the clock's epoch (`system_clock` of libstdc++). -/
structure TimeSt (K : Type) where
  elapsed : K
  jd : K
  attitude : Timer
  orbit : Timer
  thermal : Timer
  component : Timer
  logCount : Nat
  dispCount : Int
  running : Bool
  finish : Bool
  logOut : Bool
  dispOut : Bool
  clockStart : Int
  clockLast : Int

/-- Constructor (`InitializeState`, simulation_time.cpp:229-234, then `SetParameters`, 78-91) followed by `ResetClock`, 180, which
`Main` calls through `GlobalEnvironment::Reset` (global_environment.cpp:48). `clock_last_time_completed_step_in_time_` is never
initialised explicitly: a default-constructed `time_point` is the epoch, 0. -/
def TimeSt.init (c : TimeCfg K) (clockStart : Int) : TimeSt K where
  elapsed := 0
  jd := c.startJd
  attitude := ⟨1, false⟩
  orbit := ⟨1, false⟩
  thermal := ⟨1, false⟩
  component := ⟨1, false⟩
  logCount := 0
  dispCount := 0
  running := false
  finish := false
  logOut := true
  dispOut := false
  clockStart := clockStart
  clockLast := 0

/-- The successive results of `clk.now()` inside one `UpdateTime` call, in program order: line 99; line 103; line 111;
line 113 or 116. -/
structure ClockReads where
  wait : Int
  exceed : Int
  resync : Int
  last : Int

/-- `duration_cast<milliseconds>(a - b).count()`: truncation of nanoseconds. -/
def durMs (a b : Int) : Int := (a - b).tdiv 1000000

/-- Conversion of a 64-bit count to `int` (modulo 2^32; implementation-defined before C++20, this value in every common compiler). -/
def wrapInt32 (x : Int) : Int := x.bmod (2 ^ 32)

/-- Real-time pacing block, simulation_time.cpp:96-125. -/
def TimeSt.pace (c : TimeCfg K) (r : ClockReads) (s : TimeSt K) : Res (TimeSt K) :=
  if c.speed > 0 then do
    let toWaitTime ← toInt32 (s.elapsed * 1000 - (durMs r.wait s.clockStart : K) * c.speed)
    if toWaitTime ≤ 0 then
      let exceeded : Int := wrapInt32 (durMs r.exceed s.clockLast)
      if (exceeded : K) > c.limitSec * 1000 then
        .ok { s with elapsed := ((r.resync - s.clockStart : Int) : K) / 1000000000 * c.speed, clockLast := r.last }
      else .ok s
    else .ok { s with clockLast := r.last }
  else .ok s

/-- One subsystem block, simulation_time.cpp:127 with 143-147 (attitude), 128/149-153 (orbit), 129/155-159 (thermal),
130/161-165 (component): increment, clear the flag, and fire when the interval is reached. -/
def Timer.tick (A : Arith K) (step interval : K) (t : Timer) : Timer :=
  if A.prod (t.count + 1) step ≥ interval then ⟨0, true⟩ else ⟨t.count + 1, false⟩

/-- Log block, simulation_time.cpp:131 and 167-170 (the flag was cleared by `InitializeState`). -/
def TimeSt.tickLog (A : Arith K) (c : TimeCfg K) (s : TimeSt K) : TimeSt K :=
  if A.prod (s.logCount + 1) c.step ≥ c.log then { s with logCount := 0, logOut := true }
  else { s with logCount := s.logCount + 1 }

/-- Display block, simulation_time.cpp:132 and 172-175. -/
def TimeSt.tickDisp (c : TimeCfg K) (s : TimeSt K) : Res (TimeSt K) :=
  if ((s.dispCount + 1 : Int) : K) ≥ c.displayPeriod then do
    let d ← toInt32 c.displayPeriod
    .ok { s with dispCount := s.dispCount + 1 - d, dispOut := true }
  else .ok { s with dispCount := s.dispCount + 1 }

/-- `InitializeState`, simulation_time.cpp:229-234. -/
def TimeSt.initializeState (s : TimeSt K) : TimeSt K :=
  { s with dispOut := false, finish := false, logOut := false, running := false }

/-- First two statements of `UpdateTime`, simulation_time.cpp:94-95. -/
def TimeSt.advance (A : Arith K) (c : TimeCfg K) (s : TimeSt K) : TimeSt K :=
  { s.initializeState with elapsed := A.add s.elapsed c.step }

/-- `UpdateTime`, simulation_time.cpp:93-178. -/
def TimeSt.update (A : Arith K) (c : TimeCfg K) (r : ClockReads) (s : TimeSt K) : Res (TimeSt K) := do
  let s ← (s.advance A c).pace c r
  let s := if s.elapsed > c.endSec then { s with finish := true } else s
  let s := { s with jd := c.startJd + s.elapsed / (60 * 60 * 24) }
  let s := { s with
    attitude := s.attitude.tick A c.step c.attitude
    orbit := s.orbit.tick A c.step c.orbit
    thermal := s.thermal.tick A c.step c.thermal
    component := s.component.tick A c.step c.component }
  let s := s.tickLog A c
  let s ← s.tickDisp c
  .ok { s with running := true }

/-- `GetCurrentEphemerisTime`, simulation_time.hpp:211. -/
def TimeSt.ephemeris (c : TimeCfg K) (s : TimeSt K) : K := c.startEt + s.elapsed

/-- `n` successive `UpdateTime` calls, the `i`-th (from 0) reading the clock as `r i`. -/
def TimeSt.steps (A : Arith K) (c : TimeCfg K) (r : Nat → ClockReads) : Nat → TimeSt K → Res (TimeSt K)
  | 0, s => .ok s
  | n + 1, s => TimeSt.steps A c r n s >>= TimeSt.update A c (r n)

/-! ## Main loop -/

/-- What the main loop writes and shows. -/
inductive CaseEvent (R : Type) where
  | header
  | row (r : R)
  | progress (percent : Int)
  deriving Repr, DecidableEq

/-- `GetProgressionRate`, simulation_time.hpp:185 (the conversion to `int` is not checked). -/
def TimeSt.progression (c : TimeCfg K) (s : TimeSt K) : Int := ⌊s.elapsed / c.endSec * 100⌋

/-- Loop of `SimulationCase::Main`, simulation_case.cpp:57-73. `W` is everything but the time (celestial bodies, GNSS, spacecraft,
ground stations); `world` updates it for the time just reached (`GlobalEnvironment::Update`, global_environment.cpp:36-40, after
`UpdateTime`, and `UpdateTargetObjects`); `row` is what `WriteValues` writes. `n` counts the updates done so far. -/
def caseLoop {W R : Type} (A : Arith K) (c : TimeCfg K) (r : Nat → ClockReads) (world : TimeSt K → W → W) (row : TimeSt K → W → R) :
    Nat → Nat → TimeSt K → W → Res (Nat × TimeSt K × W × List (CaseEvent R))
  | 0, _, _, _ => .stuck
  | fuel + 1, n, t, w =>
    if t.finish then .ok (n, t, w, [])
    else do
      let log := if t.logOut then [CaseEvent.row (row t w)] else []
      let t ← t.update A c (r n)
      let w := world t w
      let disp := if t.dispOut then [CaseEvent.progress (t.progression c)] else []
      let (n, t, w, ev) ← caseLoop A c r world row fuel (n + 1) t w
      .ok (n, t, w, log ++ (disp ++ ev))

/-- `Initialize` (header, simulation_case.cpp:43-53) followed by `Main` (55-74). -/
def caseRun {W R : Type} (A : Arith K) (c : TimeCfg K) (clockStart : Int) (r : Nat → ClockReads) (world : TimeSt K → W → W)
    (row : TimeSt K → W → R) (fuel : Nat) (w : W) : Res (Nat × TimeSt K × W × List (CaseEvent R)) := do
  let (n, t, w, ev) ← caseLoop A c r world row fuel 0 (TimeSt.init c clockStart) w
  .ok (n, t, w, .header :: ev)

end S2E
