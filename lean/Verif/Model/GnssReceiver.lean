import Verif.Model.Geodetic
/-!
# `src/components/real/aocs/gnss_receiver.{cpp,hpp}`

Doubles are real numbers. The positions, the attitude, the list of positions of the calculated GNSS satellites, the time and the noise values drawn are inputs of an
update. UTC is copied and left out, as are the log strings and most of the reading of the settings file.
-/
namespace S2E.GnssRx
open Quat S2E.Geodetic

/-- `AntennaModel`, gnss_receiver.hpp:24-28. -/
inductive Antenna
  | simple
  | cone
  deriving DecidableEq

/-- `SetAntennaModel` and the fallback without satellites, gnss_receiver.cpp:244-254, 278-285. -/
def antennaModel (name : String) (satellitesEnabled : Bool) : Antenna :=
  let m := if name = "SIMPLE" then Antenna.simple else if name = "CONE" then Antenna.cone else Antenna.simple
  if !satellitesEnabled && m = Antenna.cone then Antenna.simple else m

/-- `GnssInfo`, gnss_receiver.hpp:34-39. -/
structure Info where
  id : ℕ
  latitude : ℝ
  longitude : ℝ
  distance : ℝ

/-- The parameters, gnss_receiver.hpp:128-134. -/
structure Config where
  antenna : Antenna
  position : Vec 3
  b2c : Quat
  halfWidth : ℝ

/-- What `MainRoutine` changes, gnss_receiver.hpp:139-152. -/
structure State where
  position : Vec 3
  velocity : Vec 3
  geodetic : GeodeticPosition
  week : ℕ
  seconds : ℝ
  visible : Bool
  number : ℕ
  list : List Info

/-- What one update reads and draws. -/
structure Input where
  positionI : Vec 3
  i2b : Quat
  satellites : List (Vec 3)
  positionEcef : Vec 3
  velocityEcef : Vec 3
  positionNoise : Vec 3
  velocityNoise : Vec 3
  julianDay : ℝ

/-- `CheckAntennaSimple`, gnss_receiver.cpp:91-107. -/
noncomputable def checkSimple (c : Config) (s : State) (i : Input) : State :=
  let directionB := c.b2c.inverseFrameConversion ![0, 0, 1]
  let directionI := i.i2b.inverseFrameConversion directionB
  { s with visible := if innerProduct i.positionI directionI ≤ 0 then false else true }

/-- `SetGnssInfo`, gnss_receiver.cpp:168-180. -/
noncomputable def info (c : Config) (i2b : Quat) (toSatellite : Vec 3) (id : ℕ) : Info :=
  let d := c.b2c.frameConversion (i2b.frameConversion toSatellite)
  { id := id, latitude := acTan (d 2) (Real.sqrt (d 0 ^ 2 + d 1 ^ 2)), longitude := acTan (d 1) (d 0), distance := calcNorm toSatellite }

/-- The occultation test, gnss_receiver.cpp:134-150. -/
noncomputable def fromReceiver (antenna satellite : Vec 3) : Bool :=
  let direction := calcNormalizedVector (vsub satellite antenna)
  if innerProduct antenna satellite > 0 then true
  else
    let edge := Real.arcsin (earthRadius / calcNorm antenna)
    let gnss := Real.arccos (innerProduct (vneg (calcNormalizedVector antenna)) direction)
    if edge < gnss then true else false

/-- One pass of the loop, gnss_receiver.cpp:127-159. -/
noncomputable def step (c : Config) (i2b : Quat) (antenna direction : Vec 3) (acc : List Info × ℕ) (x : Vec 3 × ℕ) : List Info × ℕ :=
  let to' := vsub x.1 antenna
  if innerProduct direction (calcNormalizedVector to') > Real.cos (c.halfWidth * (Real.pi / 180)) ∧ fromReceiver antenna x.1 = true then
    (acc.1 ++ [info c i2b to' x.2], acc.2 + 1)
  else acc

/-- `CheckAntennaCone`, gnss_receiver.cpp:109-166. -/
noncomputable def checkCone (c : Config) (s : State) (i : Input) : State :=
  let directionB := c.b2c.inverseFrameConversion ![0, 0, 1]
  let directionI := i.i2b.inverseFrameConversion directionB
  let antenna := vadd i.positionI (i.i2b.inverseFrameConversion c.position)
  let r := i.satellites.zipIdx.foldl (step c i.i2b antenna directionI) ([], 0)
  { s with list := r.1, number := r.2, visible := if r.2 ≥ 4 then true else false }

/-- `CheckAntenna`, gnss_receiver.cpp:81-89. -/
noncomputable def check (c : Config) (s : State) (i : Input) : State :=
  match c.antenna with
  | .simple => checkSimple c s i
  | .cone => checkCone c s i

/-- Lines 67-74 of `MainRoutine` with `AddNoise`, gnss_receiver.cpp:182-187. `fuel` bounds the loop of `UpdateFromEcef`. -/
noncomputable def observe (fuel : ℕ) (s : State) (i : Input) : Res State :=
  if s.visible then
    let p := vadd i.positionEcef i.positionNoise
    let v := vadd i.velocityEcef i.velocityNoise
    (updateFromEcef fuel p).bind fun g => .ok { s with position := p, velocity := v, geodetic := g }
  else .ok s

/-- `ConvertJulianDayToGpsTime`, gnss_receiver.cpp:189-199; the conversion of a value that does not fit `unsigned int` is undefined. -/
noncomputable def gpsTime (s : State) (jd : ℝ) : Res State :=
  let elapsed := jd - 2444244.5
  let w := truncZ (elapsed / 7)
  if 0 ≤ w ∧ w < 2 ^ 32 then .ok { s with week := w.toNat, seconds := (elapsed - w * 7) * 86400 } else .ub

/-- `MainRoutine`, gnss_receiver.cpp:58-79. -/
noncomputable def update (c : Config) (fuel : ℕ) (s : State) (i : Input) : Res State :=
  (observe fuel (check c s i) i).bind fun s => gpsTime s i.julianDay

/-- The initial values, gnss_receiver.hpp:139-152, geodetic_position.cpp:16-20. -/
noncomputable def State.new : State := ⟨fun _ => 0, fun _ => 0, GeodeticPosition.new 0 0 0, 0, 0, false, 0, []⟩

/-- A history of updates. -/
noncomputable def run (c : Config) (fuel : ℕ) (s : State) : List Input → Res State
  | [] => .ok s
  | i :: rest => (update c fuel s i).bind fun s => run c fuel s rest

end S2E.GnssRx
