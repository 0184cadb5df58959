import Verif.Model.InitCase
import Verif.Model.SimTime
/-!
# The example application: `example/src/simulation/case/sample_case.cpp` and `example/src/simulation/ground_station/sample_ground_station.cpp`

One spacecraft with the number 0 and one ground station with the number 0. The spacecraft is anything (`Model/Disturbance`, `Model/InitOrbit` have the
core's): its update at a time, and its Earth-fixed position. The link budget of the station (`GroundStationCalculator`, `Model/Link`) is left out.
-/
namespace S2E.SampleCase
open Log Ini InitOrbit InitCase Ground

/-- `sample_spacecraft_` and `sample_ground_station_`, sample_case.hpp. -/
structure Targets (C : Type) where
  spacecraft : C
  station : Station

/-- `UpdateTargetObjects`, sample_case.cpp:30-35, with `SampleGroundStation::Update`, sample_ground_station.cpp:24-27: first the spacecraft, then the station
for the spacecraft as it is now. `craft` updates the spacecraft at the time that `GlobalEnvironment::Update` has just reached; `rotation` is the
matrix J2000 to ECEF at an elapsed time. -/
noncomputable def Targets.update {C : Type} (craft : TimeSt ℝ → C → C) (ecef : C → Vec 3) (rotation : ℝ → Mat 3 3) (t : TimeSt ℝ) (w : Targets C) : Targets C :=
  let c := craft t w.spacecraft
  ⟨c, w.station.update (rotation t.elapsed) 0 (ecef c)⟩

/-- What a line of the log shows of the time, the spacecraft and the station (time: simulation_time.cpp `GetLogValue`; position: orbit.cpp; flags and
position of the station: ground_station.cpp:86-94). -/
structure Line where
  time : ℝ
  position : Vec 3
  visible : ℕ → Res Bool
  stationPosition : Vec 3

@[inherit_doc Line] def line {C : Type} (ecef : C → Vec 3) (t : TimeSt ℝ) (w : Targets C) : Line :=
  ⟨t.elapsed, ecef w.spacecraft, w.station.isVisible, w.station.positionI⟩

/-- `InitializeTargetObjects`, sample_case.cpp:17-28, after the constructor of the case; then `Main`. -/
noncomputable def run {C : Type} (rd : Reader) (files : Str → File) (base : Str) (fuel : ℕ) (cfg : TimeCfg ℝ) (clk : ℤ) (reads : ℕ → ClockReads)
    (craft : TimeSt ℝ → C → C) (ecef : C → Vec 3) (rotation : ℝ → Mat 3 3) (steps : ℕ) (start : C) :
    Res (ℕ × TimeSt ℝ × Targets C × List (CaseEvent Line)) :=
  (readConfiguration rd files base fuel).bind fun c =>
  (initStation rd files c 0).bind fun s =>
  caseRun Arith.exact cfg clk reads (Targets.update craft ecef rotation) (line ecef) steps ⟨start, s⟩

end S2E.SampleCase
