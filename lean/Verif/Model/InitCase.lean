import Verif.Model.InitOrbit
import Verif.Model.GroundStation
/-!
# `SimulationCase::InitializeSimulationConfiguration` (simulation_case.cpp:88-105) and `GroundStation::Initialize` (ground_station.cpp:29-46)

The global environment that is made at the end of the former is `Model/InitGlobal`; the copy of the settings file into the log directory at the end
of the latter is `Model/LogFiles`.
-/
namespace S2E.InitCase
open Log Ini InitOrbit

/-- `SimulationConfiguration`, simulation_configuration.hpp:20-36, without the logger. -/
structure Configuration where
  base : Str
  spacecraftNumber : ℕ
  spacecraftFiles : List Str
  stationNumber : ℕ
  stationFiles : List Str
  interSatFile : Str
  gnssFile : Str

/-- `int` to `unsigned int`. -/
def toUInt32 (n : ℤ) : ℕ := (n % 2 ^ 32).toNat

/-- `InitializeSimulationConfiguration`, simulation_case.cpp:88-105: `files` gives the settings file at a path. `fuel` bounds the two loops of
`ReadStrVector`. -/
def readConfiguration (rd : Reader) (files : Str → File) (base : Str) (fuel : ℕ) : Res Configuration :=
  let ini := files base "SIMULATION_SETTINGS".toList
  let n := toUInt32 (rd.int ini "number_of_simulated_spacecraft".toList)
  (readStrVector rd.paths ini "spacecraft_file".toList fuel).bind fun spacecraft =>
  let m := toUInt32 (rd.int ini "number_of_simulated_ground_station".toList)
  (readStrVector rd.paths ini "ground_station_file".toList fuel).bind fun stations =>
  .ok ⟨base, n, spacecraft, m, stations, readString rd.paths ini "inter_sat_comm_file".toList, readString rd.paths ini "gnss_file".toList⟩

/-- Constructor of `GroundStation` with `Initialize`, ground_station.cpp:18-46: element 0 of the list of files, whatever the number of the station. -/
noncomputable def initStation (rd : Reader) (files : Str → File) (c : Configuration) (id : ℕ) : Res Ground.Station :=
  match c.stationFiles with
  | [] => .ub
  | path :: _ =>
    let ini := files path ("GROUND_STATION_".toList ++ dec id)
    Ground.Station.new (readDouble rd.getReal ini "latitude_deg".toList) (readDouble rd.getReal ini "longitude_deg".toList)
      (readDouble rd.getReal ini "height_m".toList) (readDouble rd.getReal ini "elevation_limit_angle_deg".toList) c.spacecraftNumber

end S2E.InitCase
