import Verif.Model.InitCase
import Verif.Spec.Settings
/-!
# Specification: the simulation settings and the settings of a ground station
-/
namespace S2E.Settings
open Log InitOrbit

/-- The entries `key(0)`, `key(1)`, ... up to the first one that is missing are the texts of the list. -/
structure TextList (rd : Reader) (file : File) (sec key : Str) (list : List Str) : Prop where
  few : list.length < 2 ^ 32
  each : ∀ i (hi : i < list.length), Text rd file sec (key ++ "(".toList ++ dec i ++ ")".toList) list[i] ∧ list[i] ≠ "NULL".toList
  last : file sec (key ++ "(".toList ++ dec list.length ++ ")".toList) = none

/-- What the section `SIMULATION_SETTINGS` of the base file says about spacecraft, ground stations and other files. -/
structure CaseSheet where
  spacecraftNumber : ℕ
  spacecraftFiles : List Str
  stationNumber : ℕ
  stationFiles : List Str
  interSatFile : Str
  gnssFile : Str

def CaseSheet.In (s : CaseSheet) (rd : Reader) (file : File) : Prop :=
  let S := "SIMULATION_SETTINGS".toList
  Integer rd file S "number_of_simulated_spacecraft".toList s.spacecraftNumber ∧ s.spacecraftNumber < 2 ^ 31 ∧
  TextList rd file S "spacecraft_file".toList s.spacecraftFiles ∧
  Integer rd file S "number_of_simulated_ground_station".toList s.stationNumber ∧ s.stationNumber < 2 ^ 31 ∧
  TextList rd file S "ground_station_file".toList s.stationFiles ∧
  Text rd file S "inter_sat_comm_file".toList s.interSatFile ∧ Text rd file S "gnss_file".toList s.gnssFile

/-- A ground station in a section of a file: latitude, longitude, height and elevation limit (degrees, metres). -/
structure StationSheet where
  latitude : ℝ
  longitude : ℝ
  height : ℝ
  limit : ℝ

def StationSheet.In (s : StationSheet) (rd : Reader) (file : File) (sec : Str) : Prop :=
  Number rd file sec "latitude_deg".toList s.latitude ∧ Number rd file sec "longitude_deg".toList s.longitude ∧
  Number rd file sec "height_m".toList s.height ∧ Number rd file sec "elevation_limit_angle_deg".toList s.limit

end S2E.Settings
