import Verif.Model.Basic
import Mathlib.Data.List.Basic
import Mathlib.Data.List.OfFn
/-!
# `src/logger/log_utility.hpp`, `logger.cpp`, and the log output of the components that have a variable number of columns

Strings are lists of characters. Formatting a number (`stream << std::setprecision(p) << x`) is an arbitrary function `fmt p x`; printing a
`size_t` is its decimal representation. Creating directories and copying files is in `Model/LogFiles`.
-/
namespace S2E.Log

abbrev Str := List Char

/-- `std::to_string(i)` and `stream << i` for an unsigned integer. -/
def dec (n : Nat) : Str := Nat.toDigits 10 n

section Writers
variable {V : Type} (fmt : Nat → V → Str)

/-- `WriteScalar(scalar, precision)`, log_utility.hpp:87-92. Also called with a string (`WriteScalar(name)`), which is then printed as it is. -/
def scalarValue (p : Nat) (x : V) : Str := fmt p x ++ ",".toList

/-- `WriteScalar(name, unit)`, log_utility.hpp:93. -/
def scalarHeader (name unit : Str) : Str := name ++ "[".toList ++ unit ++ "],".toList

/-- `WriteVector(vector, precision)`, log_utility.hpp:95-103. -/
def vectorValue {n : Nat} (p : Nat) (v : Fin n → V) : Str := (List.finRange n).foldl (fun s i => s ++ fmt p (v i) ++ ",".toList) []

/-- `axis[i]`, log_utility.hpp:106; only used for `i < 3`. -/
def axisName (i : Nat) : Str := if i = 0 then "_x".toList else if i = 1 then "_y".toList else "_z".toList

/-- `WriteVector(name, frame, unit, length)`, log_utility.hpp:104-117. -/
def vectorHeader (name frame unit : Str) (length : Nat) : Str :=
  (List.range length).foldl (fun s i =>
    if length = 3 then s ++ name ++ "_".toList ++ frame ++ axisName i ++ "[".toList ++ unit ++ "],".toList
    else s ++ name ++ "_".toList ++ frame ++ "(".toList ++ dec i ++ ")".toList ++ "[".toList ++ unit ++ "],".toList) []

/-- `WriteMatrix(matrix, precision)`, log_utility.hpp:119-129. -/
def matrixValue {r c : Nat} (p : Nat) (m : Fin r → Fin c → V) : Str :=
  (List.finRange r).foldl (fun s i => (List.finRange c).foldl (fun s j => s ++ fmt p (m i j) ++ ",".toList) s) []

/-- `WriteMatrix(name, frame, unit, row_length, column_length)`, log_utility.hpp:130-141. -/
def matrixHeader (name frame unit : Str) (rows columns : Nat) : Str :=
  (List.range rows).foldl (fun s i => (List.range columns).foldl (fun s j =>
    s ++ name ++ "_".toList ++ frame ++ "(".toList ++ dec i ++ dec j ++ ")".toList ++ "[".toList ++ unit ++ "],".toList) s) []

/-- `WriteQuaternion(quaternion, precision)`, log_utility.hpp:143-150. -/
def quaternionValue (p : Nat) (q : Fin 4 → V) : Str := (List.finRange 4).foldl (fun s i => s ++ fmt p (q i) ++ ",".toList) []

/-- `WriteQuaternion(name, frame)`, log_utility.hpp:151-159. -/
def quaternionHeader (name frame : Str) : Str :=
  ["_x".toList, "_y".toList, "_z".toList, "_w".toList].foldl (fun s axis => s ++ name ++ "_".toList ++ frame ++ axis ++ ",".toList) []

end Writers

/-- What the logger sees of an `ILoggable`, loggable.hpp:20-37, at one moment. -/
structure Loggable where
  isLogEnabled : Bool
  header : Str
  value : Str

/-- `Logger`, logger.hpp:92-100: enable flag, log list and what has been written to the CSV file. Every logger has its own list (the
namespace-level `log_list_` of logger.cpp:13 is shadowed by the member). -/
structure Logger where
  isEnabled : Bool
  logList : List Loggable
  file : Str

/-- `Write`, logger.cpp:76-80, with the default `flag = true`. -/
def Logger.write (l : Logger) (s : Str) : Logger := if l.isEnabled then { l with file := l.file ++ s } else l

/-- `WriteNewLine`, logger.cpp:74. -/
def Logger.writeNewLine (l : Logger) : Logger := l.write "\n".toList

/-- `WriteHeaders`, logger.cpp:58-64. -/
def Logger.writeHeaders (l : Logger) (addNewline : Bool) : Logger :=
  let l' := l.logList.foldl (fun acc x => if !x.isLogEnabled then acc else acc.write x.header) l
  if addNewline then l'.writeNewLine else l'

/-- `WriteValues`, logger.cpp:66-72. -/
def Logger.writeValues (l : Logger) (addNewline : Bool) : Logger :=
  let l' := l.logList.foldl (fun acc x => if !x.isLogEnabled then acc else acc.write x.value) l
  if addNewline then l'.writeNewLine else l'

/-- `AddLogList`, `ClearLogList`, `Enable`, logger.cpp:82-84, logger.hpp:72. -/
def Logger.addLogList (l : Logger) (x : Loggable) : Logger := { l with logList := l.logList ++ [x] }
@[inherit_doc Logger.addLogList] def Logger.clearLogList (l : Logger) : Logger := { l with logList := [] }
@[inherit_doc Logger.addLogList] def Logger.enable (l : Logger) (b : Bool) : Logger := { l with isEnabled := b }

/-! ## Components with a variable number of columns -/

/-- `RelativeInformation::GetLogHeader`, relative_information.cpp:52-83, for `n` spacecraft: one block of columns. -/
def relativeBlockHeader (n : Nat) (quantity frame unit : Str) : Str :=
  (List.range n).foldl (fun s t => (List.range t).foldl (fun s r =>
    s ++ vectorHeader ("satellite".toList ++ dec t ++ quantity ++ dec r) frame unit 3) s) []

@[inherit_doc relativeBlockHeader] def relativeHeader (n : Nat) : Str :=
  relativeBlockHeader n "_position_from_satellite".toList "i".toList "m".toList ++
  relativeBlockHeader n "_velocity_from_satellite".toList "i".toList "m/s".toList ++
  relativeBlockHeader n "_position_from_satellite".toList "rtn".toList "m".toList ++
  relativeBlockHeader n "_velocity_from_satellite".toList "rtn".toList "m/s".toList

/-- `RelativeInformation::GetLogValue`, relative_information.cpp:85-114, for `n` spacecraft; the four tables by (target, reference). -/
def relativeValue {V : Type} (fmt : Nat → V → Str) (n : Nat) (posI velI posRtn velRtn : Nat → Nat → Fin 3 → V) : Str :=
  let block := fun (v : Nat → Nat → Fin 3 → V) => (List.range n).foldl (fun s t => (List.range t).foldl (fun s r => s ++ vectorValue fmt 6 (v t r)) s) []
  block posI ++ block velI ++ block posRtn ++ block velRtn

/-- A thermal node as far as logging is concerned: id, name, whether it is a boundary node. -/
structure NodeInfo where
  id : Nat
  name : Str
  isBoundary : Bool

/-- `Temperature::GetLogHeader`, temperature.cpp:203-241. -/
def temperatureHeader (nodes : List NodeInfo) : Str :=
  let block := fun (label unit : Str) =>
    nodes.foldl (fun s x => if !x.isBoundary then s ++ scalarHeader (label ++ dec x.id ++ " (".toList ++ x.name ++ ")".toList) unit else s) []
  block "temp_".toList "deg".toList ++ block "heat_".toList "W".toList ++ block "solar_".toList "W".toList ++ block "albedo_".toList "W".toList ++
    block "earthIR_".toList "W".toList

/-- `Temperature::GetLogValue`, temperature.cpp:243-276: each node's temperature, heat load, solar, albedo and infrared values. -/
def temperatureValue {V : Type} (fmt : Nat → V → Str) (nodes : List (NodeInfo × (Fin 5 → V))) : Str :=
  let block := fun (k : Fin 5) => nodes.foldl (fun s x => if !x.1.isBoundary then s ++ scalarValue fmt 6 (x.2 k) else s) []
  block 0 ++ block 1 ++ block 2 ++ block 3 ++ block 4

/-- `GroundStation::GetLogHeader`, ground_station.cpp:74-84. -/
def groundStationHeader (id numberOfSpacecraft : Nat) : Str :=
  (List.range numberOfSpacecraft).foldl (fun s i =>
    s ++ scalarValue (fun _ (x : Str) => x) 6 ("ground_station".toList ++ dec id ++ "_".toList ++ "sc".toList ++ dec i ++ "_visible_flag".toList)) [] ++
  vectorHeader "ground_station_position".toList "eci".toList "m".toList 3

/-- `GroundStation::GetLogValue`, ground_station.cpp:86-94: visibility flags and position. -/
def groundStationValue {V : Type} (fmt : Nat → V → Str) (numberOfSpacecraft : Nat) (visible : Nat → V) (position : Fin 3 → V) : Str :=
  (List.range numberOfSpacecraft).foldl (fun s i => s ++ scalarValue fmt 6 (visible i)) [] ++ vectorValue fmt 6 position

/-- `Telescope::GetLogHeader`, telescope.cpp:190-218. -/
def telescopeHeader (isHipparcosEnabled : Bool) (stars : Nat) : Str :=
  let name := "telescope_".toList
  scalarHeader (name ++ "sun_in_exclusion_angle".toList) [] ++ scalarHeader (name ++ "earth_in_exclusion_angle".toList) [] ++
  scalarHeader (name ++ "moon_in_exclusion_angle".toList) [] ++ vectorHeader (name ++ "sun_position".toList) "img".toList "pix".toList 2 ++
  vectorHeader (name ++ "earth_position".toList) "img".toList "pix".toList 2 ++ vectorHeader (name ++ "moon_position".toList) "img".toList "pix".toList 2 ++
  scalarHeader (name ++ "ground_position_x".toList) "pix".toList ++ scalarHeader (name ++ "ground_position_y".toList) "pix".toList ++
  (if isHipparcosEnabled then (List.range stars).foldl (fun s i =>
    s ++ scalarHeader (name ++ "hipparcos_id (".toList ++ dec i ++ ")".toList) " ".toList ++
      scalarHeader (name ++ "visible_magnitude (".toList ++ dec i ++ ")".toList) " ".toList ++
      vectorHeader (name ++ "star_position (".toList ++ dec i ++ ")".toList) "img".toList "pix".toList 2) [] else [])

/-- `Telescope::GetLogValue`, telescope.cpp:220-245. -/
def telescopeValue {V : Type} (fmt : Nat → V → Str) (isHipparcosEnabled : Bool) (stars : Nat) (flags : Fin 3 → V) (sun earth moon : Fin 2 → V)
    (ground : Fin 2 → V) (starId starMag : Nat → V) (starPos : Nat → Fin 2 → V) : Str :=
  scalarValue fmt 6 (flags 0) ++ scalarValue fmt 6 (flags 1) ++ scalarValue fmt 6 (flags 2) ++ vectorValue fmt 6 sun ++ vectorValue fmt 6 earth ++
  vectorValue fmt 6 moon ++ scalarValue fmt 6 (ground 0) ++ scalarValue fmt 6 (ground 1) ++
  (if isHipparcosEnabled then (List.range stars).foldl (fun s i =>
    s ++ scalarValue fmt 6 (starId i) ++ scalarValue fmt 6 (starMag i) ++ vectorValue fmt 6 (starPos i)) [] else [])

/-- `CelestialInformation::GetLogHeader` / `LocalCelestialInformation::GetLogHeader` for the lower-case names of the selected bodies,
celestial_information.cpp:151-172, local_celestial_information.cpp:168-188 (`origin` is "" resp. "_from_spacecraft", `frame` is "i" resp. "b"). -/
def celestialHeader (origin frame : Str) (names : List Str) : Str :=
  names.foldl (fun s name => s ++ vectorHeader (name ++ "_position".toList ++ origin) frame "m".toList 3 ++
    vectorHeader (name ++ "_velocity".toList ++ origin) frame "m/s".toList 3) []

/-- `CelestialInformation::GetLogValue` / `LocalCelestialInformation::GetLogValue`, celestial_information.cpp:174-187,
local_celestial_information.cpp:190-202: three scalars each out of flat arrays of length `3 * number`. -/
def celestialValue {V : Type} (fmt : Nat → V → Str) (number : Nat) (pos vel : Nat → V) : Str :=
  (List.range number).foldl (fun s i =>
    (List.range 3).foldl (fun s j => s ++ scalarValue fmt 6 (vel (i * 3 + j))) ((List.range 3).foldl (fun s j => s ++ scalarValue fmt 6 (pos (i * 3 + j))) s)) []

/-- `GnssSatellites::GetLogHeader`, gnss_satellites.cpp:156-166, `kNumberOfGpsSatellite = 32` (gnss_satellite_number.hpp:17). -/
def gnssHeader : Str :=
  (List.range 32).foldl (fun s i => s ++ vectorHeader ("GPS".toList ++ dec i ++ "_position".toList) "ecef".toList "m".toList 3 ++
    scalarHeader ("GPS".toList ++ dec i ++ "_clock_offset".toList) "s".toList) []

/-- `GnssSatellites::GetLogValue`, gnss_satellites.cpp:168-178. -/
def gnssValue {V : Type} (fmt : Nat → V → Str) (pos : Nat → Fin 3 → V) (clock : Nat → V) : Str :=
  (List.range 32).foldl (fun s i => s ++ vectorValue fmt 16 (pos i) ++ scalarValue fmt 6 (clock i)) []

/-- `ReactionWheel::GetLogHeader`, reaction_wheel.cpp:197-213; `name` is "rw<id>_". -/
def reactionWheelHeader (name : Str) (isLogged isCalculated : Bool) : Str :=
  scalarHeader (name ++ "angular_velocity".toList) "rad/s".toList ++ scalarHeader (name ++ "angular_velocity".toList) "rpm".toList ++
  scalarHeader (name ++ "angular_velocity_upper_limit".toList) "rpm".toList ++ scalarHeader (name ++ "target_angular_acceleration".toList) "rad/s2".toList ++
  scalarHeader (name ++ "angular_acceleration".toList) "rad/s2".toList ++
  (if isLogged && isCalculated then vectorHeader (name ++ "jitter_force".toList) "c".toList "N".toList 3 ++
    vectorHeader (name ++ "jitter_torque".toList) "c".toList "Nm".toList 3 else [])

/-- `ReactionWheel::GetLogValue`, reaction_wheel.cpp:215-230. -/
def reactionWheelValue {V : Type} (fmt : Nat → V → Str) (isLogged isCalculated : Bool) (scalars : Fin 5 → V) (force torque : Fin 3 → V) : Str :=
  scalarValue fmt 6 (scalars 0) ++ scalarValue fmt 6 (scalars 1) ++ scalarValue fmt 6 (scalars 2) ++ scalarValue fmt 6 (scalars 3) ++
  scalarValue fmt 6 (scalars 4) ++ (if isLogged && isCalculated then vectorValue fmt 6 force ++ vectorValue fmt 6 torque else [])

end S2E.Log
