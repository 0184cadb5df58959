import Verif.Model.BiasSinex
import Verif.Model.Gnss
/-!
# `src/math_physics/gnss/antex_file_reader.{hpp,cpp}`

Streams, `getline` and `substr` are those of `Model/Sp3`. `double` is modelled by `ℝ`; a conversion to `size_t` of a value that `size_t` cannot hold is undefined. The
conversions `std::stoi`, `std::stod` and `sscanf` are arbitrary (`Codec`). The endless loops have a fuel: a loop that is `stuck` for every fuel does not end.
-/
namespace S2E.Antex
open S2E.Log S2E.Sp3 S2E.Time

/-- `size_t(x)`: cut to an integer; undefined if the result is not a `size_t`. -/
noncomputable def toSize (x : ℝ) : Res ℕ := if x ≤ -1 ∨ 2 ^ 64 ≤ x then .ub else .ok ⌊x⌋₊

/-- `AntexGridDefinition`, antex_file_reader.hpp:25-99. -/
structure Grid where
  start : ℝ
  stop : ℝ
  step : ℝ
  azimuthStep : ℝ
  zeniths : ℕ
  azimuths : ℕ

/-- A number of nodes, lines 23-27 and 29-33. -/
noncomputable def nodes (range step : ℝ) : Res ℕ := if step ≤ 0 then .ok 0 else (toSize (range / step)).bind fun k => .ok ((k + 1) % 2 ^ 64)

/-- `AntexGridDefinition::AntexGridDefinition`, lines 17-34. -/
noncomputable def mkGrid (start stop step azimuth : ℝ) : Res Grid :=
  (nodes (stop - start) step).bind fun z => (nodes 360 azimuth).bind fun a => .ok ⟨start, stop, step, azimuth, z, a⟩

/-- `size_t(difference / step + 0.5)`; with a step of zero the quotient is infinite. -/
noncomputable def closest (difference step : ℝ) : Res ℕ := if step = 0 then .ub else toSize (difference / step + 0.5)

/-- `n - 1` of a `size_t`. -/
def pred64 (n : ℕ) : ℕ := (n + (2 ^ 64 - 1)) % 2 ^ 64

/-- `CalcClosestZenithIndex`, lines 36-46. -/
noncomputable def Grid.zenith (g : Grid) (angle : ℝ) : Res ℕ :=
  if angle ≤ g.start then .ok 0 else if angle ≥ g.stop then .ok (pred64 g.zeniths) else closest (angle - g.start) g.step

/-- `CalcClosestAzimuthIndex`, lines 48-57. -/
noncomputable def Grid.azimuth (g : Grid) (angle : ℝ) : Res ℕ :=
  if angle ≤ 0 then .ok 0 else if angle ≥ 360 then .ok (pred64 g.azimuths) else closest angle g.azimuthStep

/-- The grid without arguments, antex_file_reader.hpp:35-36: zenith angles 0 to 90 in steps of 10. -/
noncomputable def defaultGrid : Grid := ⟨0, 90, 10, 0, 10, 0⟩

/-- Conversions of the C++ library: `std::stoi`, `std::stod` (`none`: an exception), the values that `sscanf` with three real numbers converts, and `sscanf` with the
date format of line 198 (`none`: not all values are written). -/
structure Codec where
  stoi : Str → Option ℤ
  stod : Str → Option ℝ
  reals : Str → List ℝ
  scan : Str → Option (DateTime ℝ)

/-- `AntexPhaseCenterData`, antex_file_reader.hpp:106-172. -/
structure Phase where
  name : Str := []
  offset : Fin 3 → ℝ := fun _ => 0
  grid : Grid := defaultGrid
  variation : List (List ℝ) := []

/-- `AntexSatelliteData`, antex_file_reader.hpp:178-263; without arguments `DateTime` is 0000/01/01 00:00:00.0. -/
structure Satellite where
  antenna : Str := []
  serial : Str := []
  validFrom : DateTime ℝ := ⟨0, 1, 1, 0, 0, 0⟩
  validUntil : DateTime ℝ := ⟨0, 1, 1, 0, 0, 0⟩
  frequencies : ℕ := 1
  phases : List Phase := []

/-- `GetPhaseCenterData`, antex_file_reader.hpp:254: an element of a vector. -/
def Satellite.phase (d : Satellite) (i : ℕ) : Res Phase := match d.phases[i]? with | some p => .ok p | none => .ub

/-- `line.find(p)`. -/
def find (p : Str) : Str → Option ℕ
  | [] => if p.isPrefixOf [] then some 0 else none
  | a :: l => if p.isPrefixOf (a :: l) then some 0 else (find p l).map (· + 1)

/-- `line.find(p) == ANTEX_LINE_TYPE_POSITION`. -/
def isLabel (p : String) (line : Str) : Bool := find p.toList line == some 60

/-- The variations in a line, lines 181-184; `i` from `k` on, `m` values. -/
def readVariation (c : Codec) (line : Str) (k : ℕ) : ℕ → Res (List ℝ)
  | 0 => .ok []
  | m + 1 => (substr line (8 + k * 8) 8).bind fun f =>
    match c.stod f with
    | none => .throws
    | some v => (readVariation c line (k + 1) m).bind fun r => .ok (v :: r)

/-- The values of an offset, lines 174-176: a value that is not converted stays 0. -/
def offsetOf (v : List ℝ) : Fin 3 → ℝ := fun i => v.getD i 0

/-- A line between `START OF FREQUENCY` and `END OF FREQUENCY`, lines 173-188. -/
def phaseStep (c : Codec) (g : Grid) (line : Str) (p : Phase) : Res Phase :=
  let p := if isLabel "NORTH / EAST / UP" line then { p with offset := offsetOf (c.reals line) } else p
  if (find "NOAZI".toList line).isSome then (readVariation c line 0 g.zeniths).bind fun v => .ok { p with variation := [v] } else .ok p

/-- `ReadPhaseCenterData`, lines 160-193. -/
def readPhase (c : Codec) (g : Grid) : ℕ → Stream → Str → Phase → Res (Stream × Phase)
  | 0, _, _, _ => .stuck
  | n + 1, s, line, p =>
    let r := s.getline line
    if isLabel "END OF FREQUENCY" r.2 then (substr r.2 3 3).bind fun name => .ok (r.1, { p with name := name, grid := g })
    else (phaseStep c g r.2 p).bind fun p => readPhase c g n r.1 r.2 p

/-- `ReadDateTime`, lines 195-200. -/
def readDate (c : Codec) (line : Str) : Res (DateTime ℝ) := (substr line 0 59).bind fun f => match c.scan f with | some v => .ok v | none => .ub

/-- The fields outside of the frequencies, lines 133-149. -/
noncomputable def fieldStep (c : Codec) (line : Str) (x : Satellite × Grid) : Res (Satellite × Grid) :=
  (if isLabel "ZEN1 / ZEN2 / DZEN" line then
      (substr line 0 60).bind fun f =>
        match c.reals f with
        | [a, b, d] => (mkGrid a b d 0).bind fun g => .ok (x.1, g)
        | _ => .ub
    else .ok x).bind fun x =>
  (if isLabel "# OF FREQUENCIES" line then
      (substr line 0 20).bind fun f => match c.stoi f with | some v => .ok ({ x.1 with frequencies := toU64 v }, x.2) | none => .throws
    else .ok x).bind fun x =>
  (if isLabel "VALID FROM" line then (readDate c line).bind fun t => .ok ({ x.1 with validFrom := t }, x.2) else .ok x).bind fun x =>
  if isLabel "VALID UNTIL" line then (readDate c line).bind fun t => .ok ({ x.1 with validUntil := t }, x.2) else .ok x

/-- `ReadAntexSatelliteData`, lines 118-158. -/
noncomputable def readSatellite (c : Codec) : ℕ → Stream → Str → Satellite × Grid → List Phase → Res (Stream × Satellite)
  | 0, _, _, _, _ => .stuck
  | n + 1, s, line, x, ps =>
    let r := s.getline line
    if isLabel "END OF ANTENNA" r.2 then .ok (r.1, { x.1 with phases := ps })
    else (fieldStep c r.2 x).bind fun x =>
      if isLabel "START OF FREQUENCY" r.2 then (readPhase c x.2 n r.1 [] {}).bind fun q => readSatellite c n q.1 r.2 x (ps ++ [q.2])
      else readSatellite c n r.1 r.2 x ps

/-- `antex_satellite_data_`: the entries of the map. -/
abbrev Data := List (ℕ × List Satellite)

/-- `antex_satellite_data_[i].push_back(d)`. -/
def push (i : ℕ) (d : Satellite) : Data → Data
  | [] => [(i, [d])]
  | (j, l) :: m => if j = i then (j, l ++ [d]) :: m else (j, l) :: push i d m

/-- `ReadAntexData`, lines 89-116. -/
noncomputable def readAntenna (c : Codec) : ℕ → Stream → Str → Data → Res (Stream × Data)
  | 0, _, _, _ => .stuck
  | n + 1, s, line, m =>
    let r := s.getline line
    if isLabel "TYPE / SERIAL NO" r.2 then
      (substr r.2 0 20).bind fun antenna => (substr r.2 20 20).bind fun serial => (Gnss.numberToIndex serial).bind fun i =>
        if i = 2 ^ 32 - 1 then .ok (r.1, m)
        else (readSatellite c n r.1 [] ({}, defaultGrid) []).bind fun q =>
          .ok (q.1, push i { q.2 with antenna := antenna, serial := serial } m)
    else readAntenna c n r.1 r.2 m

/-- The loop of `ReadFile`, lines 67-82. -/
noncomputable def readLoop (c : Codec) : ℕ → Stream → Data → Res Data
  | 0, _, _ => .stuck
  | n + 1, s, m =>
    if Bias.atEnd s then .ok m
    else
      let r := s.getline []
      if r.2.length < 60 then readLoop c n r.1 m
      else if isLabel "COMMENT" r.2 then readLoop c n r.1 m
      else if isLabel "START OF ANTENNA" r.2 then (readAntenna c n r.1 [] m).bind fun q => readLoop c n q.1 q.2
      else readLoop c n r.1 m

/-- The constructor, antex_file_reader.hpp:278: success flag and data; `none`: the file cannot be opened. -/
noncomputable def construct (c : Codec) (n : ℕ) : Option Str → Res (Bool × Data)
  | none => .ok (false, [])
  | some f => (readLoop c n ⟨f, false, false⟩ []).bind fun m => .ok (true, m)

/-- `GetNumberOfSatelliteData`, antex_file_reader.hpp:295. -/
def count (m : Data) : ℕ := m.length

/-- `GetAntexSatelliteData`, antex_file_reader.hpp:301-303: `at` throws for a key that is not there. -/
def satellite (i : ℕ) : Data → Res (List Satellite)
  | [] => .throws
  | (j, l) :: m => if j = i then .ok l else satellite i m

end S2E.Antex
