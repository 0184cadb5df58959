import Verif.Model.Ini
import Verif.Model.TimeSystem
import Verif.Model.Quaternion
/-!
# `src/math_physics/gnss/sp3_file_reader.cpp`

A line is a list of characters. The conversions `std::stoi`, `std::stod` and the `sscanf` of a date are arbitrary partial functions (`Codec`). The GPS time of the second header line is
kept as week and seconds. The correlation records and the velocity records can be read by no getter; of them only the possible exceptions are modelled.
-/
namespace S2E.Sp3
open S2E.Log S2E.Time

/-- An input file stream: the unread characters, `eofbit`, `failbit`. -/
structure Stream where
  rest : Str
  eof : Bool
  fail : Bool

/-- `good()`. -/
def Stream.good (s : Stream) : Bool := !s.eof && !s.fail

/-- `std::getline(stream, line)`: the new stream and the new value of `line`. On a stream that is not good the line keeps its value. -/
def Stream.getline (s : Stream) (line : Str) : Stream × Str :=
  if s.good then
    match s.rest.dropWhile (· ≠ '\n') with
    | [] => (⟨[], true, s.rest.isEmpty⟩, s.rest.takeWhile (· ≠ '\n'))
    | _ :: r => (⟨r, false, false⟩, s.rest.takeWhile (· ≠ '\n'))
  else ({ s with fail := true }, line)

/-- `tellg()`: sets `failbit` and returns an invalid position on a stream that is not good. -/
def Stream.tellg (s : Stream) : Stream × Option Str := if s.good then (s, some s.rest) else ({ s with fail := true }, none)

/-- `seekg(position)`: clears `eofbit`; nothing else happens on a failed stream. -/
def Stream.seekg (s : Stream) (pos : Option Str) : Stream :=
  if s.fail then { s with eof := false }
  else
    match pos with
    | some r => ⟨r, false, false⟩
    | none => { s with eof := false, fail := true }

/-- `line.substr(pos, n)`: throws `std::out_of_range`. -/
def substr (line : Str) (pos n : ℕ) : Res Str := if pos > line.length then .throws else .ok ((line.drop pos).take n)

/-- `line[i]`: the terminating zero at the end, undefined beyond. -/
def charAt (line : Str) (i : ℕ) : Res Char := if h : i < line.length then .ok line[i] else if i = line.length then .ok '\x00' else .ub

/-- `line.find(p) == 0`. -/
def starts (p line : Str) : Bool := p.isPrefixOf line

/-- Conversions of the C++ library: `std::stoi`, `std::stod` (`none`: an exception), `sscanf` with the date format (`none`: not all values are written). -/
structure Codec where
  stoi : Str → Option ℤ
  stod : Str → Option ℝ
  scan : Str → Option (DateTime ℝ)

/-- `std::stoi(line.substr(pos, n))`. -/
def Codec.int (c : Codec) (line : Str) (pos n : ℕ) : Res ℤ :=
  (substr line pos n).bind fun f => match c.stoi f with | some v => .ok v | none => .throws

/-- `std::stod(line.substr(pos, n))`. -/
def Codec.real (c : Codec) (line : Str) (pos n : ℕ) : Res ℝ :=
  (substr line pos n).bind fun f => match c.stod f with | some v => .ok v | none => .throws

/-- `sscanf(line.substr(3, 28).c_str(), ...)` and the `DateTime` of the values, lines 69-72 and 171-174. -/
def Codec.date (c : Codec) (line : Str) : Res (DateTime ℝ) :=
  (substr line 3 28).bind fun f => match c.scan f with | some v => .ok v | none => .ub

/-- `Sp3Mode`, sp3_file_reader.hpp:29-33. -/
inductive Mode | position | velocity | other
  deriving DecidableEq

/-- `Sp3OrbitType`, sp3_file_reader.hpp:39-45. -/
inductive OrbitType | fitted | extrapolated | broadcast | helmert | other
  deriving DecidableEq

/-- `Sp3Header`, sp3_file_reader.hpp:51-89. -/
structure Header where
  mode : Mode := .position
  start : Option (DateTime ℝ) := none
  epochs : ℕ := 0
  usedData : Str := []
  coordinates : Str := []
  orbitType : OrbitType := .other
  agency : Str := []
  gpsWeek : ℤ := 0
  gpsSecond : ℝ := 0
  interval : ℝ := 1
  mjd : ℤ := 0
  mjdFraction : ℝ := 0
  satellites : ℕ := 0
  ids : List Str := []
  accuracy : List ℕ := []
  fileType : Str := []
  timeSystem : Str := []
  basePosition : ℝ := 1
  baseClock : ℝ := 1

/-- `Sp3PositionClock`, sp3_file_reader.hpp:95-105. -/
structure PositionClock where
  id : Str := []
  position : Vec 3 := fun _ => 0
  clock : ℝ := 999999.999999
  positionDeviation : Vec 3 := fun _ => 0
  clockDeviation : ℝ := 0
  clockEvent : Bool := false
  clockPrediction : Bool := false
  maneuver : Bool := false
  orbitPrediction : Bool := false

/-- `Sp3FileReader`, sp3_file_reader.hpp:236-244. The keys of `position_clock_` are always `0, 1, ..., k-1`: satellites are visited in order. -/
structure Reader where
  header : Header := {}
  epoch : List (DateTime ℝ) := []
  position : List (List PositionClock) := []

/-- A standard deviation: `try { stod(line.substr(pos, n)) } catch (std::invalid_argument) { 0.0 }`, lines 328-339. -/
def Codec.deviation (c : Codec) (line : Str) (pos n : ℕ) : Res ℝ := (substr line pos n).bind fun f => .ok ((c.stod f).getD 0)

/-- The standard deviations, lines 325-340. -/
def decodeDeviations (c : Codec) (line : Str) (p : PositionClock) : Res PositionClock :=
  if line.length > 61 then
    (c.deviation line 61 2).bind fun x => (c.deviation line 64 2).bind fun y => (c.deviation line 67 2).bind fun z =>
      (c.deviation line 70 3).bind fun k => .ok { p with positionDeviation := ![x, y, z], clockDeviation := k }
  else .ok p

/-- The flags, lines 343-356. -/
def decodeFlags (line : Str) (p : PositionClock) : Res PositionClock :=
  if line.length > 73 then
    (substr line 74 1).bind fun a => (substr line 75 1).bind fun b => (substr line 78 1).bind fun m => (substr line 79 1).bind fun o =>
      .ok { p with clockEvent := decide (a = ['E']), clockPrediction := decide (b = ['P']), maneuver := decide (m = ['M']), orbitPrediction := decide (o = ['P']) }
  else .ok p

/-- `DecodePositionClockData`, lines 310-360. -/
def decodePosition (c : Codec) (line : Str) : Res PositionClock :=
  (substr line 1 3).bind fun id => (c.real line 4 14).bind fun x => (c.real line 18 14).bind fun y => (c.real line 32 14).bind fun z => (c.real line 46 14).bind fun k =>
    (decodeDeviations c line { id := id, position := ![x, y, z], clock := k }).bind fun p => decodeFlags line p

/-- `DecodePositionClockCorrelation`, lines 362-378, and `DecodeVelocityClockRateCorrelation`, lines 407-423 (only whether an exception leaves them). -/
def decodeCorrelation (c : Codec) (line : Str) : Res Unit :=
  [(4, 4), (9, 4), (14, 4), (19, 7), (27, 8), (36, 8), (45, 8), (54, 8), (63, 8), (72, 8)].foldlM (fun _ (f : ℕ × ℕ) => (c.int line f.1 f.2).bind fun _ => .ok ()) ()

/-- `DecodeVelocityClockRateData`, lines 380-405 (only whether an exception leaves it). -/
def decodeVelocity (c : Codec) (line : Str) : Res Unit :=
  (substr line 1 3).bind fun _ => (c.real line 4 14).bind fun _ => (c.real line 18 14).bind fun _ => (c.real line 32 14).bind fun _ => (c.real line 46 14).bind fun _ =>
    if line.length > 60 then
      (c.real line 61 2).bind fun _ => (c.real line 63 2).bind fun _ => (c.real line 65 2).bind fun _ => (c.real line 70 3).bind fun _ => .ok ()
    else .ok ()

/-- `position_clock_[i].push_back(a)`, line 83. -/
def pushAt (m : List (List PositionClock)) (i : ℕ) (a : PositionClock) : List (List PositionClock) :=
  if i < m.length then m.modify i (· ++ [a]) else m ++ [[a]]

/-- `position_clock_[i]` in an expression, lines 122-123: creates an empty entry for a missing key. -/
def touch (m : List (List PositionClock)) (i : ℕ) : List (List PositionClock) := if i < m.length then m else m ++ [[]]

/-- The stream, the variable `line` and the reader. -/
structure Work where
  stream : Stream
  line : Str
  reader : Reader

/-- `std::getline(sp3_file, line)`. -/
def Work.getline (w : Work) : Work := { w with stream := (w.stream.getline w.line).1, line := (w.stream.getline w.line).2 }

/-- The look-ahead of lines 86-94 and 107-114: a correlation line with the prefix `p` is read, any other line is put back. -/
def lookAhead (c : Codec) (p : Str) (w : Work) : Res Work :=
  let t := w.stream.tellg
  let w1 := ({ w with stream := t.1 } : Work).getline
  if starts p w1.line then (decodeCorrelation c w1.line).bind fun _ => .ok w1 else .ok { w1 with stream := w1.stream.seekg t.2 }

/-- The velocity records, lines 96-115. -/
def readVelocity (c : Codec) (w : Work) : Res (Bool × Work) :=
  if w.reader.header.mode = .velocity then
    let w1 := w.getline
    if !starts ['V'] w1.line then .ok (false, w1)
    else (decodeVelocity c w1.line).bind fun _ => (lookAhead c ['E', 'V'] w1).bind fun w2 => .ok (true, w2)
  else .ok (true, w)

/-- The body of the satellite loop, lines 75-116: return value `false` for `return false`. -/
def readSatellite (c : Codec) (i : ℕ) (w : Work) : Res (Bool × Work) :=
  let w1 := w.getline
  if !starts ['P'] w1.line then .ok (false, w1)
  else
    (decodePosition c w1.line).bind fun p =>
      (lookAhead c ['E', 'P'] { w1 with reader := { w1.reader with position := pushAt w1.reader.position i p } }).bind fun w2 => readVelocity c w2

/-- The satellite loop, line 75: `k` satellites from number `i` on. -/
def satelliteLoop (c : Codec) : ℕ → ℕ → Work → Res (Bool × Work)
  | 0, _, w => .ok (true, w)
  | k + 1, i, w => (readSatellite c i w).bind fun x => if x.1 then satelliteLoop c k (i + 1) x.2 else .ok (false, x.2)

/-- The body of the epoch loop, lines 61-117; `line` is a new string. -/
def readEpoch (c : Codec) (w : Work) : Res (Bool × Work) :=
  let w1 := ({ w with line := [] } : Work).getline
  if !starts ['*', ' '] w1.line then .ok (false, w1)
  else
    (c.date w1.line).bind fun t =>
      satelliteLoop c w.reader.header.satellites 0 { w1 with reader := { w1.reader with epoch := w1.reader.epoch ++ [t] } }

/-- The epoch loop, line 61. -/
def epochLoop (c : Codec) : ℕ → Work → Res (Bool × Work)
  | 0, w => .ok (true, w)
  | k + 1, w => (readEpoch c w).bind fun x => if x.1 then epochLoop c k x.2 else .ok (false, x.2)

/-- The first header line, lines 155-191. -/
def readFirst (c : Codec) (w : Work) : Res (Bool × Work) :=
  let w := w.getline
  (charAt w.line 2).bind fun c2 =>
    (if c2 = 'P' then .ok Mode.position else (charAt w.line 3).bind fun c3 => .ok (if c3 = 'V' then Mode.velocity else Mode.other)).bind fun mode =>
      (c.date w.line).bind fun start => (c.int w.line 32 7).bind fun n => (substr w.line 40 5).bind fun used => (substr w.line 46 5).bind fun coord =>
        (substr w.line 52 3).bind fun orbit => (substr w.line 56 4).bind fun agency =>
          .ok (true, { w with reader := { w.reader with header := { w.reader.header with
            mode := mode, start := some start, epochs := toU64 n, usedData := used, coordinates := coord,
            orbitType := if orbit = "FIT".toList then .fitted else if orbit = "EXT".toList then .extrapolated else if orbit = "BCT".toList then .broadcast
              else if orbit = "HLM".toList then .helmert else .other,
            agency := agency } } })

/-- The second header line, lines 194-205. -/
def readSecond (c : Codec) (w : Work) : Res (Bool × Work) :=
  let w := w.getline
  if !starts ['#', '#'] w.line then .ok (false, w)
  else
    (c.int w.line 3 4).bind fun week => (c.real w.line 8 15).bind fun sec => (c.real w.line 24 14).bind fun interval => (c.int w.line 39 5).bind fun mjd =>
      (c.real w.line 45 15).bind fun frac =>
        .ok (true, { w with reader := { w.reader with header := { w.reader.header with gpsWeek := week, gpsSecond := sec, interval := interval, mjd := mjd, mjdFraction := frac } } })

/-- The loops of lines 219-224 and 240-245: at most `k` fields of three characters, from field `i` on, until there are `n`. -/
def pushFields {α : Type} (dec : Str → Res α) (n : ℕ) (line : Str) : ℕ → ℕ → List α → Res (List α)
  | 0, _, acc => .ok acc
  | k + 1, i, acc =>
    if acc.length ≥ n then .ok acc
    else (substr line (9 + i * 3) 3).bind fun f => (dec f).bind fun a => pushFields dec n line k (i + 1) (acc ++ [a])

theorem getline_lt (s : Stream) (line : Str) (h : s.good = true) :
    (if (s.getline line).1.good = true then (s.getline line).1.rest.length + 1 else 0) < s.rest.length + 1 := by
  rw [Stream.getline, if_pos h]
  rcases hd : s.rest.dropWhile (· ≠ '\n') with _ | ⟨c, r⟩
  · simp [Stream.good]
  · have := congrArg List.length (List.takeWhile_append_dropWhile (p := (· ≠ '\n')) (l := s.rest))
    rw [hd] at this
    simp only [List.length_append, List.length_cons] at this
    simp only [Stream.good, Bool.not_false, Bool.and_self, if_true]
    omega

/-- The loops of lines 218-227 and 239-248 over the lines with a prefix `p`. When the stream is not good before `getline`, the line stays the same in all further rounds: an endless loop. -/
def lineLoop {α : Type} (dec : Str → Res α) (p : Str) (n : ℕ) (s : Stream) (line : Str) (acc : List α) : Res (Stream × Str × List α) :=
  if starts p line then
    (pushFields dec n line 17 0 acc).bind fun acc =>
      if h : s.good = true then lineLoop dec p n (s.getline line).1 (s.getline line).2 acc else .stuck
  else .ok (s, line, acc)
termination_by if s.good = true then s.rest.length + 1 else 0
decreasing_by rw [if_pos h]; exact getline_lt s line h

/-- The satellite identifiers, lines 208-231. -/
def readIds (c : Codec) (w : Work) : Res (Bool × Work) :=
  let w := w.getline
  if !starts ['+', ' '] w.line then .ok (false, w)
  else
    (c.int w.line 3 3).bind fun n =>
      (lineLoop (fun f => .ok f) ['+', ' '] (toU64 n) w.stream w.line w.reader.header.ids).bind fun x =>
        .ok (decide (x.2.2.length = toU64 n), ⟨x.1, x.2.1, { w.reader with header := { w.reader.header with satellites := toU64 n, ids := x.2.2 } }⟩)

/-- `(uint8_t)stoi(f)`, line 244. -/
def Codec.accuracy (c : Codec) (f : Str) : Res ℕ := match c.stoi f with | some v => .ok (v % 256).toNat | none => .throws

/-- The accuracies, lines 235-252. -/
def readAccuracy (c : Codec) (w : Work) : Res (Bool × Work) :=
  if !starts ['+', '+'] w.line then .ok (false, w)
  else
    (lineLoop c.accuracy ['+', '+'] w.reader.header.satellites w.stream w.line w.reader.header.accuracy).bind fun x =>
      .ok (decide (x.2.2.length = w.reader.header.satellites), ⟨x.1, x.2.1, { w.reader with header := { w.reader.header with accuracy := x.2.2 } }⟩)

/-- The additional parameters, lines 255-296. -/
def readAdditional (c : Codec) (w : Work) : Res (Bool × Work) :=
  if !starts ['%', 'c'] w.line then .ok (false, w)
  else
    (substr w.line 3 2).bind fun ft => (substr w.line 9 3).bind fun ts =>
      let w := ({ w with reader := { w.reader with header := { w.reader.header with fileType := ft, timeSystem := ts } } } : Work).getline
      if !starts ['%', 'c'] w.line then .ok (false, w)
      else
        let w := w.getline
        if !starts ['%', 'f'] w.line then .ok (false, w)
        else
          (c.real w.line 3 10).bind fun bp => (c.real w.line 14 12).bind fun bc =>
            let w := ({ w with reader := { w.reader with header := { w.reader.header with basePosition := bp, baseClock := bc } } } : Work).getline
            if !starts ['%', 'f'] w.line then .ok (false, w)
            else
              let w := w.getline
              if !starts ['%', 'i'] w.line then .ok (false, w)
              else
                let w := w.getline
                .ok (starts ['%', 'i'] w.line, w)

/-- The comments, lines 299-306. A comment that is the unfinished last line of the file is seen again for ever. -/
def commentLoop (s : Stream) (line : Str) : Res Stream :=
  let s1 := s.tellg.1
  if starts ['/', '*'] (s1.getline line).2 then
    if h : s.good = true ∧ (s1.getline line).1.good = true then commentLoop (s1.getline line).1 (s1.getline line).2 else .stuck
  else .ok ((s1.getline line).1.seekg s.tellg.2)
termination_by if s.good = true then s.rest.length + 1 else 0
decreasing_by
  have h1 : s.tellg.1 = s := by simp only [Stream.tellg, h.1, if_true]
  rw [if_pos h.1, h1]
  exact getline_lt s line h.1

/-- Continue unless `return 0` / `return false`. -/
def andThen (x : Res (Bool × Work)) (f : Work → Res (Bool × Work)) : Res (Bool × Work) := x.bind fun y => if y.1 then f y.2 else .ok (false, y.2)

/-- `ReadHeader`, lines 150-308: `false` for the return value 0. -/
def readHeader (c : Codec) (w : Work) : Res (Bool × Work) :=
  andThen (andThen (andThen (andThen (andThen (readFirst c w) (readSecond c)) (readIds c)) (readAccuracy c)) (readAdditional c)) fun w =>
    (commentLoop w.stream w.line).bind fun s => .ok (true, { w with stream := s })

/-- Lines 120-123: `epoch_[0]`, `epoch_[1]`, `position_clock_[0]`, `position_clock_[1]`. -/
def finalTouches (r : Reader) : Res Reader :=
  if r.epoch.length < 2 then .ub else .ok { r with position := touch (touch r.position 0) 1 }

/-- `ReadFile`, lines 48-127; `none`: the file cannot be opened. -/
def readFile (c : Codec) (file : Option Str) : Res (Bool × Reader) :=
  match file with
  | none => .ok (false, {})
  | some text =>
    (readHeader c ⟨⟨text, false, false⟩, [], {}⟩).bind fun x =>
      if x.1 then
        (epochLoop c x.2.reader.header.epochs x.2).bind fun y =>
          if y.1 then (finalTouches y.2.reader).bind fun r => .ok (true, r) else .ok (false, y.2.reader)
      else .ok (false, x.2.reader)

/-- `GetEpochData`, lines 18-24; `none` for the default `DateTime`. -/
def getEpochData (r : Reader) (e : ℕ) : Res (Option (DateTime ℝ)) :=
  if e > r.epoch.length then .ok none else match r.epoch[e]? with | some t => .ok (some t) | none => .ub

/-- `GetPositionClock`, lines 26-36. -/
def getPositionClock (r : Reader) (e s : ℕ) : Res PositionClock :=
  if e ≥ r.epoch.length then .ok {}
  else
    match r.position[s]? with
    | none => .ok {}
    | some l => match l[e]? with | some p => .ok p | none => .ub

end S2E.Sp3
