import Verif.Model.Sp3
/-!
# The layout of an SP3 file, independently of the reader

Columns count from 0.
-/
namespace S2E.Sp3
open S2E.Log S2E.Time

/-- `n` characters from column `a` on. -/
def cols (l : Str) (a n : ℕ) : Str := (l.drop a).take n

/-- The text of a list of lines, each with its end of line. -/
def text (L : List Str) : Str := L.flatMap (· ++ ['\n'])

/-- The 17 fields of three characters of an identifier or accuracy line. -/
def fields (l : Str) : List Str := (List.range 17).map fun j => cols l (9 + j * 3) 3

/-- The header lines. -/
structure HeaderLines where
  first : Str
  second : Str
  ids : List Str
  accs : List Str
  c1 : Str
  c2 : Str
  f1 : Str
  f2 : Str
  i1 : Str
  i2 : Str
  comments : List Str

/-- All of them in the order of the file. -/
def HeaderLines.lines (h : HeaderLines) : List Str := h.first :: h.second :: (h.ids ++ (h.accs ++ (h.c1 :: h.c2 :: h.f1 :: h.f2 :: h.i1 :: h.i2 :: h.comments)))

/-- The lines are a header that says what `hd` says. -/
structure HeaderOk (c : Codec) (h : HeaderLines) (hd : Header) : Prop where
  noBreak : ∀ l ∈ h.lines, '\n' ∉ l
  firstLength : 56 ≤ h.first.length
  mode : hd.mode = if h.first[2]? = some 'P' then .position else if h.first[3]? = some 'V' then .velocity else .other
  start : ∃ t, c.scan (cols h.first 3 28) = some t ∧ hd.start = some t
  epochs : c.stoi (cols h.first 32 7) = some (hd.epochs : ℤ) ∧ hd.epochs < 2 ^ 31
  usedData : hd.usedData = cols h.first 40 5
  coordinates : hd.coordinates = cols h.first 46 5
  orbitType : hd.orbitType = if cols h.first 52 3 = "FIT".toList then .fitted else if cols h.first 52 3 = "EXT".toList then .extrapolated
    else if cols h.first 52 3 = "BCT".toList then .broadcast else if cols h.first 52 3 = "HLM".toList then .helmert else .other
  agency : hd.agency = cols h.first 56 4
  secondLine : ['#', '#'] <+: h.second ∧ 45 ≤ h.second.length
  gpsWeek : c.stoi (cols h.second 3 4) = some hd.gpsWeek
  gpsSecond : c.stod (cols h.second 8 15) = some hd.gpsSecond
  interval : c.stod (cols h.second 24 14) = some hd.interval
  mjd : c.stoi (cols h.second 39 5) = some hd.mjd
  mjdFraction : c.stod (cols h.second 45 15) = some hd.mjdFraction
  idLines : ∀ l ∈ h.ids, ['+', ' '] <+: l ∧ 57 ≤ l.length
  satellites : ∃ l ls, h.ids = l :: ls ∧ c.stoi (cols l 3 3) = some (hd.satellites : ℤ) ∧ hd.satellites < 2 ^ 31
  idsSize : hd.satellites ≤ 17 * h.ids.length
  ids : hd.ids = (h.ids.flatMap fields).take hd.satellites
  accLines : h.accs ≠ [] ∧ ∀ l ∈ h.accs, ['+', '+'] <+: l ∧ 57 ≤ l.length
  accSize : hd.satellites ≤ 17 * h.accs.length
  accuracy : List.Forall₂ (fun f (a : ℕ) => c.stoi f = some (a : ℤ) ∧ a < 256) ((h.accs.flatMap fields).take hd.satellites) hd.accuracy
  cLines : ['%', 'c'] <+: h.c1 ∧ ['%', 'c'] <+: h.c2 ∧ 9 ≤ h.c1.length
  fileType : hd.fileType = cols h.c1 3 2
  timeSystem : hd.timeSystem = cols h.c1 9 3
  fLines : ['%', 'f'] <+: h.f1 ∧ ['%', 'f'] <+: h.f2 ∧ 14 ≤ h.f1.length
  basePosition : c.stod (cols h.f1 3 10) = some hd.basePosition
  baseClock : c.stod (cols h.f1 14 12) = some hd.baseClock
  iLines : ['%', 'i'] <+: h.i1 ∧ ['%', 'i'] <+: h.i2
  commentLines : ∀ l ∈ h.comments, ['/', '*'] <+: l

/-- What a position line says: the numbers at their columns; deviations (0 if they are no numbers) and flags if the line is long enough. -/
structure Says (c : Codec) (l : Str) (v : PositionClock) : Prop where
  id : v.id = cols l 1 3
  x : c.stod (cols l 4 14) = some (v.position 0)
  y : c.stod (cols l 18 14) = some (v.position 1)
  z : c.stod (cols l 32 14) = some (v.position 2)
  clock : c.stod (cols l 46 14) = some v.clock
  deviations : v.positionDeviation = if 61 < l.length then ![(c.stod (cols l 61 2)).getD 0, (c.stod (cols l 64 2)).getD 0, (c.stod (cols l 67 2)).getD 0] else 0
  clockDeviation : v.clockDeviation = if 61 < l.length then (c.stod (cols l 70 3)).getD 0 else 0
  clockEvent : v.clockEvent = true ↔ l[74]? = some 'E'
  clockPrediction : v.clockPrediction = true ↔ l[75]? = some 'P'
  maneuver : v.maneuver = true ↔ l[78]? = some 'M'
  orbitPrediction : v.orbitPrediction = true ↔ l[79]? = some 'P'

/-- The lengths of position lines that can be read. -/
def GoodLength (n : ℕ) : Prop := 46 ≤ n ∧ n ≤ 61 ∨ 70 ≤ n ∧ n ≤ 73 ∨ 79 ≤ n

/-- A satellite in an epoch: its position line, perhaps a correlation line, and what the position line says. -/
structure Sat where
  p : Str
  ep : Option Str
  value : PositionClock

/-- Its lines. -/
def Sat.lines (s : Sat) : List Str := s.p :: s.ep.toList

/-- The lines are records of a satellite. -/
structure SatOk (c : Codec) (s : Sat) : Prop where
  noBreak : ∀ l ∈ s.lines, '\n' ∉ l
  first : ['P'] <+: s.p
  length : GoodLength s.p.length
  data : Says c s.p s.value
  correlation : ∀ l, s.ep = some l → ['E', 'P'] <+: l ∧ 72 ≤ l.length ∧
    ∀ f ∈ [(4, 4), (9, 4), (14, 4), (19, 7), (27, 8), (36, 8), (45, 8), (54, 8), (63, 8), (72, 8)], ∃ v, c.stoi (cols l f.1 f.2) = some v

/-- An epoch: its first line, the time it gives, the satellites. -/
structure Epoch where
  head : Str
  time : DateTime ℝ
  sats : List Sat

/-- Its lines. -/
def Epoch.lines (e : Epoch) : List Str := e.head :: e.sats.flatMap Sat.lines

/-- The lines are an epoch with `n` satellites. -/
structure EpochOk (c : Codec) (n : ℕ) (e : Epoch) : Prop where
  noBreak : '\n' ∉ e.head
  first : ['*', ' '] <+: e.head
  length : 3 ≤ e.head.length
  time : c.scan (cols e.head 3 28) = some e.time
  size : e.sats.length = n
  sats : ∀ s ∈ e.sats, SatOk c s

end S2E.Sp3
