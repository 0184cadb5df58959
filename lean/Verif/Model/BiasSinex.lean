import Verif.Model.Sp3
/-!
# `src/math_physics/gnss/bias_sinex_file_reader.cpp`

Streams, `getline`, `substr` and `std::stod` (an arbitrary partial function) are those of `Model/Sp3`. The endless loops have a fuel: a loop that is `stuck` for every
fuel does not end. The contents of the start and end times of a bias are read by the code into variables that are not used.
-/
namespace S2E.Bias
open S2E.Log S2E.Sp3

/-- `stream.peek() == EOF`. -/
def atEnd (s : Stream) : Bool := !s.good || s.rest.isEmpty

/-- `BiasIdentifier`, bias_sinex_file_reader.hpp:18-23. -/
inductive Identifier | dsb | isb | osb | error
  deriving DecidableEq

/-- `BiasTargetSignal`, bias_sinex_file_reader.hpp:28-33. -/
inductive Target | p1p2 | p1c1 | p2c2 | error
  deriving DecidableEq

/-- `BiasUnit`, bias_sinex_file_reader.hpp:38-42. -/
inductive Unit | ns | cycle | error
  deriving DecidableEq

/-- `BiasSolutionData`, bias_sinex_file_reader.hpp:47-167. -/
structure Solution where
  identifier : Identifier := .error
  svn : Str := []
  number : Str := []
  station : Str := []
  target : Target := .error
  unit : Unit := .error
  bias : ℝ := 0
  deviation : ℝ := 0
  slope : ℝ := 0
  slopeDeviation : ℝ := 0

/-- `SetIdentifier`, lines 211-221. -/
def identifierOf (s : Str) : Identifier :=
  if s = "DSB ".toList then .dsb else if s = "ISB ".toList then .isb else if s = "OSB ".toList then .osb else .error

/-- `SetUnit`, lines 223-231. -/
def unitOf (s : Str) : Unit := if s = "ns  ".toList then .ns else if s = "cyc ".toList then .cycle else .error

/-- `SetTargetSignal`, lines 233-246. -/
def targetOf (a b : Str) : Target :=
  if a = "C1W ".toList ∧ b = "C2W ".toList then .p1p2
  else if a = "C1P ".toList ∧ b = "C2P ".toList then .p1p2
  else if a = "C1P ".toList ∧ b = "C1C ".toList then .p1c1
  else if a = "C2P ".toList ∧ b = "C2C ".toList then .p2c2
  else .error

/-- The slope and its standard deviation, lines 196-205; the read point is 105, and 127 after the slope. -/
def readSlopes (c : Codec) (line : Str) (d : Solution) : Res Solution :=
  (if 105 + 21 < line.length then (c.real line 105 21).bind fun v => .ok (127, { d with slope := v }) else .ok (105, d)).bind fun x =>
    if x.1 + 12 < line.length then (c.real line x.1 12).bind fun v => .ok { x.2 with slopeDeviation := v } else .ok x.2

/-- One line of the solution, lines 149-205. -/
def readLine (c : Codec) (line : Str) : Res Solution :=
  (substr line 1 4).bind fun id => (substr line 6 4).bind fun svn => (substr line 11 3).bind fun num => (substr line 15 9).bind fun sta =>
    (substr line 25 4).bind fun o1 => (substr line 30 4).bind fun o2 => (substr line 35 14).bind fun _ => (substr line 50 14).bind fun _ =>
      (substr line 65 4).bind fun u => (c.real line 70 21).bind fun b => (c.real line 92 12).bind fun sd =>
        readSlopes c line { identifier := identifierOf id, svn := svn, number := num, station := sta, target := targetOf o1 o2, unit := unitOf u,
                            bias := b, deviation := sd }

/-- `ReadFileReference`, `ReadFileComment`, `ReadInputAcknowledgments`, `ReadBiasDescription`, `ReadBiasReceiverInformation`, lines 75-133: lines are read until
one begins with the end mark. -/
def skipBlock (mark : Str) : ℕ → Stream → Str → Res Stream
  | 0, _, _ => .stuck
  | n + 1, s, line =>
    let g := s.getline line
    if starts mark g.2 then .ok g.1 else skipBlock mark n g.1 g.2

/-- `ReadBiasSolution`, lines 135-209; `acc` is `solution_data_`. -/
def readSolution (c : Codec) : ℕ → Stream → Str → List Solution → Res (Stream × List Solution)
  | 0, _, _, _ => .stuck
  | n + 1, s, line, acc =>
    let g := s.getline line
    if starts "-BIAS/SOLUTION".toList g.2 then .ok (g.1, acc)
    else if starts "*".toList g.2 then readSolution c n g.1 g.2 acc
    else (readLine c g.2).bind fun d => readSolution c n g.1 g.2 (acc ++ [d])

/-- The loop of `ReadFile`, lines 22-68. -/
def readLoop (c : Codec) : ℕ → Stream → List Solution → Res (List Solution)
  | 0, _, _ => .stuck
  | n + 1, s, acc =>
    if atEnd s then .ok acc
    else
      let g := s.getline []
      if starts "*".toList g.2 then readLoop c n g.1 acc
      else if starts "%=ENDBIA".toList g.2 then .ok acc
      else if starts "%=BIA".toList g.2 then readLoop c n g.1 acc
      else if starts "+FILE/REFERENCE".toList g.2 then (skipBlock "-FILE/REFERENCE".toList n g.1 []).bind fun s => readLoop c n s acc
      else if starts "+FILE/COMMENT".toList g.2 then (skipBlock "-FILE/COMMENT".toList n g.1 []).bind fun s => readLoop c n s acc
      else if starts "+INPUT/ACKNOWLEDGMENTS".toList g.2 then (skipBlock "-INPUT/ACKNOWLEDGMENTS".toList n g.1 []).bind fun s => readLoop c n s acc
      else if starts "+BIAS/DESCRIPTION".toList g.2 then (skipBlock "-BIAS/DESCRIPTION".toList n g.1 []).bind fun s => readLoop c n s acc
      else if starts "+BIAS/RECEIVER_INFORMATION".toList g.2 then
        (skipBlock "-BIAS/RECEIVER_INFORMATION".toList n g.1 []).bind fun s => readLoop c n s acc
      else if starts "+BIAS/SOLUTION".toList g.2 then (readSolution c n g.1 [] acc).bind fun r => readLoop c n r.1 r.2
      else readLoop c n g.1 acc

/-- The constructor: success flag and data; `none`: the file cannot be opened. -/
def construct (c : Codec) (n : ℕ) : Option Str → Res (Bool × List Solution)
  | none => .ok (false, [])
  | some f => (readLoop c n ⟨f, false, false⟩ []).bind fun d => .ok (true, d)

end S2E.Bias
