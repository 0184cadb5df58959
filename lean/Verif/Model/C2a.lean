import Verif.Model.Ini
import Verif.Model.Slip
/-!
# C2A command database, WINGS operation file and command sender

`src/setting_file_reader/c2a_command_database.cpp`, `src/setting_file_reader/wings_operation_file.cpp`,
`src/components/real/communication/wings_command_sender_to_c2a.cpp` (with `USE_C2A` defined). The flight software functions `CCP_register_rtc` and
`CCP_register_tlc` are the outputs of the model. Numbers in files are read by the standard functions: the decimal ones for integers are modelled,
the floating point ones and base-0 `stoul` are arbitrary functions that may throw.
-/
namespace S2E.C2a
open S2E.Log S2E.Ini

/-! ## `std::stoul`, `std::stol`, `std::stoi` in base ten -/

/-- The optional sign of `strtol`. -/
def splitSign : Str → Bool × Str
  | '-' :: r => (true, r)
  | '+' :: r => (false, r)
  | r => (false, r)

/-- The common part of `strtol`/`strtoul` in base ten: white space is skipped, one optional sign, then as many digits as there are. `none` when there
is no digit (the C++ functions then throw `invalid_argument`); text after the digits is ignored. The result is the sign and the magnitude. -/
def scanInt (s : Str) : Option (Bool × Nat) :=
  let t := splitSign (s.dropWhile isSpace)
  let ds := t.2.takeWhile Char.isDigit
  if ds = [] then none else some (t.1, Nat.ofDigitChars 10 ds 0)

/-- `std::stoul` with 64-bit `unsigned long`: throws `out_of_range` when the magnitude does not fit; a minus sign negates modulo 2^64. -/
def stoul (s : Str) : Res Int :=
  match scanInt s with
  | none => .throws
  | some (neg, m) => if m < 2 ^ 64 then .ok ((if neg then -(m : Int) else m) % 2 ^ 64) else .throws

/-- `std::stol` with 64-bit `long`. -/
def stol (s : Str) : Res Int :=
  match scanInt s with
  | none => .throws
  | some (neg, m) =>
    let v : Int := if neg then -(m : Int) else m
    if -2 ^ 63 ≤ v ∧ v < 2 ^ 63 then .ok v else .throws

/-- `std::stoi` with 32-bit `int`. -/
def stoi (s : Str) : Res Int :=
  match scanInt s with
  | none => .throws
  | some (neg, m) =>
    let v : Int := if neg then -(m : Int) else m
    if -2 ^ 31 ≤ v ∧ v < 2 ^ 31 then .ok v else .throws

/-- The memory of an integer object of `n` bytes with value `v` (reduced modulo 2^(8n), two's complement) on a little-endian host. -/
def leBytes : Nat → Int → List Byte
  | 0, _ => []
  | n + 1, v => UInt8.ofNat (v % 256).toNat :: leBytes n (v / 256)

/-! ## Arguments -/

/-- `C2aArgumentType`, c2a_command_database.hpp:21. -/
inductive ArgType where
  | uint8 | uint16 | uint32 | uint64 | int8 | int16 | int32 | int64 | float | double | raw | error
  deriving DecidableEq, Repr

/-- The floating point conversions: the object representation (little-endian) of what `stof`/`stod` return. -/
structure FloatIo where
  stof : Str → Res (List Byte)
  stod : Str → Res (List Byte)
  stof_len : ∀ s b, stof s = .ok b → b.length = 4
  stod_len : ∀ s b, stod s = .ok b → b.length = 8

/-- `DecodeC2aCommandArgument(type, text, param, size)`, c2a_command_database.cpp:93-162: the memory from `param` on, and the size (left as it was by
`raw` and unknown types). The narrowing conversions `(uint8_t)`... are the reduction in `leBytes`. -/
def decodeArgument (io : FloatIo) (type : ArgType) (text : Str) (param : List Byte) (size : Nat) : Res (List Byte × Nat) :=
  match type with
  | .uint8 => do let v ← stoul text; let p ← Endian.endianMemcpy param (leBytes 1 v) 1; .ok (p, 1)
  | .uint16 => do let v ← stoul text; let p ← Endian.endianMemcpy param (leBytes 2 v) 2; .ok (p, 2)
  | .uint32 => do let v ← stoul text; let p ← Endian.endianMemcpy param (leBytes 4 v) 4; .ok (p, 4)
  | .uint64 => do let v ← stoul text; let p ← Endian.endianMemcpy param (leBytes 8 v) 8; .ok (p, 8)
  | .int8 => do let v ← stoi text; let p ← Endian.endianMemcpy param (leBytes 1 v) 1; .ok (p, 1)
  | .int16 => do let v ← stoi text; let p ← Endian.endianMemcpy param (leBytes 2 v) 2; .ok (p, 2)
  | .int32 => do let v ← stoi text; let p ← Endian.endianMemcpy param (leBytes 4 v) 4; .ok (p, 4)
  | .int64 => do let v ← stol text; let p ← Endian.endianMemcpy param (leBytes 8 v) 8; .ok (p, 8)
  | .float => do let b ← io.stof text; let p ← Endian.endianMemcpy param b 4; .ok (p, 4)
  | .double => do let b ← io.stod text; let p ← Endian.endianMemcpy param b 8; .ok (p, 8)
  | .raw => .ok (param, size)
  | .error => .ok (param, size)

/-- `ConvertArgumentType`, c2a_command_database.cpp:51-77. -/
def convertArgumentType (t : Str) : ArgType :=
  if t = "uint8_t".toList then .uint8
  else if t = "uint16_t".toList then .uint16
  else if t = "uint32_t".toList then .uint32
  else if t = "uint64_t".toList then .uint64
  else if t = "int8_t".toList then .int8
  else if t = "int16_t".toList then .int16
  else if t = "int32_t".toList then .int32
  else if t = "int64_t".toList then .int64
  else if t = "float".toList then .float
  else if t = "double".toList then .double
  else if t = "raw".toList then .raw
  else .error

/-! ## Command database -/

/-- `C2aCommandInformation`, c2a_command_database.hpp:64-68 (`number_of_arguments_` is only used by the constructor). -/
structure CommandInfo where
  name : Str := "Error".toList
  id : Nat := 0
  types : List ArgType := []
  deriving DecidableEq

/-- `GetArgumentType`, c2a_command_database.cpp:43-49. -/
def CommandInfo.argumentType (c : CommandInfo) (i : Nat) : ArgType := (c.types[i]?).getD .error

/-- `tokens[i]`: past the end is undefined. -/
def token (tokens : List Str) (i : Nat) : Res Str :=
  match tokens[i]? with
  | some t => .ok t
  | none => .ub

/-- The loop over the arguments, c2a_command_database.cpp:37-40. -/
def readTypes (tokens : List Str) : Nat → Nat → List ArgType → Res (List ArgType)
  | 0, _, acc => .ok acc
  | n + 1, argId, acc => do
    let t ← token tokens (5 + 2 * argId)
    readTypes tokens n (argId + 1) (acc ++ [convertArgumentType t])

/-- Constructor from one line, c2a_command_database.cpp:16-41. `stoul0` is `std::stoul(_, nullptr, 0)`. -/
def parseLine (stoul0 : Str → Res Nat) (line : Str) : Res CommandInfo :=
  if line.head? = some '*' then .ok {}
  else if line.head? ≠ some ',' then .ok {}
  else do
    let tokens := split ',' line
    let name ← token tokens 1
    if name = [] then .ok { name := [] }
    else
      let t3 ← token tokens 3
      let id ← stoul0 t3
      let t4 ← token tokens 4
      let num ← stoul0 t4
      let types ← readTypes tokens num 0 []
      .ok { name := name, id := id, types := types }

/-- Constructor of `C2aCommandDatabase`, c2a_command_database.cpp:79-91, from the map `db` on; the map is a list with the latest entry first. -/
def loadDatabase (stoul0 : Str → Res Nat) : List Str → List (Str × CommandInfo) → Res (List (Str × CommandInfo))
  | [], db => .ok db
  | line :: lines, db => do
    let c ← parseLine stoul0 line
    if c.name = "Error".toList then loadDatabase stoul0 lines db
    else loadDatabase stoul0 lines ((c.name, c) :: db)

/-- `GetCommandInformation`, c2a_command_database.hpp:97-104. -/
def lookup (db : List (Str × CommandInfo)) (name : Str) : CommandInfo :=
  match db.find? (fun e => e.1 = name) with
  | some e => e.2
  | none => {}

/-! ## WINGS operation file -/

/-- The edits of one line in the constructor of `WingsOperationFile`, wings_operation_file.cpp:23-34: one leading dot, then one leading blank, then
everything from the first `#` on. -/
def cleanLine (line : Str) : Str :=
  let line := if line.head? = some '.' then line.drop 1 else line
  let line := if line.head? = some ' ' then line.drop 1 else line
  line.takeWhile (· ≠ '#')

/-- Constructor of `WingsOperationFile`, wings_operation_file.cpp:12-40. -/
def loadOperation (file : Str) : List Str := ((linesOf file).map cleanLine).filter (fun l => 2 < l.length)

/-! ## Command sender -/

/-- `while (token_stream >> token)`, wings_command_sender_to_c2a.cpp:49-54: the white-space separated words. -/
def words (s : Str) : List Str :=
  match h : s.dropWhile isSpace with
  | [] => []
  | c :: cs => (c :: cs).takeWhile (fun c => !isSpace c) :: words ((c :: cs).dropWhile (fun c => !isSpace c))
termination_by s.length
decreasing_by
  have h1 : (s.dropWhile isSpace).length ≤ s.length := (List.dropWhile_suffix _).length_le
  have hc : isSpace c = false := by
    have := List.head?_dropWhile_not isSpace s
    rw [h] at this; simpa using this
  rw [h] at h1
  have h2 : ((c :: cs).dropWhile (fun c => !isSpace c)).length ≤ cs.length := by
    rw [List.dropWhile_cons_of_pos (by simp [hc])]
    exact (List.dropWhile_suffix _).length_le
  simp only [List.length_cons] at h1; omega

/-- What is handed to the flight software. -/
inductive Call where
  | rtc (id : Nat) (param : List Byte)
  | tlc (ti : Int) (id : Nat) (param : List Byte)
  deriving DecidableEq

/-- The argument loop, wings_command_sender_to_c2a.cpp:115-119: `param` is the whole buffer, `len` the `uint16_t` length so far. -/
def decodeArguments (io : FloatIo) (info : CommandInfo) : List Str → Nat → List Byte → Nat → Res (List Byte × Nat)
  | [], _, param, len => .ok (param, len)
  | a :: as, i, param, len => do
    let r ← decodeArgument io (info.argumentType i) a (param.drop len) 0
    decodeArguments io info as (i + 1) (param.take len ++ r.1) ((len + r.2 % 2 ^ 16) % 2 ^ 16)

/-- The flight software reads `param_len` bytes from `param`. -/
def readParam (param : List Byte) (len : Nat) : Res (List Byte) := if len ≤ param.length then .ok (param.take len) else .ub

/-- `AnalyzeC2aCommand`, wings_command_sender_to_c2a.cpp:74-134. `buffer` is the initial content of `param[CSP_MAX_LEN]`. The checks for an unknown
command and for the number of arguments have empty bodies (lines 89-91, 101-103). A command id is kept as it is. -/
def analyze (io : FloatIo) (db : List (Str × CommandInfo)) (buffer : List Byte) (tokens : List Str) : Res (List Call) :=
  match tokens with
  | [] => .ub
  | t0 :: rest =>
    if '_' ∉ t0 then .ok []
    else
      let us := t0.findIdx (· = '_')
      let afterUs := t0.drop (us + 1)
      -- `find('.')`, lines 79-85: without a dot `substr(npos + 1)` is the whole token and `npos - (us + 1)` reaches the end;
      -- a dot at or before the underscore makes the length wrap around, so that the rest of the token is taken
      let dot := t0.findIdx (· = '.')
      let type := if '.' ∈ t0 ∧ us + 1 ≤ dot then afterUs.take (dot - (us + 1)) else afterUs
      let name := if '.' ∈ t0 then t0.drop (dot + 1) else t0
      let info := lookup db name
      if rest.any (fun a => a.head? = some '{') then .ok []
      else
        let isTimed := type = "TL".toList ∨ type = "BL".toList
        do
        let ti ← if isTimed then (do let a ← token rest 0; let v ← stoi a; Res.ok (v % 2 ^ 32)) else .ok 0
        let args := if isTimed then rest.drop 1 else rest
        let r ← decodeArguments io info args 0 buffer 0
        if type = "RT".toList then (do let p ← readParam r.1 r.2; .ok [.rtc info.id p])
        else if type = "TL".toList then (do let p ← readParam r.1 r.2; .ok [.tlc ti info.id p])
        else .ok []

variable {K : Type}

/-- `ExecuteCommandLine`, wings_command_sender_to_c2a.cpp:47-72: the new `wait_s_` and the calls made. `stod` is the library function. -/
def executeLine [Zero K] (stod : Str → Res K) (io : FloatIo) (db : List (Str × CommandInfo)) (buffer : List Byte) (line : Str) : Res (K × List Call) := do
  let tokens := words line
  let t0 ← token tokens 0
  if "wait_sec".toList.isPrefixOf t0 then
    let t1 ← token tokens 1
    let w ← stod t1
    .ok (w, [])
  else if "check_value".toList.isPrefixOf t0 then .ok (0, [])
  else if "let".toList.isPrefixOf t0 then .ok (0, [])
  else
    let calls ← analyze io db buffer tokens
    .ok (0, calls)

/-- State of `WingsCommandSenderToC2a`, wings_command_sender_to_c2a.hpp:42-47, and of its operation file; `executed` and `calls` are the observations:
the lines executed and the calls into the flight software so far. -/
structure Sender (K : Type) where
  lines : List Str
  pointer : Nat := 0
  enabled : Bool
  step : K
  wait : K
  endOfLine : Bool := false
  executed : List Str := []
  calls : List Call := []

/-- `GetLatestLine`, wings_operation_file.cpp:42-49. -/
def Sender.getLatestLine (s : Sender K) : Str × Sender K :=
  match s.lines[s.pointer]? with
  | none => ("EOL".toList, s)
  | some l => (l, { s with pointer := s.pointer + 1 })

/-- `MainRoutine`, wings_command_sender_to_c2a.cpp:31-45. `exec` is `ExecuteCommandLine`. -/
def Sender.mainRoutine [Zero K] [Sub K] [LE K] [DecidableLE K] (exec : Str → Res (K × List Call)) (s : Sender K) : Res (Sender K) :=
  if s.enabled = false then .ok s
  else if s.endOfLine = true then .ok s
  else if s.wait ≤ 0 then
    let (line, s) := s.getLatestLine
    if line = "EOL".toList then .ok { s with endOfLine := true }
    else do
      let r ← exec line
      .ok { s with wait := r.1, executed := s.executed ++ [line], calls := s.calls ++ r.2 }
  else .ok { s with wait := s.wait - s.step }

/-- `n` runs of the main routine. -/
def Sender.run [Zero K] [Sub K] [LE K] [DecidableLE K] (exec : Str → Res (K × List Call)) : Nat → Sender K → Res (Sender K)
  | 0, s => .ok s
  | n + 1, s => do
    let s ← s.run exec n
    s.mainRoutine exec

/-- A freshly constructed sender. -/
def Sender.init [Zero K] (file : Str) (enabled : Bool) (step : K) : Sender K :=
  { lines := loadOperation file, enabled := enabled, step := step, wait := 0 }

end S2E.C2a
