import Verif.Model.Log
/-!
# `src/setting_file_reader/initialize_file_access.cpp` (Linux branch)

The external `INIReader` is a function from section and key to the raw value, with its conversions to numbers as arbitrary functions
(`GetReal` etc. return the given default when the key is missing, as documented for that library). `std::stod` is an arbitrary partial
function (`throws` on failure). A file stream is the list of its characters.
-/
namespace S2E.Ini
open S2E.Log

/-- One `getline(stream, field, delimiter)` on the characters still unread: `none` if it fails (nothing left), otherwise the field and what is
left. The delimiter is taken out and dropped; reaching the end after at least one character still succeeds. -/
def getline (delimiter : Char) : Str → Option (Str × Str)
  | [] => none
  | s =>
    let field := s.takeWhile (· ≠ delimiter)
    some (field, (s.dropWhile (· ≠ delimiter)).drop 1)

theorem getline_lt (d : Char) (s field rest : Str) (h : getline d s = some (field, rest)) : rest.length < s.length := by
  cases s with
  | nil => simp [getline] at h
  | cons c s =>
    simp only [getline, Option.some.injEq, Prod.mk.injEq] at h
    obtain ⟨_, rfl⟩ := h
    have : ((c :: s).dropWhile (· ≠ d)).length ≤ (c :: s).length := (List.dropWhile_suffix _).length_le
    simp only [List.length_drop, List.length_cons] at *
    omega

/-- `Split`, initialize_file_access.cpp:221-229. -/
def split (delimiter : Char) (input : Str) : List Str :=
  match h : getline delimiter input with
  | none => []
  | some (field, rest) => field :: split delimiter rest
termination_by input.length
decreasing_by exact getline_lt delimiter input field rest h

/-- The lines `while (getline(ifs, line))` sees, initialize_file_access.cpp:239, 259, 282. An unopened file gives none. -/
def linesOf (file : Str) : List Str := split '\n' file

variable {K : Type} (stod : Str → Res K)

/-- The inner loop of `ReadCsvDoubleWithHeader`, initialize_file_access.cpp:264-268, from column `i` on. -/
def readCells (columnHeader : Nat) : Nat → List Str → Res (List K)
  | _, [] => .ok []
  | i, x :: xs => do
    if i ≥ columnHeader then
      let v ← stod x
      let vs ← readCells columnHeader (i + 1) xs
      .ok (v :: vs)
    else readCells columnHeader (i + 1) xs

/-- The outer loop, initialize_file_access.cpp:259-272, from line `lineNum` on. -/
def readRows (rowHeader columnHeader : Nat) : Nat → List Str → Res (List (List K))
  | _, [] => .ok []
  | lineNum, line :: lines => do
    if lineNum ≥ rowHeader then
      let r ← readCells stod columnHeader 0 (split ',' line)
      let rs ← readRows rowHeader columnHeader (lineNum + 1) lines
      .ok (r :: rs)
    else readRows rowHeader columnHeader (lineNum + 1) lines

/-- `ReadCsvDoubleWithHeader`, initialize_file_access.cpp:250-273 (appended to an empty output; `node_num` only reserves memory). -/
def readCsvDoubleWithHeader (file : Str) (rowHeader columnHeader : Nat) : Res (List (List K)) := readRows stod rowHeader columnHeader 0 (linesOf file)

/-- The loop over one line in `ReadCsvDouble`, initialize_file_access.cpp:243-245. -/
def readAllCells : List Str → Res (List K)
  | [] => .ok []
  | x :: xs => do
    let v ← stod x
    let vs ← readAllCells xs
    .ok (v :: vs)

/-- `ReadCsvDouble`, initialize_file_access.cpp:231-248. -/
def readCsvDouble (file : Str) : Res (List (List K)) := go (linesOf file)
where
  /-- the loop over the lines -/
  go : List Str → Res (List (List K))
    | [] => .ok []
    | line :: lines => do
      let r ← readAllCells stod (split ',' line)
      let rs ← go lines
      .ok (r :: rs)

/-- `ReadCsvString`, initialize_file_access.cpp:275-287. -/
def readCsvString (file : Str) : List (List Str) := (linesOf file).map (split ',')

/-! ## Values -/

/-- `\s` of the ECMAScript regular expressions (C locale). -/
def isSpace (c : Char) : Bool := c = ' ' || c = '\t' || c = '\n' || c = '\r' || c.toNat = 11 || c.toNat = 12

/-- `regex_replace(value, "\\s*//.*", "")`, initialize_file_access.cpp:167-168, for a value on one line: everything from the white space
before the first `//` on is removed. `acc` is the pending white space. -/
def stripComment : Str → Str → Str
  | acc, [] => acc
  | acc, c :: cs =>
    if c = '/' && cs.head? = some '/' then []
    else if isSpace c then stripComment (acc ++ [c]) cs
    else acc ++ c :: stripComment [] cs

/-- `regex_replace(value, key, text)` for a key without special characters: every non-overlapping occurrence from the left,
initialize_file_access.cpp:171, 174, 177. -/
def replaceAll (key text : Str) (s : Str) : Str :=
  match s with
  | [] => []
  | c :: cs =>
    if key ≠ [] ∧ key.isPrefixOf (c :: cs) = true then text ++ replaceAll key text ((c :: cs).drop key.length)
    else c :: replaceAll key text cs
termination_by s.length
decreasing_by
  · rename_i h
    have : 0 < key.length := List.length_pos_of_ne_nil h.1
    simp only [List.length_drop, List.length_cons]; omega
  · simp

/-- The compile-time paths `SETTINGS_DIR_FROM_EXE`, `EXT_LIB_DIR_FROM_EXE`, `CORE_DIR_FROM_EXE`. -/
structure Paths where
  settings : Str
  extLib : Str
  core : Str

/-- The processing of a raw value in `ReadString`, initialize_file_access.cpp:166-179. -/
def process (p : Paths) (raw : Str) : Str :=
  replaceAll "CORE_DIR_FROM_EXE".toList p.core
    (replaceAll "EXT_LIB_DIR_FROM_EXE".toList p.extLib (replaceAll "SETTINGS_DIR_FROM_EXE".toList p.settings (stripComment [] raw)))

/-- `ReadString`, initialize_file_access.cpp:156-180, in one section. -/
def readString (p : Paths) (ini : Str → Option Str) (key : Str) : Str := process p ((ini key).getD "NULL".toList)

/-- `ReadEnable`, initialize_file_access.cpp:192-197. -/
def readEnable (p : Paths) (ini : Str → Option Str) (key : Str) : Bool :=
  if readString p ini key = "ENABLE".toList then true
  else if readString p ini key = "1".toList then true
  else false

/-- `ReadChar` (Linux branch), initialize_file_access.cpp:147-154: `strncpy(data, value, size)` fills exactly the first `size` characters of `data`,
with the value cut off at `size`, or filled up with terminators (`'\x00'`). -/
def readChar (p : Paths) (ini : Str → Option Str) (key : Str) (size : Nat) : Str :=
  (readString p ini key).take size ++ List.replicate (size - (readString p ini key).length) (Char.ofNat 0)

/-- The key of element `i`: `key_name << "(" << i << ")"`, initialize_file_access.cpp:45, 85, 117, 186, 205, initialize_file_access.hpp:216. -/
def indexedKey (key : Str) (i : Nat) : Str := key ++ "(".toList ++ dec i ++ ")".toList

/-- `ReadStrVector`, initialize_file_access.cpp:199-219. The counter is `unsigned int`. -/
def readStrVectorFrom (p : Paths) (ini : Str → Option Str) (key : Str) : Nat → Nat → List Str → Res (List Str)
  | 0, _, _ => .stuck
  | fuel + 1, i, data =>
    let temp := readString p ini (indexedKey key i)
    if temp = "NULL".toList then .ok data else readStrVectorFrom p ini key fuel ((i + 1) % 2 ^ 32) (data ++ [temp])

@[inherit_doc readStrVectorFrom]
def readStrVector (p : Paths) (ini : Str → Option Str) (key : Str) (fuel : Nat) : Res (List Str) := readStrVectorFrom p ini key fuel 0 []

/-- `ReadVectorString`, initialize_file_access.cpp:182-190. -/
def readVectorString (p : Paths) (ini : Str → Option Str) (key : Str) (num : Nat) : List Str :=
  (List.range num).foldl (fun data i => data ++ [readString p ini (indexedKey key i)]) []

/-- `ReadDouble`, initialize_file_access.cpp:51-67: `GetReal` with default 0. -/
def readDouble [Zero K] (getReal : Str → K) (ini : Str → Option Str) (key : Str) : K :=
  match ini key with
  | none => 0
  | some raw => getReal raw

/-- `ReadVectorDouble`, `ReadVector<N>`, initialize_file_access.cpp:113-121, initialize_file_access.hpp:212-219. -/
def readVectorDouble [Zero K] (getReal : Str → K) (ini : Str → Option Str) (key : Str) (num : Nat) : List K :=
  (List.range num).foldl (fun data i => data ++ [readDouble getReal ini (indexedKey key i)]) []

/-- `ReadDoubleArray`, initialize_file_access.cpp:105-111: keys `name`, `id`, `(i)`. -/
def readDoubleArray [Zero K] (getReal : Str → K) (ini : Str → Option Str) (key : Str) (id num : Nat) : List K :=
  (List.range num).map (fun i => readDouble getReal ini (key ++ dec id ++ "(".toList ++ dec i ++ ")".toList))

/-- `ReadQuaternion`, initialize_file_access.cpp:123-145: first `key_(i)`, and only if all four are zero the old format `key(i)`. -/
def readQuaternion [Zero K] [Add K] [Mul K] [DecidableEq K] (getReal : Str → K) (ini : Str → Option Str) (key : Str) : Nat → K :=
  let temp := fun i => readDouble getReal ini (key ++ "_(".toList ++ dec i ++ ")".toList)
  let norm := 0 + temp 0 * temp 0 + temp 1 * temp 1 + temp 2 * temp 2 + temp 3 * temp 3
  if norm = 0 then fun i => readDouble getReal ini (indexedKey key i) else temp

end S2E.Ini
