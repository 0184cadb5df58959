import Verif.Model.LogFiles
/-!
# Specification: paths, and the text a logger is told to write
-/
namespace S2E.LogFiles
open Log

/-- The path of something in a directory. -/
def inDir (dir name : Str) : Str := dir ++ '/' :: name

/-- A directory can be written down without a `/` at its end. -/
def Plain (dir : Str) : Prop := dir ≠ [] ∧ dir.getLast? ≠ some '/'

/-- `n` is the last name of the path `p`. -/
def IsName (n p : Str) : Prop := n ≠ [] ∧ '/' ∉ n ∧ (p = n ∨ ∃ dir, p = inDir dir n)

/-- The log directory of a logger made at a time in a directory. -/
def logDir (data time : Str) : Str := inDir data ("logs_".toList ++ time)

/-- The CSV file of a logger made at a time in a directory. -/
def csvPath (data time name : Str) : Str := inDir (logDir data time) (time ++ "_".toList ++ name)

/-- One line, or a part of one, from the loggables that are enabled. -/
def lineOf (text : Loggable → Str) (list : List Loggable) (newline : Bool) : Str :=
  (list.filter (·.isLogEnabled)).flatMap text ++ if newline then ['\n'] else []

/-- The text a logger is told to write by a sequence of operations, given its enable flag and its list before them. -/
def told (enabled : Bool) (list : List Loggable) : List Op → Str
  | [] => []
  | .headers nl :: os => (if enabled then lineOf Loggable.header list nl else []) ++ told enabled list os
  | .values nl :: os => (if enabled then lineOf Loggable.value list nl else []) ++ told enabled list os
  | .add x :: os => told enabled (list ++ [x]) os
  | .clear :: os => told enabled [] os
  | .enable b :: os => told b list os
  | .shows xs :: os => told enabled xs os
  | .copy _ :: os => told enabled list os

/-- The operations on the logger with the number `i`, in their order. -/
def opsOf (i : ℕ) : List Event → List Op
  | [] => []
  | .make .. :: es => opsOf i es
  | .use j o :: es => if j = i then o :: opsOf i es else opsOf i es

end S2E.LogFiles
