import Verif.Model.Log
import Verif.Model.MonteCarlo
import Verif.Model.Ini
import Verif.Model.InitOrbit
/-!
# Where the log goes: the log directory, the CSV file and the copies of the settings files

`src/logger/logger.cpp`, `initialize_log.cpp` and the constructors of `SimulationCase` (`src/simulation/case/simulation_case.cpp:14-36`).

Paths are strings in the POSIX form and are compared as strings (`a/../b` and `b` are different paths here). The text of the clock
(`strftime(…, "%y%m%d_%H%M%S", localtime(…))`) is an input. What is written to a stream is on the disk at once (the program flushes it at the latest in the destructor).
-/
namespace S2E.LogFiles
open Log Ini InitOrbit MonteCarlo

/-- The disk: the text of the regular files, the directories, and the paths the operating system lets the program create or write. -/
structure Disk where
  files : Str → Option Str
  dirs : Str → Bool
  allows : Str → Bool

/-- `fs::exists`. -/
def Disk.has (d : Disk) (p : Str) : Bool := (d.files p).isSome || d.dirs p

/-- A regular file gets a text. -/
def Disk.set (d : Disk) (p t : Str) : Disk := { d with files := fun q => if q = p then some t else d.files q }

/-- `fs::create_directories`; the parents, which it makes as well, are not recorded. -/
def Disk.createDirectories (d : Disk) (p : Str) : Res Disk :=
  if d.dirs p = true then .ok d
  else if (d.files p).isSome = true ∨ d.allows p = false then .throws
  else .ok { d with dirs := fun q => if q = p then true else d.dirs q }

/-- `std::ofstream::open(p)`: makes the file or empties it; `none` when the stream does not open. -/
def Disk.openOut (d : Disk) (p : Str) : Option Disk := if d.dirs p = true ∨ d.allows p = false then none else some (d.set p [])

/-- `fs::copy_file(from, to)` for a `to` that does not exist. -/
def Disk.copyFile (d : Disk) (src dst : Str) : Res Disk :=
  match d.files src with
  | none => .throws
  | some t => if dst = [] ∨ d.allows dst = false then .throws else .ok (d.set dst t)

/-- `path::operator/`. -/
def join (a b : Str) : Str :=
  if b.head? = some '/' then b
  else if a = [] ∨ a.getLast? = some '/' then a ++ b
  else a ++ '/' :: b

/-- `path::filename`: what follows the last `/`. -/
def fileName (p : Str) : Str := (p.reverse.takeWhile (· ≠ '/')).reverse

/-- `Logger` with its files, logger.hpp:92-100: the flags, the list and the text sent to the stream in `log`, then `is_ini_save_enabled_`, `directory_path_` and the path the
stream is open on. -/
structure FileLogger where
  log : Logger
  saves : Bool
  dir : Str
  stream : Option Str

/-- `is_directory_created_`, logger.cpp:14: nothing in the program assigns it. -/
def isDirectoryCreated : Bool := false

/-- `CreateDirectory`, logger.cpp:86-93. -/
def createDirectory (d : Disk) (data time : Str) : Res (Disk × Str) :=
  let dir := join data ("logs_".toList ++ time)
  (d.createDirectories dir).bind fun d => .ok (d, dir)

/-- `CopyFileToLogDirectory`, logger.cpp:95-107. -/
def FileLogger.copy (l : FileLogger) (d : Disk) (src : Str) : Res Disk :=
  if l.saves = false then .ok d
  else
    let target := join l.dir (fileName src)
    if d.has target = true then .ok d else d.copyFile src target

/-- The directory of a new enabled logger, logger.cpp:34-38. -/
def chooseDirectory (d : Disk) (data time : Str) (saves : Bool) : Res (Disk × Str) :=
  if saves = true ∨ isDirectoryCreated = false then createDirectory d data time else .ok (d, data)

/-- Opening the CSV file, logger.cpp:41-46: a stream that does not open is only reported on the screen. -/
def openCsv (d : Disk) (p : Str) : Disk × Option Str :=
  match d.openOut p with
  | some d => (d, some p)
  | none => (d, none)

/-- The constructor, logger.cpp:18-50. A member path that is not set is empty. -/
def FileLogger.new (d : Disk) (time name data ini : Str) (saves enabled : Bool) : Res (Disk × FileLogger) :=
  if enabled = false then .ok (d, ⟨⟨false, [], []⟩, saves, [], none⟩)
  else
    (chooseDirectory d data time saves).bind fun r =>
      let o := openCsv r.1 (join r.2 (time ++ "_".toList ++ name))
      let l : FileLogger := ⟨⟨true, [], []⟩, saves, r.2, o.2⟩
      (l.copy o.1 ini).bind fun d => .ok (d, l)

/-- Text written to a stream whose position is `pos`. -/
def overlay (content : Str) (pos : ℕ) (s : Str) : Str :=
  content.take pos ++ List.replicate (pos - content.length) (Char.ofNat 0) ++ s ++ content.drop (pos + s.length)

/-- `Write`, `WriteHeaders`, … turn the logger's `log` into `log'`; what was added goes to the stream when one is open (`csv_file_ << …` on a stream that is not open does nothing).
A file that someone has removed in the meantime is outside the model. -/
def FileLogger.put (l : FileLogger) (d : Disk) (log' : Logger) : Disk × FileLogger :=
  (match l.stream with
    | none => d
    | some p => d.set p (overlay ((d.files p).getD []) l.log.file.length (log'.file.drop l.log.file.length)), { l with log := log' })

/-- What is done with a logger after it was made. -/
inductive Op where
  /-- `WriteHeaders(add_newline)` -/
  | headers (newline : Bool)
  /-- `WriteValues(add_newline)` -/
  | values (newline : Bool)
  /-- `AddLogList` -/
  | add (x : Loggable)
  /-- `ClearLogList` -/
  | clear
  /-- `Enable` -/
  | enable (b : Bool)
  /-- the objects in the list have new values -/
  | shows (xs : List Loggable)
  /-- `CopyFileToLogDirectory` -/
  | copy (src : Str)

/-- One operation, logger.cpp:58-107, logger.hpp:72. -/
def FileLogger.act (l : FileLogger) (d : Disk) : Op → Res (Disk × FileLogger)
  | .headers nl => .ok (l.put d (l.log.writeHeaders nl))
  | .values nl => .ok (l.put d (l.log.writeValues nl))
  | .add x => .ok (d, { l with log := l.log.addLogList x })
  | .clear => .ok (d, { l with log := l.log.clearLogList })
  | .enable b => .ok (d, { l with log := l.log.enable b })
  | .shows xs => .ok (d, { l with log := { l.log with logList := xs } })
  | .copy src => (l.copy d src).bind fun d => .ok (d, l)

/-- A sequence of operations on one logger. -/
def FileLogger.acts (l : FileLogger) (d : Disk) : List Op → Res (Disk × FileLogger)
  | [] => .ok (d, l)
  | o :: os => (l.act d o).bind fun r => r.2.acts r.1 os

/-- The loggers of a program, in the order they were made, and the disk. -/
structure World where
  disk : Disk
  loggers : List FileLogger

/-- What a program does: makes a logger (file name, directory, settings file, flags) at a time of the clock, or uses the one with a number. -/
inductive Event where
  | make (time name data ini : Str) (saves enabled : Bool)
  | use (i : ℕ) (o : Op)

/-- One event; using a logger that does not exist does nothing. -/
def World.step (w : World) : Event → Res World
  | .make time name data ini saves enabled => (FileLogger.new w.disk time name data ini saves enabled).bind fun r => .ok ⟨r.1, w.loggers ++ [r.2]⟩
  | .use i o =>
    match w.loggers[i]? with
    | none => .ok w
    | some l => (l.act w.disk o).bind fun r => .ok ⟨r.1, w.loggers.set i r.2⟩

/-- A program run. -/
def World.run (w : World) : List Event → Res World
  | [] => .ok w
  | e :: es => (w.step e).bind fun w => w.run es

/-- `InitLog`, initialize_log.cpp:12-21: what the logger is made with. -/
def initLog (rd : Reader) (file : File) (base time : Str) : Event :=
  let ini := file "SIMULATION_SETTINGS".toList
  .make time "default.csv".toList (readString rd.paths ini "log_file_save_directory".toList) base (readEnable rd.paths ini "save_initialize_files".toList) true

/-- `InitMonteCarloLog`, initialize_log.cpp:23-32. -/
def initMonteCarloLog (rd : Reader) (file : File) (base time : Str) (enable : Bool) : Event :=
  let ini := file "SIMULATION_SETTINGS".toList
  .make time "monte_carlo.csv".toList (readString rd.paths ini "log_file_save_directory".toList) base (readEnable rd.paths ini "save_initialize_files".toList) enable

/-- The logger of a simulation case, simulation_case.cpp:14-16, 22-36 (`none`: the constructor without a Monte Carlo executor). -/
def caseLog (rd : Reader) (file : File) (base time : Str) : Option (Executor × Str) → Event
  | none => initLog rd file base time
  | some (e, logPath) =>
    if e.enabled = false then initLog rd file base time
    else
      .make time ("default".toList ++ dec e.done ++ ".csv".toList) logPath base
        (readEnable rd.paths (file "SIMULATION_SETTINGS".toList) "save_initialize_files".toList) e.getSaveLog

end S2E.LogFiles
