import Verif.Model.Interpolation
import Mathlib.Algebra.Order.Floor.Semiring

/-!
# `src/environment/global/gnss_satellites.{hpp,cpp}` and the accessors of `src/math_physics/gnss/sp3_file_reader.cpp`

Times (`EpochTime`, `DateTime`) are seconds in an ordered field `K`: only their order and differences are used (`GetTimeWithFraction_s`,
`operator<`, `operator>`). The parsing of SP3 files is not part of this model: a file is the data read from it.
-/
namespace S2E.GnssSat
open S2E.Interp

/-- `Sp3PositionClock`, sp3_file_reader.hpp:96-106 (only the two members used here). -/
structure PositionClock (K : Type) where
  positionKm : Fin 3 → K
  clockUs : K

/-- A read `Sp3FileReader`: `header_.start_epoch_`, `header_.number_of_epoch_`, `header_.number_of_satellites_`,
`header_.epoch_interval_s_`, `epoch_`, `position_clock_` (satellite, then epoch). -/
structure Sp3 (K : Type) where
  start : K
  numberOfEpoch : ℕ
  numberOfSatellites : ℕ
  interval : K
  epochs : List K
  positionClock : List (List (PositionClock K))

variable {K : Type} [Field K] [LinearOrder K]

/-- Default `Sp3PositionClock`: `SP3_BAD_POSITION_VALUE`, `SP3_BAD_CLOCK_VALUE`, sp3_file_reader.hpp:22-23. -/
def badPositionClock : PositionClock K := ⟨fun _ => 0, 999999999999 / 1000000⟩

/-- `GetEpochData`, sp3_file_reader.cpp:17-23: `DateTime zero` for identifiers above the size (`zeroTime` stands for its conversion),
out of range for the size itself. -/
def getEpochData (zeroTime : K) (f : Sp3 K) (id : ℕ) : Res K :=
  if id > f.epochs.length then .ok zeroTime
  else match f.epochs[id]? with
    | some t => .ok t
    | none => .ub

/-- `GetPositionClock`, sp3_file_reader.cpp:25-35. -/
def getPositionClock (f : Sp3 K) (epoch sat : ℕ) : Res (PositionClock K) :=
  if epoch ≥ f.epochs.length then .ok badPositionClock
  else if sat ≥ f.positionClock.length then .ok badPositionClock
  else match (f.positionClock.getD sat [])[epoch]? with
    | some p => .ok p
    | none => .ub

/-- `SearchNearestEpochId`, sp3_file_reader.cpp:136-156. `(size_t)(diff_s / interval_s + 0.5)` is truncation of a non-negative number;
the interval is positive in every use below (a division by zero is not modelled). -/
def searchNearestEpochId [FloorSemiring K] (f : Sp3 K) (time : K) : Res ℕ :=
  match f.epochs[0]? with
  | none => .ub
  | some first =>
    if first > time then .ok 0
    else match f.epochs[f.numberOfEpoch - 1]? with
      | none => .ub
      | some last => if last < time then .ok (f.numberOfEpoch - 1) else .ok ⌊(time - first) / f.interval + 1 / 2⌋₊

/-- The data of a `GnssSatellites` object, gnss_satellites.hpp:116-126. `number_of_calculated_gnss_satellites_` is not initialised by the
constructor: `none`. -/
structure State (K : Type) where
  files : List (Sp3 K)
  number : Option ℕ
  fileId : ℕ
  referenceTime : K
  referenceId : ℕ
  current : K
  orbit : List (Orbit K)
  clock : List (Interpolation K)

/-- `kNumberOfInterpolation`, gnss_satellites.cpp:22. -/
def kNumberOfInterpolation : ℕ := 9

/-- `GetCurrentSp3File`, gnss_satellites.cpp:114-128: the index of the file found, if any. -/
def getCurrentSp3File (files : List (Sp3 K)) (i : ℕ) (time : K) : Option ℕ :=
  match files with
  | [] => none
  | f :: rest =>
    if time - f.start < 0 then none
    else if time - f.start < 24 * 60 * 60 then some i
    else getCurrentSp3File rest (i + 1) time

/-- The loop over the satellites in `UpdateInterpolationInformation`, gnss_satellites.cpp:133-140, for satellites `sat, sat + 1, ...`
whose interpolation objects are given; returns the objects afterwards. -/
def updateSatellites (zeroTime : K) (f : Sp3 K) (referenceTime : K) (id : ℕ) :
    ℕ → List (Orbit K × Interpolation K) → Res (List (Orbit K × Interpolation K))
  | _, [] => .ok []
  | sat, (o, c) :: rest => do
    let t ← getEpochData zeroTime f id
    let pc ← getPositionClock f id sat
    let o' ← pushAndPopOrbit o (t - referenceTime) fun i => 1000 * pc.positionKm i
    let c' ← pushAndPop c (t - referenceTime) pc.clockUs
    let rest' ← updateSatellites zeroTime f referenceTime id (sat + 1) rest
    .ok ((o'.2, c'.2) :: rest')

/-- `UpdateInterpolationInformation`, gnss_satellites.cpp:130-154: the returned flag and the object afterwards. -/
def updateInterpolation (zeroTime : K) (s : State K) : Res (Bool × State K) :=
  match s.files[s.fileId]? with
  | none => .ub
  | some f => do
    let l ← updateSatellites zeroTime f s.referenceTime s.referenceId 0 (s.orbit.zip s.clock)
    let s := { s with orbit := l.map Prod.fst, clock := l.map Prod.snd, referenceId := s.referenceId + 1 }
    if s.referenceId ≥ f.numberOfEpoch then
      let s := { s with referenceId := 0, fileId := s.fileId + 1 }
      .ok (decide (s.fileId < s.files.length), s)
    else .ok (true, s)

/-- `k` calls of `UpdateInterpolationInformation`, results ignored (loop at gnss_satellites.cpp:53-55). -/
def updateTimes (zeroTime : K) : ℕ → State K → Res (State K)
  | 0, s => .ok s
  | k + 1, s => do
    let r ← updateInterpolation zeroTime s
    updateTimes zeroTime k r.2

/-- A constructed object, gnss_satellites.hpp:39-46 and the member initialisers 116-126. -/
def newState (zeroTime : K) : State K := ⟨[], none, 0, zeroTime, 0, zeroTime, [], []⟩

/-- `Initialize`, gnss_satellites.cpp:24-58. `sp3_files_[0]` of an empty list is undefined. -/
def initialise [FloorSemiring K] (zeroTime : K) (files : List (Sp3 K)) (startTime : K) : Res (State K) :=
  match files with
  | [] => .ub
  | _ :: _ =>
    let s := { newState zeroTime with files := files, current := startTime }
    match getCurrentSp3File files 0 startTime with
    | none => .ok s
    | some i =>
      match files[i]? with
      | none => .ub
      | some f => do
        let near ← searchNearestEpochId f startTime
        let refId := if near ≥ kNumberOfInterpolation / 2 then near - kNumberOfInterpolation / 2 else 0
        let ref ← getEpochData zeroTime f refId
        updateTimes zeroTime kNumberOfInterpolation
          { s with
            fileId := i
            number := some f.numberOfSatellites
            referenceId := refId
            referenceTime := ref
            orbit := List.replicate f.numberOfSatellites (newOrbit kNumberOfInterpolation)
            clock := List.replicate f.numberOfSatellites
              (new (List.replicate kNumberOfInterpolation (-1)) (List.replicate kNumberOfInterpolation (-1))) }

/-- `Update`, gnss_satellites.cpp:60-77, with calculation enabled, at the given current time. -/
def update (zeroTime : K) (s : State K) (now : K) : Res (State K) :=
  let s := { s with current := now }
  match s.orbit[0]? with
  | none => .ub
  | some o =>
    match (timeList o)[4]? with
    | none => .ub
    | some medium =>
      if now - s.referenceTime > medium then do
        let r ← updateInterpolation zeroTime s
        .ok r.2
      else .ok s

/-- The time argument handling and range checks shared by `GetPosition_ecef_m` and `GetClock_s`, gnss_satellites.cpp:80-91 and 98-109:
`none` for the early return of zero. `time = none` is the default argument (an epoch whose seconds are 0). -/
def queryTime (s : State K) (time : Option K) : Option K :=
  let diff := time.getD s.current - s.referenceTime
  if diff < 0 ∨ diff > 1000000 then none else some diff

/-- `GetPosition_ecef_m`, gnss_satellites.cpp:79-95. Reading the uninitialised number of satellites is undefined. -/
noncomputable def getPosition (s : State ℝ) (sat : ℕ) (time : Option ℝ) : Res (Fin 3 → Option ℝ) :=
  match s.number with
  | none => .ub
  | some n =>
    if sat > n then .ok fun _ => some 0
    else match queryTime s time with
      | none => .ok fun _ => some 0
      | some diff =>
        match s.orbit[sat]? with
        | none => .ub
        | some o => positionTrigonometric o diff (2 * Real.pi / (24 * 60 * 60 * 1.003))

/-- `GetClock_s`, gnss_satellites.cpp:97-112. -/
def getClock (s : State K) (sat : ℕ) (time : Option K) : Res (Option K) :=
  match s.number with
  | none => .ub
  | some n =>
    if sat > n then .ok (some 0)
    else match queryTime s time with
      | none => .ok (some 0)
      | some diff =>
        match s.clock[sat]? with
        | none => .ub
        | some c => do
          let r ← calcPolynomial c diff
          .ok (r.map (· * (1 / 1000000)))

/-- `GetLogValue`, gnss_satellites.cpp:168-177: the values written, one position and clock per GPS satellite index below
`kNumberOfGpsSatellite` (32). -/
noncomputable def logValues (s : State ℝ) : ℕ → Res (List ((Fin 3 → Option ℝ) × Option ℝ))
  | 0 => .ok []
  | k + 1 => do
    let l ← logValues s k
    let p ← getPosition s k none
    let c ← getClock s k none
    .ok (l ++ [(p, c)])

end S2E.GnssSat
