import Verif.Model.Interpolation
/-!
# `src/dynamics/orbit/time_series_file_orbit_propagation.cpp`

Doubles are real numbers. The file contents are a list of rows with seven numbers (time, position, velocity); how the file is read is
`IniAccess::ReadCsvDoubleWithHeader`. The two flags that suppress repeated console messages are left out, and so are the calls of
`TransformEciToEcef` and `TransformEcefToGeodetic` at the end of `Propagate` (C95, C98). `number_of_interpolation` is not negative.
-/
namespace S2E.TimeSeries
open Interp

/-- One row of `time_series_data_`: column 0, columns 1 to 3, columns 4 to 6. -/
structure Row where
  time : ℝ
  position : Fin 3 → ℝ
  velocity : Fin 3 → ℝ

/-- The settings, time_series_file_orbit_propagation.hpp:61-70. -/
structure Config where
  /-- `time_series_data_` -/
  rows : List Row
  /-- `number_of_interpolation_` -/
  number : ℕ
  /-- `interpolation_method_` -/
  method : ℤ
  /-- `orbital_period_correction_s_` -/
  period : ℝ

/-- The mutable members, time_series_file_orbit_propagation.hpp:61-70 and orbit.hpp. -/
structure State where
  /-- `reference_interpolation_id_` -/
  id : ℕ
  /-- `reference_time_` -/
  ref : ℝ
  /-- `orbit_position_i_m_[0]` -/
  positions : Orbit ℝ
  /-- `orbit_velocity_i_m_s_[0]` -/
  velocities : Orbit ℝ
  /-- `spacecraft_position_i_m_` (`none`: not a finite number) -/
  position : Fin 3 → Option ℝ
  /-- `spacecraft_velocity_i_m_s_` -/
  velocity : Fin 3 → Option ℝ
  /-- `is_calc_enabled_` -/
  enabled : Bool

/-- The conversion to ephemeris seconds, time_series_file_orbit_propagation.cpp:66, 91. -/
noncomputable def ephemerisTime (jd : ℝ) : ℝ := (jd - 2451545) * 86400

/-- The loop of `SearchNearestEphemerisTimeId`, time_series_file_orbit_propagation.cpp:69-74, from index `i` on. -/
noncomputable def searchLoop (start : ℝ) : List Row → ℕ → ℕ
  | [], _ => 0
  | r :: l, i => if start < r.time then i else searchLoop start l (i + 1)

/-- `SearchNearestEphemerisTimeId`, time_series_file_orbit_propagation.cpp:62-76. -/
noncomputable def searchNearest (c : Config) (jd : ℝ) : ℕ := searchLoop (ephemerisTime jd) c.rows 0

/-- `CalcEphemerisTimeData`, time_series_file_orbit_propagation.cpp:78-83: the comparison lets the index `size()` through. -/
def ephemerisTimeData (c : Config) (id : ℕ) : Res ℝ :=
  if id > c.rows.length then .ok 0
  else match c.rows[id]? with
    | some r => .ok r.time
    | none => .ub

/-- A row that must exist. -/
def row (c : Config) (i : ℕ) : Res Row :=
  match c.rows[i]? with
  | some r => .ok r
  | none => .ub

/-- `UpdateInterpolationInformation`, time_series_file_orbit_propagation.cpp:136-157. -/
noncomputable def updateInformation (c : Config) (s : State) : Res State := do
  let t ← ephemerisTimeData c s.id
  let diff := t - s.ref
  let r ← if s.id ≥ c.rows.length then row c (c.rows.length - 1) else row c s.id
  let p ← pushAndPopOrbit s.positions diff r.position
  let v ← pushAndPopOrbit s.velocities diff r.velocity
  .ok { s with
        position := fun i => some (r.position i)
        velocity := fun i => some (r.velocity i)
        positions := p.2
        velocities := v.2
        id := s.id + 1 }

/-- The chosen interpolation, time_series_file_orbit_propagation.cpp:116-130. -/
noncomputable def interpolate (c : Config) (o : Orbit ℝ) (diff : ℝ) : Res (Fin 3 → Option ℝ) :=
  if c.method = 0 then positionPolynomial o diff
  else if c.method = 1 then positionTrigonometric o diff (2 * Real.pi / c.period)
  else positionPolynomial o diff

/-- Second half of `Propagate`, time_series_file_orbit_propagation.cpp:97-131. -/
noncomputable def report (c : Config) (diff : ℝ) (s : State) : Res State :=
  if diff < 0 then do
    let r ← row c 0
    .ok { s with position := fun i => some (r.position i), velocity := fun i => some (r.velocity i) }
  else if diff > 1000000 ∨ s.id ≥ c.rows.length then do
    let r ← row c (c.rows.length - 1)
    .ok { s with position := fun i => some (r.position i), velocity := fun i => some (r.velocity i) }
  else do
    let p ← interpolate c s.positions diff
    let v ← interpolate c s.velocities diff
    .ok { s with position := p, velocity := v }

/-- `Propagate`, time_series_file_orbit_propagation.cpp:85-134. `std::round(n / 2.0)` is `(n + 1) / 2`. -/
noncomputable def propagate (c : Config) (s : State) (jd : ℝ) : Res State :=
  if s.enabled = false then .ok s
  else
    let diff := ephemerisTime jd - s.ref
    match (timeList s.positions)[(c.number + 1) / 2]? with
    | none => .ub
    | some medium => if diff > medium then (updateInformation c s).bind (report c diff) else report c diff s

/-- `k` calls of `UpdateInterpolationInformation`, time_series_file_orbit_propagation.cpp:51-53. -/
noncomputable def updateTimes (c : Config) : ℕ → State → Res State
  | 0, s => .ok s
  | k + 1, s => do
    let s ← updateInformation c s
    updateTimes c k s

/-- Constructor, time_series_file_orbit_propagation.cpp:19-60. -/
noncomputable def construct (c : Config) (jd : ℝ) : Res State := do
  let nearest := searchNearest c jd
  let half := c.number / 2
  let id := if nearest ≥ half then nearest - half else 0
  let ref ← ephemerisTimeData c id
  let s ← updateTimes c c.number
    { id := id, ref := ref, positions := newOrbit c.number, velocities := newOrbit c.number,
      position := fun _ => some 0, velocity := fun _ => some 0, enabled := true }
  let s ← propagate c s jd
  .ok { s with enabled := false }

end S2E.TimeSeries
