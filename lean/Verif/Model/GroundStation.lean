import Verif.Model.Geodetic
/-!
# `src/simulation/ground_station/ground_station.{cpp,hpp}`

Doubles are real numbers. The log strings and the reading of the settings file are left out. The visibility flags `std::map<int, bool>` are a function
to `Option Bool`.
-/
namespace S2E.Ground
open S2E.Geodetic

/-- Members of `GroundStation`, ground_station.hpp:96-103. -/
structure Station where
  geodetic : GeodeticPosition
  positionEcef : Vec 3
  positionI : Vec 3
  limitDeg : ℝ
  visible : ℕ → Option Bool

/-- `deg_to_rad`, constants.hpp:39. -/
noncomputable def degToRad : ℝ := Real.pi / 180

/-- Constructor with `Initialize`, ground_station.cpp:18-46, for the values in the settings file and the number of simulated spacecraft. -/
noncomputable def Station.new (latDeg lonDeg height limitDeg : ℝ) (number : ℕ) : Res Station :=
  let g := GeodeticPosition.new (latDeg * degToRad) (lonDeg * degToRad) height
  g.calcEcefPosition.bind fun p =>
    .ok { geodetic := g, positionEcef := p, positionI := fun _ => 0, limitDeg := limitDeg, visible := fun i => if i < number then some false else none }

open Classical in
/-- `CalcIsVisible`, ground_station.cpp:57-72. -/
noncomputable def Station.calcIsVisible (s : Station) (p : Vec 3) : Bool :=
  let d := calcNormalizedVector (s.geodetic.quaternionXcxfToLtc.frameConversion (vsub p s.positionEcef))
  if innerProduct d ![0, 0, 1] > Real.sin (s.limitDeg * degToRad) then true else false

/-- `Update`, ground_station.cpp:50-55: `dcm` is `GetDcmJ2000ToEcef()`, `id` and `p` the spacecraft's number and Earth-fixed position. -/
noncomputable def Station.update (s : Station) (dcm : Mat 3 3) (id : ℕ) (p : Vec 3) : Station :=
  { s with
    positionI := matVec (matTranspose dcm) s.positionEcef
    visible := fun i => if i = id then some (s.calcIsVisible p) else s.visible i }

/-- `IsVisible`, ground_station.hpp:93. -/
def Station.isVisible (s : Station) (id : ℕ) : Res Bool :=
  match s.visible id with
  | some b => .ok b
  | none => .throws

/-- A history of updates. -/
noncomputable def Station.run (s : Station) : List (Mat 3 3 × ℕ × Vec 3) → Station
  | [] => s
  | u :: rest => (s.update u.1 u.2.1 u.2.2).run rest

end S2E.Ground
