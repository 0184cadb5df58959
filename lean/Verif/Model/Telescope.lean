import Verif.Model.Hipparcos
/-!
# `src/components/real/mission/telescope.{cpp,hpp}`

Doubles are real numbers; `abs` is taken to be the overload for `double`, `assert` to be active (an abort is `throws`). The positions of Sun, Earth and Moon in
the body frame, the attitude, the position of the spacecraft in the Earth-fixed frame and the Earth rotation matrix are inputs. The log strings and the reading of
the settings file are left out.
-/
namespace S2E.Telescope
open Quat S2E.Hip

/-- The parameters, telescope.hpp:76-93. `logged` is the number of logged stars. -/
structure Config where
  b2c : Quat
  sunAngle : ℝ
  earthAngle : ℝ
  moonAngle : ℝ
  nx : ℤ
  ny : ℤ
  px : ℝ
  py : ℝ
  logged : ℕ

/-- `Star`, telescope.hpp:25-28. -/
structure Seen where
  data : Hip.Star
  pos : Vec 2

/-- The entry for no star, telescope.cpp:48-54, 147-153. -/
def blank : Seen := ⟨⟨-1, -1, -1, -1⟩, ![-1, -1]⟩

/-- `Telescope`, telescope.hpp:76-112. -/
structure Telescope where
  config : Config
  fx : ℝ
  fy : ℝ
  groundX : ℝ
  groundY : ℝ
  sunForbidden : Bool
  earthForbidden : Bool
  moonForbidden : Bool
  sunPos : Vec 2
  earthPos : Vec 2
  moonPos : Vec 2
  ground : Vec 3
  stars : List Seen

/-- `earth_equatorial_radius_m`, physical_constants.hpp:35. -/
noncomputable def earthRadius : ℝ := 6378136.6

/-- The initial ground position, telescope.cpp:59-63. Without an orbit the value is never read. -/
noncomputable def groundOf : Option (Vec 3 × ℝ) → Vec 3
  | none => 0
  | some (r, alt) => vdiv (scale earthRadius r) (alt + earthRadius)

/-- The constructor, telescope.cpp:15-64. `orbit = some (position, altitude)` with the Earth-fixed position and the geodetic altitude, if an orbit is given. -/
noncomputable def Telescope.new (c : Config) (orbit : Option (Vec 3 × ℝ)) : Res Telescope :=
  if c.nx * c.px < Real.pi / 2 ∧ c.ny * c.py < Real.pi / 2 then
    .ok { config := c, fx := c.nx * c.px, fy := c.ny * c.py, groundX := 0, groundY := 0,
          sunForbidden := true, earthForbidden := true, moonForbidden := true,
          sunPos := ![-1, -1], earthPos := ![-1, -1], moonPos := ![-1, -1],
          ground := groundOf orbit,
          stars := List.replicate c.logged blank }
  else .throws

/-- `JudgeForbiddenAngle`, telescope.cpp:93-101. -/
noncomputable def judge (b2c : Quat) (target : Vec 3) (limit : ℝ) : Bool :=
  if calcAngleTwoVectors target (b2c.conjugate.frameConversion ![1, 0, 0]) < limit then true else false

/-- `Observe`, telescope.cpp:103-115; `x_number_of_pix_ / 2` is an integer division. -/
noncomputable def Telescope.observe (t : Telescope) (target : Vec 3) : Vec 2 :=
  let c := t.config.b2c.frameConversion target
  let argX := atan2 (c 2) (c 0)
  let argY := atan2 (c 1) (c 0)
  if |argX| < t.fx ∧ |argY| < t.fy then
    ![(t.config.nx.tdiv 2 : ℤ) * Real.tan argX / Real.tan t.fx + (t.config.nx.tdiv 2 : ℤ),
      (t.config.ny.tdiv 2 : ℤ) * Real.tan argY / Real.tan t.fy + (t.config.ny.tdiv 2 : ℤ)]
  else ![-1, -1]

/-- One pass of the loop of `ObserveStars`, telescope.cpp:124-140: the star of rank `count` if it is in the field. -/
noncomputable def Telescope.lookAt (t : Telescope) (i2b : Quat) (l : List Hip.Star) (count : ℕ) : Res (List Seen) :=
  (directionB l count i2b).bind fun b =>
    let c := t.config.b2c.frameConversion b
    let argX := atan2 (c 2) (c 0)
    let argY := atan2 (c 1) (c 0)
    if |argX| ≤ t.fx ∧ |argY| ≤ t.fy then
      (star l count).bind fun s =>
        .ok [⟨s, ![(t.config.nx : ℝ) / 2 * Real.tan argX / Real.tan t.fx + t.config.nx / 2,
          (t.config.ny : ℝ) / 2 * Real.tan argY / Real.tan t.fy + t.config.ny / 2]⟩]
    else .ok []

/-- The loop of `ObserveStars`, telescope.cpp:123-160, with the counter and the list so far. -/
noncomputable def Telescope.starLoop (t : Telescope) (i2b : Quat) (l : List Hip.Star) (count : ℕ) (sofar : List Seen) : Res (List Seen) :=
  if sofar.length < t.config.logged then
    (t.lookAt i2b l count).bind fun new =>
      let sofar := sofar ++ new
      if h : count + 1 ≥ l.length then .ok (sofar ++ List.replicate (t.config.logged - sofar.length) blank)
      else t.starLoop i2b l (count + 1) sofar
  else .ok sofar
termination_by l.length - count

/-- `ObserveStars`, telescope.cpp:117-161. -/
noncomputable def Telescope.observeStars (t : Telescope) (i2b : Quat) (l : List Hip.Star) : Res Telescope :=
  (t.starLoop i2b l 0 []).bind fun s => .ok { t with stars := s }

/-- What `ObserveGroundPositionDeviation` reads from the orbit and the Earth rotation. -/
structure GroundInput where
  position : Vec 3
  j2000ToEcef : Mat 3 3

/-- The direction to the initial ground position in the component frame, telescope.cpp:175-181. -/
noncomputable def Telescope.groundC (t : Telescope) (i2b : Quat) (g : GroundInput) : Vec 3 :=
  let ecef := calcNormalizedVector (vsub t.ground g.position)
  let i := calcNormalizedVector (matVec (matTranspose g.j2000ToEcef) ecef)
  t.config.b2c.frameConversion (i2b.frameConversion i)

/-- `ObserveGroundPositionDeviation`, telescope.cpp:163-188; `none` is a null orbit. -/
noncomputable def Telescope.observeGround (t : Telescope) (i2b : Quat) (g : Option GroundInput) : Telescope :=
  match g with
  | none => t
  | some g =>
    if t.groundX > t.config.nx ∨ t.groundY > t.config.ny then { t with groundX := -1, groundY := -1 }
    else
      let c := t.groundC i2b g
      { t with groundX := atan2 (c 2) (c 0) / t.config.px, groundY := atan2 (c 1) (c 0) / t.config.py }

/-- What one update reads. -/
structure Input where
  sun : Vec 3
  earth : Vec 3
  moon : Vec 3
  i2b : Quat
  catalogueEnabled : Bool
  catalogue : List Hip.Star
  ground : Option GroundInput

/-- `MainRoutine`, telescope.cpp:68-91. -/
noncomputable def Telescope.update (t : Telescope) (i : Input) : Res Telescope :=
  let t := { t with
    sunForbidden := judge t.config.b2c i.sun t.config.sunAngle
    earthForbidden := judge t.config.b2c i.earth t.config.earthAngle
    moonForbidden := judge t.config.b2c i.moon t.config.moonAngle
    sunPos := t.observe i.sun
    earthPos := t.observe i.earth
    moonPos := t.observe i.moon }
  (if i.catalogueEnabled then t.observeStars i.i2b i.catalogue else .ok t).bind fun t => .ok (t.observeGround i.i2b i.ground)

/-- A history of updates. -/
noncomputable def Telescope.run (t : Telescope) : List Input → Res Telescope
  | [] => .ok t
  | i :: rest => (t.update i).bind fun t => t.run rest

end S2E.Telescope
