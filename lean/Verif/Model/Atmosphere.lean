import Verif.Model.Geodetic
import Mathlib.Analysis.SpecialFunctions.Log.Basic
import Mathlib.Analysis.SpecialFunctions.Pow.Real
/-!
# `src/math_physics/atmosphere/simple_air_density_model.cpp`, `harris_priester_model.cpp`, `src/environment/local/atmosphere.cpp`

Doubles are real numbers, so under- and overflow of `exp` are not modelled.
-/
namespace S2E.Atmosphere
open S2E.Geodetic

/-- `base_rho_kg_m3 * exp(-(altitude_km - base_height_km) / scale_height_km)`, simple_air_density_model.cpp:136. -/
noncomputable def layer (rho base scale h : ℝ) : ℝ := rho * Real.exp (-(h - base) / scale)

/-- The branches of `CalcAirDensityWithSimpleModel` by altitude in km, simple_air_density_model.cpp:18-137. -/
noncomputable def simpleKm (h : ℝ) : ℝ :=
  if h > 1000 then layer 3.019e-15 1000 268.0 h
  else if h ≥ 900 ∧ h < 1000 then layer 5.245e-15 900 181.05 h
  else if h ≥ 800 ∧ h < 900 then layer 1.170e-14 800 124.64 h
  else if h ≥ 700 ∧ h < 800 then layer 3.614e-14 700 88.667 h
  else if h ≥ 600 ∧ h < 700 then layer 1.454e-13 600 71.835 h
  else if h ≥ 500 ∧ h < 600 then layer 6.967e-13 500 63.822 h
  else if h ≥ 450 ∧ h < 500 then layer 1.585e-12 450 60.828 h
  else if h ≥ 400 ∧ h < 450 then layer 3.725e-12 400 58.515 h
  else if h ≥ 350 ∧ h < 400 then layer 9.158e-12 350 53.298 h
  else if h ≥ 300 ∧ h < 350 then layer 2.418e-11 300 53.628 h
  else if h ≥ 250 ∧ h < 300 then layer 7.248e-11 250 45.546 h
  else if h ≥ 200 ∧ h < 250 then layer 2.789e-10 200 37.105 h
  else if h ≥ 180 ∧ h < 200 then layer 5.464e-10 180 29.740 h
  else if h ≥ 150 ∧ h < 180 then layer 2.070e-9 150 22.523 h
  else if h ≥ 140 ∧ h < 150 then layer 3.845e-9 140 16.149 h
  else if h ≥ 130 ∧ h < 140 then layer 8.484e-9 130 12.636 h
  else if h ≥ 120 ∧ h < 130 then layer 2.438e-8 120 9.473 h
  else if h ≥ 110 ∧ h < 120 then layer 9.661e-8 110 7.263 h
  else if h ≥ 100 ∧ h < 110 then layer 5.297e-7 100 5.877 h
  else if h ≥ 90 ∧ h < 100 then layer 3.396e-6 90 5.382 h
  else if h ≥ 80 ∧ h < 90 then layer 1.905e-5 80 5.799 h
  else if h ≥ 70 ∧ h < 80 then layer 8.770e-5 70 6.549 h
  else if h ≥ 60 ∧ h < 70 then layer 3.206e-4 60 7.714 h
  else if h ≥ 50 ∧ h < 60 then layer 1.057e-3 50 8.382 h
  else if h ≥ 40 ∧ h < 50 then layer 3.972e-3 40 7.554 h
  else if h ≥ 30 ∧ h < 40 then layer 1.774e-2 30 6.682 h
  else if h ≥ 25 ∧ h < 30 then layer 3.899e-2 25 6.349 h
  else if h ≥ 0 ∧ h < 25 then layer 1.225 0 7.249 h
  else 0

/-- `CalcAirDensityWithSimpleModel`, simple_air_density_model.cpp:11-138. -/
noncomputable def simpleDensity (altitude : ℝ) : ℝ := simpleKm (altitude / 1000)

/-- `harris_priester_min_density_table`, harris_priester_coefficients.hpp:14-21: height [km], density [g/km3]. A `std::map` is its list of entries in ascending order of keys. -/
noncomputable def minTable : List (ℝ × ℝ) := [
  (100, 497400), (120, 24900), (130, 8377), (140, 3899), (150, 2122), (160, 1263), (170, 800.8), (180, 528.3),
  (190, 361.7), (200, 255.7), (210, 183.9), (220, 134.1), (230, 99.49), (240, 74.88), (250, 57.09), (260, 44.03),
  (270, 34.30), (280, 26.97), (290, 21.39), (300, 17.08), (320, 10.99), (340, 7.214), (360, 4.824), (380, 3.274),
  (400, 2.249), (420, 1.558), (440, 1.091), (460, 0.7701), (480, 0.5474), (500, 0.3916), (520, 0.2819), (540, 0.2042),
  (560, 0.1488), (580, 0.1092), (600, 0.08070), (620, 0.06012), (640, 0.04519), (660, 0.03430), (680, 0.02632), (700, 0.02043),
  (720, 0.01607), (740, 0.01281), (760, 0.01036), (780, 0.008496), (800, 0.007069), (840, 0.004680), (880, 0.003200), (920, 0.002210),
  (960, 0.001560), (1000, 0.001150)]

/-- `harris_priester_max_density_table`, harris_priester_coefficients.hpp:23-30. -/
noncomputable def maxTable : List (ℝ × ℝ) := [
  (100, 497400), (120, 24900), (130, 8710), (140, 4059), (150, 2215), (160, 1344), (170, 875.8), (180, 601),
  (190, 429.7), (200, 316.2), (210, 239.6), (220, 185.3), (230, 145.5), (240, 115.7), (250, 93.08), (260, 75.55),
  (270, 61.82), (280, 50.95), (290, 42.26), (300, 35.26), (320, 25.11), (340, 18.19), (360, 13.37), (380, 9.955),
  (400, 7.492), (420, 5.684), (440, 4.355), (460, 3.362), (480, 2.612), (500, 2.042), (520, 1.605), (540, 1.267),
  (560, 1.005), (580, 0.7997), (600, 0.6390), (620, 0.5123), (640, 0.4121), (660, 0.3325), (680, 0.2691), (700, 0.2185),
  (720, 0.1779), (740, 0.1452), (760, 0.1190), (780, 0.09776), (800, 0.08059), (840, 0.05741), (880, 0.04210), (920, 0.03130),
  (960, 0.02360), (1000, 0.01810)]

open Classical in
/-- `upper_bound` of a `std::map`: the number of the first entry with a greater key, the size if there is none. -/
noncomputable def upperBound (t : List (ℝ × ℝ)) (h : ℝ) : ℕ := t.findIdx fun e => decide (e.1 > h)

/-- Dereferencing an iterator; undefined at `end()`. -/
def entry (t : List (ℝ × ℝ)) (i : ℕ) : Res (ℝ × ℝ) :=
  match t[i]? with
  | some e => .ok e
  | none => .ub

/-- `CalcScaleHeight_km`, harris_priester_model.cpp:72-80, for the entry and its successor. -/
noncomputable def scaleHeight (e next : ℝ × ℝ) : ℝ := (e.1 - next.1) / Real.log (next.2 / e.2)

/-- `CalcApexDensity_g_km3`, harris_priester_model.cpp:82-89, for the iterator with number `i`. -/
noncomputable def apexDensity (t : List (ℝ × ℝ)) (i : ℕ) (h : ℝ) : Res ℝ :=
  (entry t i).bind fun e => (entry t (i + 1)).bind fun next => .ok (e.2 * Real.exp ((e.1 - h) / scaleHeight e next))

/-- The apex of the diurnal bulge, harris_priester_model.cpp:40-49. -/
noncomputable def apexDirection (sun : Vec 3) : Vec 3 :=
  let ra := atan2 (sun 1) (sun 0)
  let dec := atan2 (sun 2) (Real.sqrt (sun 0 * sun 0 + sun 1 * sun 1))
  let apexRa := ra + 30 * (Real.pi / 180)
  ![Real.cos dec * Real.cos apexRa, Real.cos dec * Real.sin apexRa, Real.sin dec]

/-- `cos_phi`, harris_priester_model.cpp:51-52. -/
noncomputable def cosPhi (position sun : Vec 3) (n : ℝ) : ℝ :=
  (0.5 + innerProduct (calcNormalizedVector position) (apexDirection sun) / 2) ^ (n / 2)

/-- `CalcAirDensityWithHarrisPriester_kg_m3`, harris_priester_model.cpp:31-70; `f10_7` is not used. `prev(begin())` is undefined. -/
noncomputable def harrisPriester (g : GeodeticPosition) (sun : Vec 3) (n : ℝ) : Res ℝ :=
  let h := g.altitude / 1000
  g.calcEcefPosition.bind fun position =>
    let c := cosPhi position sun n
    let i := upperBound minTable h
    let j := upperBound maxTable h
    if i = 0 then (entry minTable i).bind fun e => .ok e.2
    else if i = minTable.length then (entry minTable i).bind fun e => (entry maxTable j).bind fun f => .ok ((e.2 + f.2) / 2)
    else if j = 0 then .ub
    else (apexDensity minTable (i - 1) h).bind fun antapex => (apexDensity maxTable (j - 1) h).bind fun apex =>
      .ok ((antapex + (apex - antapex) * c) * 1e-12)

/-- `CalcAirDensity_kg_m3`'s choice of the model, atmosphere.cpp:19-53. `tableRead`: `GetSpaceWeatherTable_` succeeded. -/
def modelOf (name : String) (manual tableRead : Bool) : String :=
  if name = "STANDARD" then name
  else if name = "NRLMSISE00" then (if !manual then (if tableRead then name else "STANDARD") else name)
  else name

/-- `Atmosphere`, atmosphere.hpp:82-101, as far as it changes. -/
structure Atmo where
  enabled : Bool
  model : String
  density : ℝ
  rate : ℝ

/-- What one calculation reads: the geodetic position, the direction to the Sun, what NRLMSISE-00 gives there (an external library) and the standard normal value drawn. -/
structure Input where
  position : GeodeticPosition
  sun : Vec 3
  nrlmsise : ℝ
  noise : ℝ

/-- The constructor, atmosphere.cpp:19-53, and `SetCalcFlag` of `InitAtmosphere`, atmosphere.cpp:133, and of `LocalEnvironment`, local_environment.cpp:45-49. -/
def Atmo.new (name : String) (manual tableRead : Bool) (rate : ℝ) (calculation : Bool) (center : String) : Atmo :=
  ⟨if center ≠ "EARTH" then false else calculation, modelOf name manual tableRead, 0, rate⟩

/-- Line 61-76 of `CalcAirDensity_kg_m3`: the density of the model; `none` if there is no such model. -/
noncomputable def modelDensity (model : String) (i : Input) : Option (Res ℝ) :=
  if model = "STANDARD" then some (.ok (simpleDensity i.position.altitude))
  else if model = "NRLMSISE00" then some (.ok i.nrlmsise)
  else if model = "HARRIS_PRIESTER" then some (harrisPriester i.position (calcNormalizedVector i.sun) 4)
  else none

/-- `CalcAirDensity_kg_m3`, atmosphere.cpp:55-80, with `AddNoise`, atmosphere.cpp:82-88: the value returned and the new state. The normal value of standard deviation
`rho * rate` is the standard normal one times that. -/
noncomputable def Atmo.calc (a : Atmo) (i : Input) : Res (ℝ × Atmo) :=
  if !a.enabled then .ok (0, a)
  else match modelDensity a.model i with
    | none => .ok (0, { a with density := 0 })
    | some r => r.bind fun rho => .ok (rho + rho * a.rate * i.noise, { a with density := rho })

/-- `LocalEnvironment::Update`, local_environment.cpp:69-74: calculated when the orbit is propagated, the value returned is dropped. -/
noncomputable def Atmo.update (a : Atmo) (orbitFlag : Bool) (i : Input) : Res Atmo :=
  if orbitFlag then (a.calc i).bind fun r => .ok r.2 else .ok a

/-- A history of updates. -/
noncomputable def Atmo.run (a : Atmo) : List (Bool × Input) → Res Atmo
  | [] => .ok a
  | x :: rest => (a.update x.1 x.2).bind fun a => a.run rest

/-- The limit of the manual F10.7 values, atmosphere.cpp:107-108, 114-127. -/
noncomputable def manualF107 (value : ℝ) : ℝ := if value < 50 then 150 else value

end S2E.Atmosphere
