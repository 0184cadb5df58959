import Verif.Model.GravityPotential
/-!
# `src/disturbances/geopotential.{cpp,hpp}`, `src/disturbances/lunar_gravity_field.{cpp,hpp}`

Doubles are real numbers. The log strings, the debug code under `DEBUG_GEOPOTENTIAL` and the reading of the settings file are left out. A coefficient file
is the list of its lines after the conversions of the text: `some (n, m, c, s)`, or `none` for a line that does not hold four numbers; an unreadable file
is `none`. For the lunar file it is supposed that it ends with a newline.
-/
namespace S2E.GravityModel

/-- A line of a coefficient file. -/
abbrev Line := Option (ℤ × ℤ × ℝ × ℝ)

/-- `c_[n][m] = x` with `int` indices (a negative one becomes a huge `size_t`). -/
def Coefs.put (c : Coefs) (n m : ℤ) (x : ℝ) : Res Coefs :=
  if n < 0 ∨ m < 0 then .ub
  else
    match c[n.toNat]? with
    | none => .ub
    | some row => if m.toNat < row.length then .ok (c.set n.toNat (row.set m.toNat x)) else .ub

/-- The loops of `ReadCoefficientsEgm96`, geopotential.cpp:59-69, and `ReadCoefficientsGrgm1200a`, lunar_gravity_field.cpp:71-87, with `k` passes to go.
`bad` is what happens at a line without four numbers or after the end of the file: in the first function the variables stay uninitialised (`ub`), in the
second `std::stoi`/`std::stod` throw. -/
def readLines (bad : Res (Coefs × Coefs)) : ℕ → List Line → Coefs → Coefs → Res (Coefs × Coefs)
  | 0, _, c, s => .ok (c, s)
  | _ + 1, [], _, _ => bad
  | _ + 1, none :: _, _, _ => bad
  | k + 1, some (n, m, x, y) :: rest, c, s => (c.put n m x).bind fun c => (s.put n m y).bind fun s => readLines bad k rest c s

/-- `c_.assign(degree_ + 1, std::vector<double>(degree_ + 1, 0.0))`, geopotential.cpp:36, lunar_gravity_field.cpp:39. -/
def zeroCoefs (d : ℕ) : Coefs := List.replicate (d + 1) (List.replicate (d + 1) 0)

/-- Conversion of `int` to `size_t`. -/
def toSize (degree : ℤ) : ℕ := (degree % 2 ^ 64).toNat

/-- The member `degree_` after the checks, geopotential.cpp:28-34, lunar_gravity_field.cpp:31-37. -/
def limitedDegree (limit : ℕ) (degree : ℤ) : ℕ := if toSize degree > limit then limit else if toSize degree ≤ 1 then 0 else toSize degree

/-- `earth_gravitational_constant_m3_s2` and `earth_equatorial_radius_m`, physical_constants.hpp:33-35, the default arguments in gravity_potential.hpp:36-37. -/
noncomputable def earthMu : ℝ := 3.986004415e14
@[inherit_doc earthMu] noncomputable def earthRadius : ℝ := 6378136.6

/-- The constructor of `Geopotential`, geopotential.cpp:22-49; the object is what it holds in `geopotential_`, made with the argument `degree`, not with the
limited member `degree_`. -/
noncomputable def geopotentialNew (degree : ℤ) (file : Option (List Line)) : Res Potential :=
  let d := limitedDegree 360 degree
  let z := zeroCoefs d
  if d ≥ 2 then
    match file with
    | none => .ok (Potential.new (toSize degree) z z earthMu earthRadius)
    | some lines => (readLines .ub ((d + 1) * (d + 2) / 2 - 3) lines z z).bind fun t => .ok (Potential.new (toSize degree) t.1 t.2 earthMu earthRadius)
  else .ok (Potential.new (toSize degree) z z earthMu earthRadius)

/-- `Geopotential::Update`, geopotential.cpp:73-91: acceleration in the Earth-fixed and in the inertial frame; `dcm` is `GetDcmJ2000ToEcef()`. -/
noncomputable def geopotentialUpdate (g : Potential) (dcm : Mat 3 3) (positionEcef : Vec 3) : Res (Vec 3 × Vec 3) :=
  (g.calcAcceleration positionEcef).bind fun a => .ok (a, matVec (matTranspose dcm) a)

/-- The constructor of `LunarGravityField`, lunar_gravity_field.cpp:22-52. A readable file gives the reference radius [km], the gravity constant [km3/s2] and
the coefficient lines. Without one the members `reference_radius_km_` and `gravity_constants_km3_s2_` are read uninitialised in line 51. -/
noncomputable def lunarNew (degree : ℤ) (file : Option (ℝ × ℝ × List Line)) : Res Potential :=
  let d := limitedDegree 1200 degree
  let z := zeroCoefs d
  if d ≥ 2 then
    match file with
    | none => .ub
    | some (radius, mu, lines) =>
      (readLines .throws ((d + 1) * (d + 2) / 2 - 1) lines z z).bind fun t => .ok (Potential.new (toSize degree) t.1 t.2 (mu * 1e9) (radius * 1e3))
  else .ub

/-- `LunarGravityField::Update` after the Moon rotation has been read, lunar_gravity_field.cpp:95-114: acceleration in the Moon-fixed and in the inertial
frame; `dcm` is `GetDcmJ2000ToMcmf()`, `position` the inertial position from the centre body. -/
noncomputable def lunarFrom (g : Potential) (dcm : Mat 3 3) (position : Vec 3) : Res (Vec 3 × Vec 3) :=
  (g.calcAcceleration (matVec dcm position)).bind fun a => .ok (a, matVec (matTranspose dcm) a)

/-- The pointers of `CelestialInformation` to the rotation objects, celestial_information.hpp:253-254, by the rotation matrices these hold; `none` is a
pointer without a value. The tables of the class are in `Verif.Model.Celestial`. -/
structure Rotations where
  earth : Option (Mat 3 3)
  moon : Option (Mat 3 3)

/-- The copy constructor of `CelestialInformation`, celestial_information.cpp:73-96: it gives no value to the two pointers. -/
def Rotations.copy (_ : Rotations) : Rotations := ⟨none, none⟩

/-- `LunarGravityField::Update`, lunar_gravity_field.cpp:91-114. Line 92 copies the environment's `CelestialInformation` (the variable is no reference), line 93
dereferences the pointer to the Moon rotation in the copy. (At the end of the function the destructor of the copy, celestial_information.cpp:98-106, deletes the
pointer to the Earth rotation too.) -/
noncomputable def lunarUpdate (g : Potential) (environment : Rotations) (position : Vec 3) : Res (Vec 3 × Vec 3) :=
  match environment.copy.moon with
  | none => .ub
  | some dcm => (lunarFrom g dcm position).bind fun r => match environment.copy.earth with
    | none => .ub
    | some _ => .ok r

end S2E.GravityModel
