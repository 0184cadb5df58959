import Verif.Model.Julian
/-!
# `src/environment/global/earth_rotation.cpp`, `moon_rotation.cpp`, `src/math_physics/planet_rotation/moon_rotation_utilities.cpp`

The SPICE function `sxform_c` of the mode IAU_MOON is an arbitrary function of time.
-/
namespace S2E.Rotation
open S2E.Julian

/-- `math::deg_to_rad`, constants.hpp:39. -/
noncomputable def degToRad : ℝ := Real.pi / 180

/-- `math::arcsec_to_rad`, constants.hpp:41. -/
noncomputable def arcsecToRad : ℝ := degToRad / 3600

/-! ## Earth -/

/-- `EarthRotationMode`, earth_rotation.hpp:20-24. -/
inductive EarthMode | idle | simple | full
  deriving DecidableEq

/-- `ConvertEarthRotationMode`, earth_rotation.cpp:265-279. -/
def convertEarthMode (mode : String) : EarthMode :=
  if mode = "IDLE" then .idle else if mode = "SIMPLE" then .simple else if mode = "FULL" then .full else .idle

/-- `c_epsilon_rad_`, earth_rotation.cpp:37-40. -/
noncomputable def cEpsilon : List ℝ := [23.4392911 * degToRad, -46.8150000 * arcsecToRad, -5.9000e-4 * arcsecToRad, 1.8130e-3 * arcsecToRad]

/-- `c_lm_rad_`, lines 44-48. -/
noncomputable def cLm : List ℝ := [134.96340251 * degToRad, 1717915923.21780000 * arcsecToRad, 31.87920000 * arcsecToRad, 0.05163500 * arcsecToRad, -0.00024470 * arcsecToRad]

/-- `c_ls_rad_`, lines 50-54. -/
noncomputable def cLs : List ℝ := [357.52910918 * degToRad, 129596581.04810000 * arcsecToRad, -0.55320000 * arcsecToRad, 0.00013600 * arcsecToRad, -0.00001149 * arcsecToRad]

/-- `c_f_rad_`, lines 56-60. -/
noncomputable def cF : List ℝ := [93.27209062 * degToRad, 1739527262.84780000 * arcsecToRad, -12.75120000 * arcsecToRad, -0.00103700 * arcsecToRad, 0.00000417 * arcsecToRad]

/-- `c_d_rad_`, lines 62-66. -/
noncomputable def cD : List ℝ := [297.85019547 * degToRad, 1602961601.20900000 * arcsecToRad, -6.37060000 * arcsecToRad, 0.00659300 * arcsecToRad, -0.00003169 * arcsecToRad]

/-- `c_o_rad_`, lines 68-72. -/
noncomputable def cO : List ℝ := [125.04455501 * degToRad, -6962890.54310000 * arcsecToRad, 7.47220000 * arcsecToRad, 0.00770200 * arcsecToRad, -0.00005939 * arcsecToRad]

/-- `c_d_epsilon_rad_`, lines 75-83. -/
noncomputable def cDEpsilon : Fin 9 → ℝ := fun i =>
  ![9.2050, 0.5730, -0.0900, 0.0980, 0.0070, -0.0010, 0.0220, 0.0130, -0.0100] i * arcsecToRad

/-- `c_d_psi_rad_`, lines 85-93. -/
noncomputable def cDPsi : Fin 9 → ℝ := fun i =>
  ![-17.2060, -1.3170, 0.2070, -0.2280, 0.1480, 0.0710, -0.0520, -0.0300, 0.0220] i * arcsecToRad

/-- `c_zeta_rad_`, lines 97-99. -/
noncomputable def cZeta : List ℝ := [2306.218100 * arcsecToRad, 0.301880 * arcsecToRad, 0.017998 * arcsecToRad]

/-- `c_theta_rad_`, lines 101-103. -/
noncomputable def cTheta : List ℝ := [2004.310900 * arcsecToRad, -0.426650 * arcsecToRad, -0.041833 * arcsecToRad]

/-- `c_z_rad_`, lines 105-107. -/
noncomputable def cZ : List ℝ := [2306.218100 * arcsecToRad, 1.094680 * arcsecToRad, 0.018203 * arcsecToRad]

/-- `terrestrial_time_julian_century`, lines 124-128: each entry is the one before times the first. -/
noncomputable def centuryPowers (t : ℝ) : List ℝ := [t, t * t, t * t * t, t * t * t * t]

/-- The accumulation loops of lines 163-193 and 225-236. -/
noncomputable def accumulate (start : ℝ) (c t : List ℝ) : ℝ := (List.zipWith (· * ·) c t).foldl (· + ·) start

/-- The polynomials of `Nutation` (the first coefficient is the constant). -/
noncomputable def poly (c t : List ℝ) : ℝ := accumulate (c.headD 0) c.tail t

/-- `d_psi_rad_`, `d_epsilon_rad_` and `epsilon_rad_` of `Nutation`, lines 161-210. -/
noncomputable def nutationAngles (t : List ℝ) : ℝ × ℝ × ℝ :=
  let epsilon := poly cEpsilon t
  let lm := poly cLm t
  let ls := poly cLs t
  let f := poly cF t
  let d := poly cD t
  let o := poly cO t
  let l := f + o
  let ld := l - d
  let dPsi := cDPsi 0 * Real.sin o + cDPsi 1 * Real.sin (2 * ld) + cDPsi 2 * Real.sin (2 * o) + cDPsi 3 * Real.sin (2 * l) + cDPsi 4 * Real.sin ls
  let dPsi := dPsi + cDPsi 5 * Real.sin lm + cDPsi 6 * Real.sin (2 * ld + ls) + cDPsi 7 * Real.sin (2 * l + lm) + cDPsi 8 * Real.sin (2 * ld - ls)
  let dEps := cDEpsilon 0 * Real.cos o + cDEpsilon 1 * Real.cos (2 * ld) + cDEpsilon 2 * Real.cos (2 * o) + cDEpsilon 3 * Real.cos (2 * l) + cDEpsilon 4 * Real.cos ls
  let dEps := dEps + cDEpsilon 5 * Real.cos lm + cDEpsilon 6 * Real.cos (2 * ld + ls) + cDEpsilon 7 * Real.cos (2 * l + lm) + cDEpsilon 8 * Real.cos (2 * ld - ls)
  (dPsi, dEps, epsilon)

/-- The matrix of `Nutation`, lines 212-220. -/
noncomputable def nutation (t : List ℝ) : Mat 3 3 :=
  let n := nutationAngles t
  matMul (matMul (makeRotationMatrixX (-(n.2.2 + n.2.1))) (makeRotationMatrixZ (-n.1))) (makeRotationMatrixX n.2.2)

/-- `Precession`, lines 223-247. -/
noncomputable def precession (t : List ℝ) : Mat 3 3 :=
  let zeta := accumulate 0 cZeta t
  let theta := accumulate 0 cTheta t
  let z := accumulate 0 cZ t
  matMul (matMul (makeRotationMatrixZ (-z)) (makeRotationMatrixY theta)) (makeRotationMatrixZ (-zeta))

/-- `PolarMotion`, lines 249-263. -/
noncomputable def polarMotion (x y : ℝ) : Mat 3 3 := !![1, 0, -x; 0, 1, -y; x, y, 1]

/-- `EarthRotation`, earth_rotation.hpp:62-64. -/
structure Earth where
  mode : EarthMode
  j2000ToEcef : Mat 3 3
  temeToEcef : Mat 3 3

/-- Constructor, earth_rotation.cpp:21-25 and 108-111. -/
def Earth.new (mode : EarthMode) : Earth := ⟨mode, makeIdentityMatrix 3, makeIdentityMatrix 3⟩

/-- `Update`, lines 114-157. -/
noncomputable def Earth.update (e : Earth) (jd : ℝ) : Earth :=
  let gmst := gstime jd
  match e.mode with
  | .full =>
    let tt := jd + 32.184 * (1 / (24 * 60 * 60))
    let t := centuryPowers ((tt - 2451545) / 36525)
    let n := nutationAngles t
    let gast := gmst + n.1 * Real.cos (n.2.2 + n.2.1)
    { e with j2000ToEcef := matMul (matMul (matMul (polarMotion 0 0) (makeRotationMatrixZ gast)) (nutation t)) (precession t) }
  | .simple => { e with j2000ToEcef := makeRotationMatrixZ gmst }
  | .idle => e

/-! ## Moon -/

/-- `MoonRotationMode`, moon_rotation.hpp. -/
inductive MoonMode | idle | simple | iauMoon
  deriving DecidableEq

/-- `ConvertMoonRotationMode`, moon_rotation.cpp:41-55. -/
def convertMoonMode (mode : String) : MoonMode :=
  if mode = "IDLE" then .idle else if mode = "SIMPLE" then .simple else if mode = "IAU_MOON" then .iauMoon else .idle

/-- `CalcDcmEciToMeanEarth`, moon_rotation_utilities.cpp:22-38. -/
noncomputable def dcmEciToMeanEarth (position velocity : Vec 3) : Mat 3 3 :=
  let ex := scale (-1) (calcNormalizedVector position)
  let ez := calcNormalizedVector (outerProduct position velocity)
  let ey := outerProduct ez ex
  fun i j => ![ex, ey, ez] i j

/-- `CalcDcmMeanEarthToPrincipalAxis`, moon_rotation_utilities.cpp:40-50. -/
noncomputable def dcmMeanEarthToPrincipalAxis : Mat 3 3 :=
  matMul (matMul (makeRotationMatrixZ (67.573 * arcsecToRad)) (makeRotationMatrixY (78.580 * arcsecToRad))) (makeRotationMatrixX (0.285 * arcsecToRad))

/-- `CalcDcmEciToPrincipalAxis`, moon_rotation_utilities.cpp:15-20. -/
noncomputable def dcmEciToPrincipalAxis (position velocity : Vec 3) : Mat 3 3 := matMul dcmMeanEarthToPrincipalAxis (dcmEciToMeanEarth position velocity)

/-- `MoonRotation::Update`, moon_rotation.cpp:20-39: the new matrix from position and velocity of the Moon relative to the Earth, and from the matrix of `sxform_c`. -/
noncomputable def moonUpdate (mode : MoonMode) (position velocity : Vec 3) (sxform : Fin 6 → Fin 6 → ℝ) : Mat 3 3 :=
  match mode with
  | .simple => dcmEciToPrincipalAxis position velocity
  | .iauMoon => fun i j => sxform (i.castLE (by decide)) (j.castLE (by decide))
  | .idle => makeIdentityMatrix 3

end S2E.Rotation
