import Verif.Model.CelestialRotation
import Verif.Spec.TwoBody
/-!
# Rotation of Earth and Moon, independently of the code
-/
namespace S2E.Rotation

/-- The rotation matrices. -/
def IsRotation (m : Matrix (Fin 3) (Fin 3) ℝ) : Prop := m * m.transpose = 1 ∧ m.det = 1

/-- Components after turning the axes about the first, second or third axis. -/
noncomputable def R1 (a : ℝ) : Matrix (Fin 3) (Fin 3) ℝ := !![1, 0, 0; 0, Real.cos a, Real.sin a; 0, -Real.sin a, Real.cos a]
/-- See `R1`. -/
noncomputable def R2 (a : ℝ) : Matrix (Fin 3) (Fin 3) ℝ := !![Real.cos a, 0, -Real.sin a; 0, 1, 0; Real.sin a, 0, Real.cos a]
/-- See `R1`. -/
noncomputable def R3 (a : ℝ) : Matrix (Fin 3) (Fin 3) ℝ := !![Real.cos a, Real.sin a, 0; -Real.sin a, Real.cos a, 0; 0, 0, 1]

/-- Degrees. -/
noncomputable def deg (x : ℝ) : ℝ := x * Real.pi / 180
/-- Seconds of arc. -/
noncomputable def arcsec (x : ℝ) : ℝ := x * Real.pi / 648000

/-- Precession angles (IAU 1976). -/
noncomputable def zetaA (T : ℝ) : ℝ := arcsec (2306.2181 * T + 0.30188 * T ^ 2 + 0.017998 * T ^ 3)
/-- See `zetaA`. -/
noncomputable def thetaA (T : ℝ) : ℝ := arcsec (2004.3109 * T - 0.42665 * T ^ 2 - 0.041833 * T ^ 3)
/-- See `zetaA`. -/
noncomputable def zA (T : ℝ) : ℝ := arcsec (2306.2181 * T + 1.09468 * T ^ 2 + 0.018203 * T ^ 3)

/-- Mean obliquity. -/
noncomputable def obliquity (T : ℝ) : ℝ := deg 23.4392911 + arcsec (-46.815 * T - 0.00059 * T ^ 2 + 0.001813 * T ^ 3)

/-- Mean anomaly of the Moon. -/
noncomputable def moonAnomaly (T : ℝ) : ℝ := deg 134.96340251 + arcsec (1717915923.2178 * T + 31.8792 * T ^ 2 + 0.051635 * T ^ 3 - 0.0002447 * T ^ 4)
/-- Mean anomaly of the Sun. -/
noncomputable def sunAnomaly (T : ℝ) : ℝ := deg 357.52910918 + arcsec (129596581.0481 * T - 0.5532 * T ^ 2 + 0.000136 * T ^ 3 - 0.00001149 * T ^ 4)
/-- Argument of latitude of the Moon. -/
noncomputable def moonLatitude (T : ℝ) : ℝ := deg 93.27209062 + arcsec (1739527262.8478 * T - 12.7512 * T ^ 2 - 0.001037 * T ^ 3 + 0.00000417 * T ^ 4)
/-- Elongation of the Moon from the Sun. -/
noncomputable def elongation (T : ℝ) : ℝ := deg 297.85019547 + arcsec (1602961601.209 * T - 6.3706 * T ^ 2 + 0.006593 * T ^ 3 - 0.00003169 * T ^ 4)
/-- Ascending node of the Moon. -/
noncomputable def node (T : ℝ) : ℝ := deg 125.04455501 + arcsec (-6962890.5431 * T + 7.4722 * T ^ 2 + 0.007702 * T ^ 3 - 0.00005939 * T ^ 4)

/-- The largest terms of the nutation in longitude: coefficient in seconds of arc and multiples of (Moon's anomaly, Sun's anomaly, argument of latitude, elongation, node). -/
noncomputable def longitudeTerms : List (ℝ × (Fin 5 → ℤ)) :=
  [(-17.206, ![0, 0, 0, 0, 1]), (-1.317, ![0, 0, 2, -2, 2]), (0.207, ![0, 0, 0, 0, 2]), (-0.228, ![0, 0, 2, 0, 2]), (0.148, ![0, 1, 0, 0, 0]),
    (0.071, ![1, 0, 0, 0, 0]), (-0.052, ![0, 1, 2, -2, 2]), (-0.030, ![1, 0, 2, 0, 2]), (0.022, ![0, -1, 2, -2, 2])]

/-- The same for the nutation in obliquity. -/
noncomputable def obliquityTerms : List (ℝ × (Fin 5 → ℤ)) :=
  [(9.205, ![0, 0, 0, 0, 1]), (0.573, ![0, 0, 2, -2, 2]), (-0.090, ![0, 0, 0, 0, 2]), (0.098, ![0, 0, 2, 0, 2]), (0.007, ![0, 1, 0, 0, 0]),
    (-0.001, ![1, 0, 0, 0, 0]), (0.022, ![0, 1, 2, -2, 2]), (0.013, ![1, 0, 2, 0, 2]), (-0.010, ![0, -1, 2, -2, 2])]

/-- The argument of a term. -/
noncomputable def argument (n : Fin 5 → ℤ) (T : ℝ) : ℝ := n 0 * moonAnomaly T + n 1 * sunAnomaly T + n 2 * moonLatitude T + n 3 * elongation T + n 4 * node T

/-- Nutation in longitude. -/
noncomputable def nutLongitude (T : ℝ) : ℝ := (longitudeTerms.map fun x => arcsec x.1 * Real.sin (argument x.2 T)).sum
/-- Nutation in obliquity. -/
noncomputable def nutObliquity (T : ℝ) : ℝ := (obliquityTerms.map fun x => arcsec x.1 * Real.cos (argument x.2 T)).sum

/-- Greenwich mean sidereal time in radians (IAU 1982), unreduced, from centuries of UT1. -/
noncomputable def gmst (T : ℝ) : ℝ := 2 * Real.pi / 86400 * (67310.54841 + (3155760000 + 8640184.812866) * T + 0.093104 * T ^ 2 - 6.2e-6 * T ^ 3)

/-- Julian centuries since J2000. -/
noncomputable def centuries (jd : ℝ) : ℝ := (jd - 2451545) / 36525

end S2E.Rotation
