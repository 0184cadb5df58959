import Verif.Spec.InitTime
import Verif.Spec.InitWheel
import Verif.Spec.CelestialRotation
/-!
# Specification: celestial bodies and stars in the base settings file
-/
namespace S2E.Settings
open Log InitOrbit

/-- What the sections `CELESTIAL_INFORMATION` and `CSPICE_KERNELS` say: the inertial frame, the aberration correction, the centre, each selected body by its name and
its rotation mode, whether the bodies are logged, and the five kernels. -/
structure CelestialSheet where
  frame : Str
  aberration : Str
  center : Str
  bodies : List (Str × Str)
  logged : Bool
  tls : Str
  tpc1 : Str
  tpc2 : Str
  tpc3 : Str
  bsp : Str

/-- The kernels in the order in which later ones take precedence. -/
def CelestialSheet.kernels (s : CelestialSheet) : List Str := [s.tls, s.tpc1, s.tpc2, s.tpc3, s.bsp]

def CelestialSheet.In (s : CelestialSheet) (rd : Reader) (file : File) : Prop :=
  let C := "CELESTIAL_INFORMATION".toList
  let T := fun (key : String) => Text rd file C key.toList
  let K := fun (key : String) => Text rd file "CSPICE_KERNELS".toList key.toList
  T "inertial_frame" s.frame ∧ T "aberration_correction" s.aberration ∧ T "center_object" s.center ∧
  Integer rd file C "number_of_selected_body".toList s.bodies.length ∧
  (∀ i : Fin s.bodies.length, Text rd file C ("selected_body_name(".toList ++ dec i ++ ")".toList) s.bodies[i].1 ∧
    Text rd file C ("rotation_mode(".toList ++ dec i ++ ")".toList) s.bodies[i].2) ∧
  Switch rd file C "logging".toList s.logged ∧
  K "tls" s.tls ∧ K "tpc1" s.tpc1 ∧ K "tpc2" s.tpc2 ∧ K "tpc3" s.tpc3 ∧ K "bsp" s.bsp

/-- The selected bodies have the identifiers `ids`, and their names are shorter than 30 characters. -/
def CelestialSheet.Known (s : CelestialSheet) (idOf : String → Option ℤ) (ids : List ℤ) : Prop :=
  List.Forall₂ (fun b p => idOf (String.ofList b.1) = some p ∧ b.1.length < 30 ∧ Char.ofNat 0 ∉ b.1) s.bodies ids

/-- The mode written beside the first selected body with the identifier `p`. -/
def CelestialSheet.ModeOf (s : CelestialSheet) (ids : List ℤ) (p : ℤ) (mode : Str) : Prop :=
  ∃ k : ℕ, ids[k]? = some p ∧ (∀ j < k, ids[j]? ≠ some p) ∧ (s.bodies[k]?).map Prod.snd = some mode

/-- The orientation of the Earth in the full model, from the Julian date in UTC: sidereal time, nutation and precession, with the argument of the last two 32.184 s
later. -/
noncomputable def earthFull (jd : ℝ) : Matrix (Fin 3) (Fin 3) ℝ :=
  let T := Rotation.centuries (jd + 32.184 / 86400)
  let e := Rotation.obliquity T
  let de := Rotation.nutObliquity T
  let dp := Rotation.nutLongitude T
  Rotation.R3 (Rotation.gmst (Rotation.centuries jd) + dp * Real.cos (e + de)) * (Rotation.R1 (-(e + de)) * Rotation.R3 (-dp) * Rotation.R1 e) *
    (Rotation.R3 (-Rotation.zA T) * Rotation.R2 (Rotation.thetaA T) * Rotation.R3 (-Rotation.zetaA T))

open Classical in
/-- The orientation of the Earth for the mode that is written. -/
noncomputable def earthOf (mode : Str) (jd : ℝ) : Matrix (Fin 3) (Fin 3) ℝ :=
  if mode = "FULL".toList then earthFull jd else if mode = "SIMPLE".toList then Rotation.R3 (Rotation.gmst (Rotation.centuries jd)) else 1

end S2E.Settings
