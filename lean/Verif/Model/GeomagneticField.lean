import Verif.Model.Igrf
import Verif.Model.Random
import Verif.Model.Quaternion
/-!
# `src/environment/local/geomagnetic_field.cpp`

The statics of igrf.cpp and of `AddNoise` exist once in the program: they form the `World`. As in the model of the magnetic disturbance, a noise source is an arbitrary
state `γ` with a drawing function `draw std` (`NormalRand` of average 0 and the given standard deviation). Reading the ini file and the log output are not modelled.
-/
namespace S2E.Geomag
open Igrf

/-- The statics of `AddNoise`, geomagnetic_field.cpp:45-49: parameters of the object that made the first call, the random walk and the white noise. -/
structure Statics (γ : Type) where
  walkStd : ℝ
  walkLimit : ℝ
  whiteStd : ℝ
  time : ℝ
  walk : Vec 3
  walkNoise : Fin 3 → γ
  white : γ

/-- Everything the objects share. -/
structure World (γ : Type) where
  igrf : Igrf
  noise : Option (Statics γ)

/-- Start of the program. -/
def World.initial {γ : Type} : World γ := ⟨Igrf.initial, none⟩

/-- Members of `GeomagneticField`, geomagnetic_field.hpp:75-80 and `IsCalcEnabled`. -/
structure GeoField where
  enabled : Bool
  fieldI : Vec 3
  fieldB : Vec 3
  walkStd : ℝ
  walkLimit : ℝ
  whiteStd : ℝ

/-- The constructor, geomagnetic_field.cpp:16-25. -/
def create {γ : Type} (w : World γ) (file : List Char) (walkStd walkLimit whiteStd : ℝ) : Res (World γ × GeoField) :=
  (w.igrf.setFilePath file).bind fun s => .ok ({ w with igrf := s }, ⟨true, fun _ => 0, fun _ => 0, walkStd, walkLimit, whiteStd⟩)

/-- `LocalEnvironment::Initialize`, local_environment.cpp:46-49 and geomagnetic_field.cpp:85: the flag from the file and the centre body. -/
def GeoField.configure (f : GeoField) (enable : Bool) (center : String) : GeoField := { f with enabled := if center ≠ "EARTH" then false else enable }

/-- `AddNoise`, geomagnetic_field.cpp:44-55. `fresh` gives the noise sources made by the first call. -/
noncomputable def addNoise {γ : Type} (draw : ℝ → γ → ℝ × γ) (fresh : (Fin 3 → γ) × γ) (f : GeoField) (st : Option (Statics γ)) (b : Vec 3) : Vec 3 × Statics γ :=
  let s := st.getD ⟨f.walkStd, f.walkLimit, f.whiteStd, 0, fun _ => 0, fresh.1, fresh.2⟩
  let d0 := draw s.whiteStd s.white
  let d1 := draw s.whiteStd d0.2
  let d2 := draw s.whiteStd d1.2
  let w := Random.rk4 0.1 (fun _ x g => Random.walkDerivative (draw s.walkStd) (fun _ => s.walkLimit) x g) s.time s.walk s.walkNoise
  (![b 0 + (s.walk 0 + d0.1), b 1 + (s.walk 1 + d1.1), b 2 + (s.walk 2 + d2.1)], { s with time := w.1, walk := w.2.1, walkNoise := w.2.2, white := d2.2 })

/-- Arguments of `CalcMagneticField`. -/
structure Args where
  year : ℝ
  sidereal : ℝ
  lat : ℝ
  lon : ℝ
  alt : ℝ
  i2b : Quat

/-- `CalcMagneticField`, geomagnetic_field.cpp:27-42. -/
noncomputable def calcMagneticField {γ : Type} (draw : ℝ → γ → ℝ × γ) (fresh : (Fin 3 → γ) × γ) (files : List Char → Option Table) (junk : ℝ × ℝ) (w : World γ) (f : GeoField) (a : Args) :
    Res (World γ × GeoField) :=
  if f.enabled then
    (w.igrf.igrfCalc files junk a.year a.lat a.lon a.alt a.sidereal).bind fun r =>
      let n := addNoise draw fresh f w.noise r.2
      .ok (⟨r.1, some n.2⟩, { f with fieldI := n.1, fieldB := a.i2b.frameConversion n.1 })
  else .ok (w, f)

/-- `LocalEnvironment::Update`, local_environment.cpp:61-66, as far as the magnetic field is concerned. -/
noncomputable def localUpdate {γ : Type} (draw : ℝ → γ → ℝ × γ) (fresh : (Fin 3 → γ) × γ) (files : List Char → Option Table) (junk : ℝ × ℝ) (attitudeFlag : Bool) (w : World γ) (f : GeoField)
    (a : Args) : Res (World γ × GeoField) :=
  if attitudeFlag then calcMagneticField draw fresh files junk w f a else .ok (w, f)

end S2E.Geomag
