import Verif.Model.Disturbance
import Verif.Model.InitOrbit
/-!
# The structure of a spacecraft

`src/simulation/spacecraft/structure/*.{hpp,cpp}` (KinematicsParameters, Surface, ResidualMagneticMoment, Structure, initialize_structure.cpp) and
`src/components/examples/example_change_structure.cpp`. Settings are read as in `Model/InitOrbit`; `CopyFileToLogDirectory` and console output are left out.
-/
namespace S2E.Struct
open Log Ini InitOrbit Dist

/-- `Structure`, structure.hpp, with `KinematicsParameters`, kinematics_parameters.hpp:86-88. -/
structure Structure where
  cog : Vec 3
  mass : ℝ
  inertia : Mat 3 3
  surfaces : List Surface
  rmm : Rmm

/-- The setters of `Surface`, surface.hpp. -/
inductive SurfaceOp where
  | position (v : Vec 3)
  | normal (v : Vec 3)
  | area (x : ℝ)
  | reflectivity (x : ℝ)
  | specularity (x : ℝ)
  | airSpecularity (x : ℝ)

open Classical in
/-- surface.hpp: `SetPosition_b_m`, `SetNormal_b`, `SetArea_m2`, `SetReflectivity`, `SetSpecularity`, `SetAirSpecularity`. -/
noncomputable def setSurface (s : Surface) : SurfaceOp → Surface
  | .position v => { s with position := v }
  | .normal v => { s with normal := calcNormalizedVector v }
  | .area x => if x > 0 then { s with area := x } else s
  | .reflectivity x => if x ≥ 0 ∧ x ≤ 1 then { s with reflectivity := x } else s
  | .specularity x => if x ≥ 0 ∧ x ≤ 1 then { s with specularity := x } else s
  | .airSpecularity x => if x ≥ 0 ∧ x ≤ 1 then { s with airSpecularity := x } else s

/-- The setters reachable through `GetToSetKinematicsParameters`, `GetToSetSurfaces` and `GetToSetResidualMagneticMoment` of structure.hpp. -/
inductive Op where
  | setCog (v : Vec 3)
  | setMass (x : ℝ)
  | addMass (x : ℝ)
  | setInertia (m : Mat 3 3)
  | setRmm (v : Vec 3)
  | addRmm (v : Vec 3)
  | surface (i : ℕ) (op : SurfaceOp)

open Classical in
/-- `SetMass_kg`, kinematics_parameters.hpp:62-64. -/
noncomputable def setMass (s : Structure) (x : ℝ) : Structure := if x > 0 then { s with mass := x } else s

/-- One setter: kinematics_parameters.hpp:54-83, residual_magnetic_moment.hpp:59-65, `surfaces_[i]` of a `std::vector` (undefined outside). -/
noncomputable def apply (s : Structure) : Op → Res Structure
  | .setCog v => .ok { s with cog := v }
  | .setMass x => .ok (setMass s x)
  | .addMass x => .ok (setMass s (s.mass + x))
  | .setInertia m => .ok { s with inertia := m }
  | .setRmm v => .ok { s with rmm := { s.rmm with constant := v } }
  | .addRmm v => .ok { s with rmm := { s.rmm with constant := vadd s.rmm.constant v } }
  | .surface i op =>
    match s.surfaces[i]? with
    | none => .ub
    | some f => .ok { s with surfaces := s.surfaces.set i (setSurface f op) }

/-- A history of setters. -/
noncomputable def run : Structure → List Op → Res Structure
  | s, [] => .ok s
  | s, op :: ops => (apply s op).bind fun s => run s ops

/-! ## Settings -/

/-- `InitKinematicsParameters`, initialize_structure.cpp:14-32: centre of gravity, mass and inertia tensor. -/
noncomputable def initKinematics (rd : Reader) (file : File) : Vec 3 × ℝ × Mat 3 3 :=
  let ini := file "KINEMATIC_PARAMETERS".toList
  let inertiaVec : ℕ → ℝ := fun k => readDouble rd.getReal ini (indexedKey "inertia_tensor_kgm2".toList k)
  (rd.vec3 ini "center_of_gravity_b_m".toList, readDouble rd.getReal ini "mass_kg".toList, Matrix.of fun i j => inertiaVec (i.val * 3 + j.val))

/-- What the loop of `InitSurfaces` reads for surface `i`, initialize_structure.cpp:44-98. -/
noncomputable def readSurface (rd : Reader) (ini : Str → Option Str) (i : ℕ) : Surface :=
  let idx := "_".toList ++ dec i
  let d := fun (key : Str) => readDouble rd.getReal ini key
  ⟨rd.vec3 ini ("position".toList ++ idx ++ "_b_m".toList), rd.vec3 ini ("normal_vector".toList ++ idx ++ "_b".toList), d ("area".toList ++ idx ++ "_m2".toList),
    d ("reflectivity".toList ++ idx), d ("specularity".toList ++ idx), d ("air_specularity".toList ++ idx)⟩

/-- `InitSurfaces`, initialize_structure.cpp:34-109; the body of the loop is `Dist.initSurfaces`. -/
noncomputable def initSurfacesOf (rd : Reader) (file : File) : List Surface :=
  let ini := file "SURFACES".toList
  initSurfaces ((List.range (rd.int ini "number_of_surfaces".toList).toNat).map (readSurface rd ini))

/-- `InitResidualMagneticMoment`, initialize_structure.cpp:111-123. -/
noncomputable def initRmm (rd : Reader) (file : File) : Rmm :=
  let ini := file "RESIDUAL_MAGNETIC_MOMENT".toList
  ⟨rd.vec3 ini "rmm_constant_b_Am2".toList, readDouble rd.getReal ini "rmm_random_walk_speed_Am2".toList, readDouble rd.getReal ini "rmm_random_walk_limit_Am2".toList,
    readDouble rd.getReal ini "rmm_white_noise_standard_deviation_Am2".toList⟩

/-- `Structure::Initialize`, structure.cpp:22-32: the spacecraft's settings file names the structure file. -/
noncomputable def new (rd : Reader) (files : Str → File) (spacecraftFile : Str) : Structure :=
  let file := files (readString rd.paths (files spacecraftFile "SETTING_FILES".toList) "structure_file".toList)
  let k := initKinematics rd file
  ⟨k.1, k.2.1, k.2.2, initSurfacesOf rd file, initRmm rd file⟩

/-! ## ExampleChangeStructure -/

/-- The setter calls of `ExampleChangeStructure::MainRoutine`, example_change_structure.cpp:18-45. -/
noncomputable def changes : List Op :=
  [.setMass 100, .setCog ![0.01, -0.01, 0.02], .setRmm ![0.1, -0.1, 0.2], .surface 0 (.area 0.5), .setInertia !![0.2, 0, 0; 0, 0.2, 0; 0, 0, 0.2]]

/-- The conversion of the `unsigned int` count to the `const int time_count` of `MainRoutine` (two's complement). -/
def toInt (count : ℕ) : ℤ := if count % 2 ^ 32 < 2 ^ 31 then (count % 2 ^ 32 : ℕ) else (count % 2 ^ 32 : ℕ) - 2 ^ 32

/-- `ExampleChangeStructure::MainRoutine`, example_change_structure.cpp:17-46. -/
noncomputable def mainRoutine (s : Structure) (timeCount : ℤ) : Res Structure := if timeCount > 1000 then run s changes else .ok s

/-- `n` ticks of the clock from count `c`: the prescaler is 1 and the component has its own power port, which is on (component.cpp:10-16, 37-44,
power_port.cpp:14-17); the count wraps at 2^32 (clock_generator.cpp:35). -/
noncomputable def ticks : ℕ → ℕ → Structure → Res Structure
  | 0, _, s => .ok s
  | n + 1, c, s => (mainRoutine s (toInt c)).bind fun s => ticks n ((c + 1) % 2 ^ 32) s

end S2E.Struct
