import Verif.Model.MonteCarlo
import Verif.Model.InitOrbit
/-!
# Monte-Carlo settings: `src/simulation/monte_carlo_simulation/initialize_monte_carlo_simulation.cpp`

Settings are read as in `Model/InitOrbit`. `ReadStrVector` has fuel.
-/
namespace S2E.InitMonteCarlo
open Log Ini InitOrbit MonteCarlo

/-- The conversion of the `int` read to `unsigned long long`, initialize_monte_carlo_simulation.cpp:19. -/
def toUnsigned (n : ℤ) : ℕ := (n % 2 ^ 64).toNat

/-- `Phase`, initialize_monte_carlo_simulation.cpp:33. -/
inductive Phase where
  | nothing
  | object
  | parameter

/-- The loop over the items between the separators, initialize_monte_carlo_simulation.cpp:36-52: object name and parameter name found (the other two vectors are
never read). -/
def scan : List Str → Phase → Str → Str → Str × Str
  | [], _, so, ip => (so, ip)
  | item :: rest, phase, so, ip =>
    if item.isEmpty then scan rest phase so ip
    else match phase with
      | .nothing => scan rest .object item ip
      | .object => (so, item)
      | .parameter => scan rest .parameter so ip

/-- Object and parameter name of a line, initialize_monte_carlo_simulation.cpp:36-52. -/
def names (line : Str) : Str × Str := scan (split '.' line) .nothing [] []

/-- `!strcmp(buffer, text)` for a buffer whose terminator may be missing: the comparison ends at the first difference, or at the terminator of the text. -/
def sameText (buffer text : Str) : Bool := (text ++ [Char.ofNat 0]).isPrefixOf buffer

/-- The randomization type, initialize_monte_carlo_simulation.cpp:60-80. -/
def kindOf (buffer : Str) : RandType :=
  if sameText buffer "NoRandomization".toList then .noRandomization
  else if sameText buffer "CartesianUniform".toList then .cartesianUniform
  else if sameText buffer "CartesianNormal".toList then .cartesianNormal
  else if sameText buffer "CircularNormalUniform".toList then .circularNormalUniform
  else if sameText buffer "CircularNormalNormal".toList then .circularNormalNormal
  else if sameText buffer "SphericalNormalUniformUniform".toList then .sphericalNormalUniformUniform
  else if sameText buffer "SphericalNormalNormal".toList then .sphericalNormalNormal
  else if sameText buffer "QuaternionUniform".toList then .quaternionUniform
  else if sameText buffer "QuaternionNormal".toList then .quaternionNormal
  else .noRandomization

/-- The three elements of a vector (`SetRandomConfiguration` copies them into a `std::vector`). -/
def toList (v : Vec 3) : List ℝ := [v 0, v 1, v 2]

/-- One pass of the loop over the lines, initialize_monte_carlo_simulation.cpp:34-94. -/
def addLine (rd : Reader) (ini : Str → Option Str) (l : ParamList) (line : Str) : Res ParamList :=
  let n := names line
  let kind := kindOf (readChar rd.paths ini (line ++ ['.'] ++ "randomization_type".toList) 256)
  let mean := rd.vec3 ini (line ++ ['.'] ++ "mean_or_min".toList)
  let sigma := rd.vec3 ini (line ++ ['.'] ++ "sigma_or_max".toList)
  l.add (String.ofList n.1) (String.ofList n.2) (toList mean) (toList sigma) kind

/-- The loop, initialize_monte_carlo_simulation.cpp:34-94. -/
def addLines (rd : Reader) (ini : Str → Option Str) : List Str → ParamList → Res ParamList
  | [], l => .ok l
  | line :: rest, l => (addLine rd ini l line).bind fun l => addLines rd ini rest l

/-- `InitMonteCarloSimulation`, initialize_monte_carlo_simulation.cpp:15-97: the executor and its parameters. -/
def initMonteCarlo (rd : Reader) (file : File) (fuel : ℕ) : Res (Executor × ParamList) :=
  let ini := file "MONTE_CARLO_EXECUTION".toList
  let e := Executor.new (toUnsigned (rd.int ini "number_of_executions".toList))
  let e := e.setEnable (readEnable rd.paths ini "monte_carlo_enable".toList)
  let e := e.setSaveLog (readEnable rd.paths ini "log_enable".toList)
  let ini := file "MONTE_CARLO_RANDOMIZATION".toList
  (readStrVector rd.paths ini "parameter".toList fuel).bind fun lines =>
    (addLines rd ini lines fun _ => none).bind fun l => .ok (e, l)

end S2E.InitMonteCarlo
