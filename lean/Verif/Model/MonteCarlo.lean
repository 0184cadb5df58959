import Verif.Model.Quaternion
/-!
# `src/simulation/monte_carlo_simulation/`: executor, initialised parameters, simulation objects

Real arithmetic. The static generators (`mt19937` with the two standard distributions) are a parameter: an arbitrary state `γ` with two
drawing functions; what is assumed of them (uniform draws lie in [0, 1)) is stated in the theorems. `std::map` is a partial function from
names. Thrown C strings are the outcome `throws`.
-/
namespace S2E.MonteCarlo

/-- `MonteCarloSimulationExecutor` without its parameter list, monte_carlo_simulation_executor.hpp:21-28. -/
structure Executor where
  total : Nat      -- total_number_of_executions_
  done : Nat       -- number_of_executions_done_
  enabled : Bool
  saveLog : Bool   -- save_log_history_flag_
  deriving Repr, DecidableEq

/-- Constructor, monte_carlo_simulation_executor.cpp:12-17. -/
def Executor.new (total : Nat) : Executor :=
  let enabled := decide (total > 1)
  ⟨total, 0, enabled, !enabled⟩

/-- `SetEnable`, monte_carlo_simulation_executor.hpp:44. -/
def Executor.setEnable (e : Executor) (b : Bool) : Executor := { e with enabled := b }

/-- `SetTotalNumberOfExecutions`, monte_carlo_simulation_executor.hpp:49. -/
def Executor.setTotal (e : Executor) (n : Nat) : Executor := { e with total := n }

/-- `SetSaveLogHistoryFlag`, monte_carlo_simulation_executor.hpp:54. -/
def Executor.setSaveLog (e : Executor) (b : Bool) : Executor := { e with saveLog := b }

/-- `GetSaveLogHistoryFlag`, monte_carlo_simulation_executor.hpp:81-84. -/
def Executor.getSaveLog (e : Executor) : Bool := !e.enabled || e.saveLog

/-- `WillExecuteNextCase`, monte_carlo_simulation_executor.cpp:19-25. -/
def Executor.willExecuteNextCase (e : Executor) : Bool :=
  if !e.enabled then decide (e.done < 1) else decide (e.done < e.total)

/-- `AtTheEndOfEachCase`, monte_carlo_simulation_executor.cpp:32-35 (the 64-bit counter cannot wrap inside the documented loop). -/
def Executor.atTheEndOfEachCase (e : Executor) : Executor := { e with done := e.done + 1 }

/-- The loop documented for the executor, monte_carlo_simulation_executor.hpp:104-123 (`while (WillExecuteNextCase()) { AtTheBeginning...;
run the case; AtTheEnd... }`): the number of cases run and the final executor. -/
def Executor.runCases : Nat → Executor → Res (Nat × Executor)
  | 0, e => if e.willExecuteNextCase then .stuck else .ok (0, e)
  | fuel + 1, e =>
    if e.willExecuteNextCase then do
      let (n, e') ← Executor.runCases fuel e.atTheEndOfEachCase
      .ok (n + 1, e')
    else .ok (0, e)

/-- `RandomizationType`, initialize_monte_carlo_parameters.hpp:28-38. -/
inductive RandType where
  | noRandomization
  | cartesianUniform
  | cartesianNormal
  | circularNormalUniform
  | circularNormalNormal
  | sphericalNormalUniformUniform
  | sphericalNormalNormal
  | quaternionUniform
  | quaternionNormal
  deriving Repr, DecidableEq

/-- Members of `InitializedMonteCarloParameters`, initialize_monte_carlo_parameters.hpp:86-92. -/
structure Param where
  value : List ℝ    -- randomized_value_
  mean : List ℝ     -- mean_or_min_
  sigma : List ℝ    -- sigma_or_max_
  kind : RandType

/-- Construction followed by `SetRandomConfiguration`, initialize_monte_carlo_parameters.cpp:19-31 and .hpp:209-222. -/
def Param.configure (mean sigma : List ℝ) (kind : RandType) : Param := ⟨[], mean, sigma, kind⟩

/-- The two static generators. -/
structure Gen (γ : Type) where
  unif : γ → ℝ × γ
  norm : γ → ℝ × γ

variable {γ : Type} (g : Gen γ)

/-- `Generate1dUniform`, initialize_monte_carlo_parameters.cpp:99-101. -/
def generate1dUniform (lb ub : ℝ) (s : γ) : ℝ × γ := (lb + (g.unif s).1 * (ub - lb), (g.unif s).2)

/-- `Generate1dNormal`, initialize_monte_carlo_parameters.cpp:103-105. -/
def generate1dNormal (mean std : ℝ) (s : γ) : ℝ × γ := (mean + (g.norm s).1 * std, (g.norm s).2)

/-- The loops of `GenerateCartesianUniform` / `GenerateCartesianNormal`, initialize_monte_carlo_parameters.cpp:109-123: one draw per
element of the first list; indexing the second list beyond its end is undefined. -/
def cartesian (draw : ℝ → ℝ → γ → ℝ × γ) : List ℝ → List ℝ → γ → Res (List ℝ × γ)
  | [], _, s => .ok ([], s)
  | _ :: _, [], _ => .ub
  | m :: ms, x :: xs, s =>
    let (v, s) := draw m x s
    do
      let (vs, s) ← cartesian draw ms xs s
      .ok (v :: vs, s)

/-- `CalcCircularNormalUniform`, initialize_monte_carlo_parameters.cpp:125-132. -/
noncomputable def calcCircularNormalUniform (rMean rSigma tMin tMax : ℝ) (s : γ) : List ℝ × γ :=
  let (r, s) := generate1dNormal g rMean rSigma s
  let (t, s) := generate1dUniform g tMin tMax s
  ([r * Real.cos t, r * Real.sin t], s)

/-- `CalcCircularNormalNormal`, initialize_monte_carlo_parameters.cpp:148-155. -/
noncomputable def calcCircularNormalNormal (rMean rSigma tMean tSigma : ℝ) (s : γ) : List ℝ × γ :=
  let (r, s) := generate1dNormal g rMean rSigma s
  let (t, s) := generate1dNormal g tMean tSigma s
  ([r * Real.cos t, r * Real.sin t], s)

/-- `CalcSphericalNormalUniformUniform`, initialize_monte_carlo_parameters.cpp:171-180. -/
noncomputable def calcSphericalNormalUniformUniform (rMean rSigma tMin tMax pMin pMax : ℝ) (s : γ) : List ℝ × γ :=
  let (r, s) := generate1dNormal g rMean rSigma s
  let (u, s) := generate1dUniform g 0 1 s
  let t := Real.arccos (Real.cos tMin - (Real.cos tMin - Real.cos tMax) * u)
  let (p, s) := generate1dUniform g pMin pMax s
  ([r * Real.sin t * Real.cos p, r * Real.sin t * Real.sin p, r * Real.cos t], s)

/-- The unit vector normal to the mean direction, initialize_monte_carlo_parameters.cpp:202-210. -/
noncomputable def normalUnitVec (m : Vec 3) : Vec 3 :=
  let opX := outerProduct m ![1, 0, 0]
  let opY := outerProduct m ![0, 1, 0]
  open Classical in
  if calcNorm opX > calcNorm opY then calcNormalizedVector opX else calcNormalizedVector opY

/-- `CalcSphericalNormalNormal`, initialize_monte_carlo_parameters.cpp:197-226 (`s0`, `s1` are `sigma_or_max_[0]`, `[1]`). -/
noncomputable def calcSphericalNormalNormal (mean : Vec 3) (s0 s1 : ℝ) (s : γ) : Vec 3 × γ :=
  let dir := scale (1 / calcNorm mean) mean
  let (a, s) := generate1dUniform g 0 tau s
  let axis := (Quat.ofAxisAngle dir (-a)).frameConversion (normalUnitVec dir)
  let (b, s) := generate1dNormal g 0 s1 s
  let ret := (Quat.ofAxisAngle axis (-b)).frameConversion dir
  let (r, s) := generate1dNormal g (calcNorm mean) s0 s
  (scale r ret, s)

/-- The direction drawn in `CalcQuaternionUniform` / `CalcQuaternionNormal`, initialize_monte_carlo_parameters.cpp:253-257 and 292-296. -/
noncomputable def drawDirection (s : γ) : Vec 3 × γ :=
  let (u, s) := generate1dUniform g 0 1 s
  let t := Real.arccos (1 - (1 - (-1)) * u)
  let (p, s) := generate1dUniform g 0 tau s
  (![Real.sin t * Real.cos p, Real.sin t * Real.sin p, Real.cos t], s)

/-- `first_cnv`, initialize_monte_carlo_parameters.cpp:247-248 and 259-264: vector part the outer product, scalar part the cosine of the
full angle. -/
def firstCnv (d : Vec 3) : Quat :=
  let op := outerProduct ![1, 0, 0] d
  ⟨op 0, op 1, op 2, innerProduct ![1, 0, 0] d⟩

/-- `CalcQuaternionUniform`, initialize_monte_carlo_parameters.cpp:245-275. -/
noncomputable def calcQuaternionUniform (s : γ) : Quat × γ :=
  let (d, s) := drawDirection g s
  let (a, s) := generate1dUniform g 0 tau s
  ((firstCnv d).mul (Quat.ofAxisAngle ![1, 0, 0] a), s)

/-- `CalcQuaternionNormal`, initialize_monte_carlo_parameters.cpp:288-304. -/
noncomputable def calcQuaternionNormal (sigma : ℝ) (s : γ) : Quat × γ :=
  let (d, s) := drawDirection g s
  let (a, s) := generate1dNormal g 0 sigma s
  (Quat.ofAxisAngle d a, s)

/-- The elements of a quaternion in order. -/
def quatList (q : Quat) : List ℝ := [q.x, q.y, q.z, q.w]

/-- The value list produced by `Randomize` for one parameter, initialize_monte_carlo_parameters.cpp:65-97 with the `Generate...` functions
107-123, 134-146, 157-169, 182-195, 228-243, 277-286, 306-319. -/
noncomputable def drawValue (p : Param) (s : γ) : Res (List ℝ × γ) :=
  match p.kind with
  | .noRandomization => .ok ([], s)
  | .cartesianUniform => cartesian (generate1dUniform g) p.mean p.sigma s
  | .cartesianNormal => cartesian (generate1dNormal g) p.mean p.sigma s
  | .circularNormalUniform =>
    match p.mean, p.sigma with
    | m0 :: m1 :: _, x0 :: x1 :: _ => .ok (calcCircularNormalUniform g m0 x0 m1 x1 s)
    | _, _ => .throws
  | .circularNormalNormal =>
    match p.mean, p.sigma with
    | m0 :: m1 :: _, x0 :: x1 :: _ => .ok (calcCircularNormalNormal g m0 x0 m1 x1 s)
    | _, _ => .throws
  | .sphericalNormalUniformUniform =>
    match p.mean, p.sigma with
    | m0 :: m1 :: m2 :: _, x0 :: x1 :: x2 :: _ => .ok (calcSphericalNormalUniformUniform g m0 x0 m1 x1 m2 x2 s)
    | _, _ => .throws
  | .sphericalNormalNormal =>
    match p.mean, p.sigma with
    | m0 :: m1 :: m2 :: _, x0 :: x1 :: _ =>
      let (v, s) := calcSphericalNormalNormal g ![m0, m1, m2] x0 x1 s
      .ok ([v 0, v 1, v 2], s)
    | _, _ => .throws
  | .quaternionUniform =>
    let (q, s) := calcQuaternionUniform g s
    .ok (quatList q, s)
  | .quaternionNormal =>
    match p.sigma with
    | x0 :: _ =>
      let (q, s) := calcQuaternionNormal g x0 s
      .ok (quatList q, s)
    | _ => .throws

/-- `Randomize`, initialize_monte_carlo_parameters.cpp:65-97. -/
noncomputable def randomize (p : Param) (s : γ) : Res (Param × γ) := do
  let (v, s) ← drawValue g p s
  .ok ({ p with value := v }, s)

/-- `GetRandomizedVector`, initialize_monte_carlo_parameters.hpp:224-235: the new content of the destination. -/
def Param.getVector {n : Nat} (p : Param) (dest : Vec n) : Res (Vec n) :=
  if p.kind = .noRandomization then .ok dest
  else if n > p.value.length then .throws
  else .ok fun i => p.value.getD i 0

/-- `GetRandomizedScalar`, initialize_monte_carlo_parameters.cpp:41-49. -/
def Param.getScalar (p : Param) (dest : ℝ) : Res ℝ :=
  if p.kind = .noRandomization then .ok dest
  else if 1 > p.value.length then .throws
  else .ok (p.value.getD 0 0)

/-- `GetRandomizedQuaternion`, initialize_monte_carlo_parameters.cpp:51-63. -/
noncomputable def Param.getQuaternion (p : Param) (dest : Quat) : Res Quat :=
  if p.kind = .noRandomization then .ok dest.normalize
  else if 4 > p.value.length then .throws
  else .ok (Quat.normalize ⟨p.value.getD 0 0, p.value.getD 1 0, p.value.getD 2 0, p.value.getD 3 0⟩)

/-- `init_parameter_list_`, monte_carlo_simulation_executor.hpp:28. -/
abbrev ParamList := String → Option Param

/-- The key `so_name + '.' + name`, monte_carlo_simulation_executor.cpp:41, 55 and .hpp:31, 145, 159. -/
def key (so name : String) : String := so ++ "." ++ name

/-- `AddInitializedMonteCarloParameter`, monte_carlo_simulation_executor.hpp:154-169. On the exception the list is unchanged. -/
def ParamList.add (l : ParamList) (so name : String) (mean sigma : List ℝ) (kind : RandType) : Res ParamList :=
  match l (key so name) with
  | none => .ok fun k => if k = key so name then some (Param.configure mean sigma kind) else l k
  | some _ => .throws

/-- `GetInitializedMonteCarloParameterVector`, monte_carlo_simulation_executor.hpp:141-152. -/
def getVector {n : Nat} (enabled : Bool) (l : ParamList) (so name : String) (dest : Vec n) : Res (Vec n) :=
  if !enabled then .ok dest
  else match l (key so name) with
    | none => .ok dest
    | some p => p.getVector dest

/-- `GetInitializedMonteCarloParameterDouble`, monte_carlo_simulation_executor.cpp:37-49. -/
def getScalar (enabled : Bool) (l : ParamList) (so name : String) (dest : ℝ) : Res ℝ :=
  if !enabled then .ok dest
  else match l (key so name) with
    | none => .ok dest
    | some p => p.getScalar dest

/-- `GetInitializedMonteCarloParameterQuaternion`, monte_carlo_simulation_executor.cpp:51-63. -/
noncomputable def getQuaternion (enabled : Bool) (l : ParamList) (so name : String) (dest : Quat) : Res Quat :=
  if !enabled then .ok dest
  else match l (key so name) with
    | none => .ok dest
    | some p => p.getQuaternion dest

/-- `SimulationObject::object_list_` together with the live objects: `reg` is the map (object identities are numbers), `live` maps an
object to its `name_`. -/
structure Objects where
  reg : String → Option Nat
  live : Nat → Option String

/-- What the program does with simulation objects. -/
inductive ObjOp where
  | construct (id : Nat) (name : String)
  | destroy (id : Nat)

/-- `SimulationObject(name)`, simulation_object.cpp:12-24 (an object whose constructor throws never lives, and its destructor does not run),
and `~SimulationObject`, 26-29. A fresh object has an identity no live object has; destroying an object that is not live is undefined. -/
def Objects.step (o : Objects) : ObjOp → Res Objects
  | .construct id name =>
    match o.reg name with
    | none => .ok ⟨fun n => if n = name then some id else o.reg n, fun i => if i = id then some name else o.live i⟩
    | some _ => .throws
  | .destroy id =>
    match o.live id with
    | none => .ub
    | some name => .ok ⟨fun n => if n = name then none else o.reg n, fun i => if i = id then none else o.live i⟩

end S2E.MonteCarlo
