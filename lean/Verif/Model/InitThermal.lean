import Verif.Model.InitOrbit
import Verif.Model.Thermal
/-!
# A thermal network made from files

`InitTemperature`, `src/dynamics/thermal/temperature.cpp:344-443`, with `InitNode` (node.cpp:218-278), `InitHeater` (heater.cpp:60-79), `InitHeaterController`
(heater_controller.cpp:38-56), `InitHeatload` (heatload.cpp:84-104) and the constructors of `Temperature` (temperature.cpp:19-52).

`std::stoi` and `std::stod` are arbitrary partial functions of the text of a cell; `csv` gives the text of a file by its path, empty for a file that cannot be opened.
A failing `assert` is `Res.throws`. `CopyFileToLogDirectory` and console output are left out, except that the output of the debug mode reads both matrices.
-/
namespace S2E.InitThermal
open Log Ini InitOrbit Thermal Eps

/-- `std::stoi`, whose results are `int`s, and `std::stod`. -/
structure Numbers where
  stoi : Str → Res ℤ
  stod : Str → Res ℝ
  range : ∀ c n, stoi c = .ok n → -2 ^ 31 ≤ n ∧ n < 2 ^ 31

/-- The conversion of an `int` to `size_t`. -/
def toSize (z : ℤ) : ℕ := (z % 2 ^ 64).toNat

/-- A loop that makes one object per row, temperature.cpp:388-390, 401-403, 419-422. -/
def makeAll {α β : Type} (f : α → Res β) : List α → Res (List β)
  | [] => .ok []
  | a :: l => (f a).bind fun b => (makeAll f l).bind fun bs => .ok (b :: bs)

/-- The loop of `InitHeatload`, heatload.cpp:98-101, on the cells after the first. -/
def readPairs (nm : Numbers) : List Str → List Str → Res (List ℝ × List ℝ)
  | t :: ts, w :: ws => (nm.stod t).bind fun x => (nm.stod w).bind fun y => (readPairs nm ts ws).bind fun r => .ok (x :: r.1, y :: r.2)
  | _, _ => .ok ([], [])

/-- `InitHeatload`, heatload.cpp:84-104; the node number is read and kept, but never used (`Model/Thermal`). -/
noncomputable def initHeatload (nm : Numbers) (times row : List Str) : Res (Heatload ℝ) :=
  if times.length ≥ 2 ∧ row.length ≥ 2 ∧ times.length = row.length then
    (nm.stoi (row.getD 0 [])).bind fun _ => (readPairs nm times.tail row.tail).bind fun p => Heatload.make p.1 p.2
  else .throws

/-- The type of a node, node.cpp:270-275. -/
def nodeType (t : ℕ) : NodeType := if t = 1 then .boundary else if t = 2 then .arithmetic else .diffusive

open Classical in
/-- The direction of a node, node.cpp:261-266. For a zero vector the code gets NaN, the model 0. -/
noncomputable def nodeNormal (t : ℕ) (v : Vec 3) : Vec 3 := if t = 0 then fun i => v i / calcNorm v else v

/-- `InitNode`, node.cpp:218-278; number and label are kept, but never used. -/
noncomputable def initNode (nm : Numbers) (row : List Str) : Res Node :=
  let cell := fun k => row.getD k []
  if row.length = 12 then
    (nm.stoi (cell 0)).bind fun _ => (nm.stoi (cell 2)).bind fun t => (nm.stoi (cell 3)).bind fun heater => (nm.stod (cell 4)).bind fun capacity =>
      (nm.stod (cell 5)).bind fun alpha => (nm.stod (cell 6)).bind fun epsilon => (nm.stod (cell 7)).bind fun area =>
        (nm.stod (cell 8)).bind fun x => (nm.stod (cell 9)).bind fun y => (nm.stod (cell 10)).bind fun z => (nm.stod (cell 11)).bind fun temperature =>
          .ok (Node.make (nodeType (toSize t)) (toSize heater) temperature capacity alpha epsilon area (nodeNormal (toSize t) ![x, y, z]))
  else .throws

/-- `InitHeater`, heater.cpp:60-79, and `InitHeaterController`, heater_controller.cpp:38-56, on one row. -/
noncomputable def initHeater (nm : Numbers) (row : List Str) : Res (Heater ℝ × Controller ℝ) :=
  let cell := fun k => row.getD k []
  if row.length = 4 then
    (nm.stoi (cell 0)).bind fun id => (nm.stod (cell 1)).bind fun rating => (nm.stod (cell 2)).bind fun lower => (nm.stod (cell 3)).bind fun upper =>
      .ok (Heater.make (toSize id) rating, Controller.make lower upper)
  else .throws

/-- `Temperature` with the matrices as they were read. -/
structure Loaded where
  conductance : List (List ℝ)
  radiation : List (List ℝ)
  nodes : List Node
  loads : List (Heatload ℝ)
  heaters : List (Heater ℝ)
  controllers : List (Controller ℝ)
  step : ℝ
  enabled : Bool
  solarEnabled : Bool

/-- The rows after the header; `begin() + 1` of an empty vector is undefined, temperature.cpp:388, 401, 419. -/
def body (rows : List (List Str)) : Res (List (List Str)) :=
  match rows with
  | [] => .ub
  | _ :: rest => .ok rest

/-- The rows of `heatload.csv`, temperature.cpp:379-390: the first row is the times. -/
noncomputable def readLoads (nm : Numbers) (text : Str) : Res (List (Heatload ℝ)) :=
  (body (readCsvString text)).bind fun rows => makeAll (initHeatload nm ((readCsvString text).getD 0 [])) rows

/-- The check that a matrix is square, temperature.cpp:435-436: as many numbers in the first row, which must exist, as rows. -/
def squareMatrix (m : List (List ℝ)) : Res (List (List ℝ)) :=
  match m with
  | [] => .ub
  | r :: _ => if m.length = r.length then .ok m else .throws

/-- Row `i` holds `n` numbers. -/
def rowFull (m : List (List ℝ)) (n i : ℕ) : Bool := decide (n ≤ (m.getD i []).length)

/-- `PrintParams` in debug mode, temperature.cpp:39-41, 291-303: all elements are read. -/
def printParams (debug : Bool) (l : Loaded) : Res Loaded :=
  if debug = true ∧ ∃ i < l.nodes.length, rowFull l.conductance l.nodes.length i = false ∨ rowFull l.radiation l.nodes.length i = false then .ub else .ok l

/-- `Temperature()`, temperature.cpp:44-51. -/
noncomputable def disabled : Loaded := ⟨[], [], [], [], [], [], 0, false, false⟩

/-- The part of `InitTemperature` after the settings, temperature.cpp:378-442. -/
noncomputable def loadNetwork (nm : Numbers) (csv : Str → Str) (dir : Str) (solar debug : Bool) (step : ℝ) : Res Loaded :=
  (readLoads nm (csv (dir ++ "heatload.csv".toList))).bind fun loads =>
    (body (readCsvString (csv (dir ++ "node.csv".toList)))).bind fun nodeRows => (makeAll (initNode nm) nodeRows).bind fun nodes =>
      if nodes.length = loads.length then
        (body (readCsvString (csv (dir ++ "heaters.csv".toList)))).bind fun heaterRows => (makeAll (initHeater nm) heaterRows).bind fun heaters =>
          (readCsvDoubleWithHeader nm.stod (csv (dir ++ "cij.csv".toList)) 1 1).bind fun c =>
            (readCsvDoubleWithHeader nm.stod (csv (dir ++ "rij.csv".toList)) 1 1).bind fun r =>
              if c.length = nodes.length ∧ r.length = nodes.length then
                (squareMatrix c).bind fun c => (squareMatrix r).bind fun r =>
                  printParams debug ⟨c, r, nodes, loads, heaters.map Prod.fst, heaters.map Prod.snd, step, true, solar⟩
              else .throws
      else .throws

/-- `InitTemperature`, temperature.cpp:344-443. -/
noncomputable def initTemperature (rd : Reader) (nm : Numbers) (file : File) (csv : Str → Str) (step : ℝ) : Res Loaded :=
  let ini := file "THERMAL".toList
  if readEnable rd.paths ini "calculation".toList = false then .ok disabled
  else loadNetwork nm csv (readString rd.paths ini "thermal_file_directory".toList) (readEnable rd.paths ini "solar_calc_setting".toList)
    (readEnable rd.paths ini "debug".toList) step

/-- The network on which `Propagate` works. The per-node vectors have one element per node. Elements of a matrix are read only in the rows of diffusive nodes
(temperature.cpp:166-173); elements that are never read are 0 here. -/
noncomputable def Loaded.network (l : Loaded) : Network l.nodes.length where
  conductance := fun i j => (l.conductance.getD i []).getD j 0
  radiation := fun i j => (l.radiation.getD i []).getD j 0
  nodes := fun i => l.nodes[i]
  loads := fun i => l.loads.getD i ⟨[], [], 0, 0, 0, 0, 0, 0, 0, 0, 0⟩
  heaters := l.heaters
  controllers := l.controllers
  step := l.step
  time := 0
  enabled := l.enabled
  solarEnabled := l.solarEnabled

open Classical in
/-- The first call of `Temperature::Propagate`, temperature.cpp:54-63; a row of a diffusive node that is too short is read beyond its end (166-173). -/
noncomputable def Loaded.propagate (l : Loaded) (fuel lfuel : ℕ) (e : Env) (timeEnd : ℝ) : Res (Network l.nodes.length) :=
  if l.enabled = true ∧ ∃ i : Fin l.nodes.length, l.nodes[i].kind = .diffusive ∧
      (rowFull l.conductance l.nodes.length i = false ∨ rowFull l.radiation l.nodes.length i = false) then .ub
  else l.network.propagate fuel lfuel e timeEnd

end S2E.InitThermal
