import Verif.Spec.InitWheel
import Verif.Props.Csv
import Verif.Props.Thermal
import Verif.Model.InitThermal
/-!
# Specification: the files of a thermal network
-/
namespace S2E.Settings
open Log InitOrbit Thermal Eps InitThermal Csv

/-- A text is a table: lines with cells separated by commas; no cell contains a comma or a line end, the last cell of a line is not empty. -/
def IsTable (text : Str) (rows : List (List Str)) : Prop :=
  (∀ row ∈ rows, (∀ c ∈ row, ',' ∉ c ∧ '\n' ∉ c) ∧ row.getLast? ≠ some []) ∧ text = terminated '\n' (rows.map (join ','))

/-- A cell is read as a number, or as a whole number. -/
def Numbers.Cell (nm : Numbers) (c : Str) (x : ℝ) : Prop := nm.stod c = .ok x
@[inherit_doc Numbers.Cell] def Numbers.Whole (nm : Numbers) (c : Str) (n : ℤ) : Prop := nm.stoi c = .ok n

/-- A node of the network. -/
structure NodeSheet where
  type : ℤ
  heater : ℤ
  capacity : ℝ
  alpha : ℝ
  epsilon : ℝ
  area : ℝ
  normal : Vec 3
  temperature : ℝ

/-- The row of a node: number, label, type, heater, capacity, absorptivity, emissivity, area, direction, temperature. -/
def NodeSheet.In (s : NodeSheet) (nm : Numbers) (row : List Str) : Prop :=
  ∃ id label ty he ca al ep ar nx ny nz te n, row = [id, label, ty, he, ca, al, ep, ar, nx, ny, nz, te] ∧ Numbers.Whole nm id n ∧ Numbers.Whole nm ty s.type ∧
    Numbers.Whole nm he s.heater ∧ Numbers.Cell nm ca s.capacity ∧ Numbers.Cell nm al s.alpha ∧ Numbers.Cell nm ep s.epsilon ∧ Numbers.Cell nm ar s.area ∧
    Numbers.Cell nm nx (s.normal 0) ∧ Numbers.Cell nm ny (s.normal 1) ∧ Numbers.Cell nm nz (s.normal 2) ∧ Numbers.Cell nm te s.temperature

/-- Power and switching temperatures (°C) of a heater. -/
structure HeaterSheet where
  rating : ℝ
  lower : ℝ
  upper : ℝ

/-- The row of a heater: number, power, lower and upper threshold. -/
def HeaterSheet.In (s : HeaterSheet) (nm : Numbers) (row : List Str) : Prop :=
  ∃ id ra lo up n, row = [id, ra, lo, up] ∧ Numbers.Whole nm id n ∧ Numbers.Cell nm ra s.rating ∧ Numbers.Cell nm lo s.lower ∧ Numbers.Cell nm up s.upper

/-- A row of numbers after a first cell. -/
def Values (nm : Numbers) (xs : List ℝ) (row : List Str) : Prop := ∃ first cells, row = first :: cells ∧ List.Forall₂ (Numbers.Cell nm) cells xs

/-- All that the files say: whether solar heating is calculated, the times and the power of each node at these times, nodes, heaters, conductances and radiative
couplings row by row. -/
structure ThermalSheet where
  solar : Bool
  times : List ℝ
  loads : List (List ℝ)
  nodes : List NodeSheet
  heaters : List HeaterSheet
  conductance : List (List ℝ)
  radiation : List (List ℝ)

/-- The sheet is written in the settings file and in the five tables of its directory, each with a first row of its own. -/
def ThermalSheet.In (s : ThermalSheet) (rd : Reader) (nm : Numbers) (file : File) (csv : Str → Str) : Prop :=
  Switch rd file "THERMAL".toList "calculation".toList true ∧ Switch rd file "THERMAL".toList "solar_calc_setting".toList s.solar ∧
  ∃ dir, Text rd file "THERMAL".toList "thermal_file_directory".toList dir ∧
    (∃ timeRow rows, IsTable (csv (dir ++ "heatload.csv".toList)) (timeRow :: rows) ∧ Values nm s.times timeRow ∧
      List.Forall₂ (fun row w => Values nm w row ∧ ∃ n, Numbers.Whole nm (row.getD 0 []) n) rows s.loads) ∧
    (∃ header rows, IsTable (csv (dir ++ "node.csv".toList)) (header :: rows) ∧ List.Forall₂ (fun row d => NodeSheet.In d nm row) rows s.nodes) ∧
    (∃ header rows, IsTable (csv (dir ++ "heaters.csv".toList)) (header :: rows) ∧ List.Forall₂ (fun row d => HeaterSheet.In d nm row) rows s.heaters) ∧
    (∃ header rows, IsTable (csv (dir ++ "cij.csv".toList)) (header :: rows) ∧ List.Forall₂ (fun row x => Values nm x row) rows s.conductance) ∧
    ∃ header rows, IsTable (csv (dir ++ "rij.csv".toList)) (header :: rows) ∧ List.Forall₂ (fun row x => Values nm x row) rows s.radiation

/-- The tables fit together: at least one node, one row of loads for each, one load for each of at least one time, square matrices. -/
structure ThermalSheet.Fits (s : ThermalSheet) : Prop where
  nodes : s.nodes ≠ []
  loads : s.loads.length = s.nodes.length
  times : s.times ≠ []
  load : ∀ w ∈ s.loads, w.length = s.times.length
  conductance : s.conductance.length = s.nodes.length
  radiation : s.radiation.length = s.nodes.length
  conductanceRow : ∀ r ∈ s.conductance, r.length = s.nodes.length
  radiationRow : ∀ r ∈ s.radiation, r.length = s.nodes.length

/-- A fraction outside 0 … 1 counts as 0. -/
noncomputable def fraction (x : ℝ) : ℝ := if 0 ≤ x ∧ x ≤ 1 then x else 0

/-- What a network is made of: the node, power table, heater and matrix elements of the sheet at the same place. Negative temperatures, capacities, areas and powers count
as 0, an upper threshold below the lower one is 10 °C above the lower one. -/
structure ThermalSheet.Describes {n : ℕ} (s : ThermalSheet) (net : Network n) : Prop where
  count : n = s.nodes.length
  kind : ∀ (i : Fin n) d, s.nodes[i]? = some d →
    (net.nodes i).kind = if d.type = 1 then NodeType.boundary else if d.type = 2 then .arithmetic else .diffusive
  heater : ∀ (i : Fin n) d, s.nodes[i]? = some d → 0 ≤ d.heater → ((net.nodes i).heaterId : ℤ) = d.heater
  surface : ∀ (i : Fin n) d, s.nodes[i]? = some d → (net.nodes i).temperature = max 0 d.temperature ∧ (net.nodes i).capacity = max 0 d.capacity ∧
    (net.nodes i).alpha = fraction d.alpha ∧ (net.nodes i).epsilon = fraction d.epsilon ∧ (net.nodes i).area = max 0 d.area
  normal : ∀ (i : Fin n) d, s.nodes[i]? = some d → (net.nodes i).normal =
    if d.type = 0 then fun k => d.normal k / Real.sqrt (d.normal 0 ^ 2 + d.normal 1 ^ 2 + d.normal 2 ^ 2) else d.normal
  load : ∀ (i : Fin n), (net.loads i).times = s.times ∧ some (net.loads i).table = s.loads[i]? ∧ (net.loads i).idx = 0 ∧ some (net.loads i).period = s.times.getLast? ∧
    (net.loads i).solar = 0 ∧ (net.loads i).albedo = 0
  heaters : net.heaters.map (fun h => (h.rating, h.on, h.output)) = s.heaters.map (fun d => (max 0 d.rating, false, 0))
  controllers : net.controllers.map (fun c => (c.lower, c.upper)) = s.heaters.map (fun d => (d.lower, if d.upper < d.lower then d.lower + 10 else d.upper))
  conductance : ∀ (i j : Fin n) r, s.conductance[i]? = some r → some (net.conductance i j) = r[j]?
  radiation : ∀ (i j : Fin n) r, s.radiation[i]? = some r → some (net.radiation i j) = r[j]?
  time : net.time = 0
  enabled : net.enabled = true
  solar : net.solarEnabled = s.solar

/-- The network can be propagated: diffusive nodes have a capacity, heater numbers are places in the list of heaters (0 is none), the times increase and do not end at 0. -/
structure ThermalSheet.Usable (s : ThermalSheet) : Prop where
  capacity : ∀ d ∈ s.nodes, d.type ≠ 1 → d.type ≠ 2 → 0 < d.capacity
  heater : ∀ d ∈ s.nodes, 0 ≤ d.heater ∧ d.heater ≤ s.heaters.length
  two : 2 ≤ s.times.length
  increasing : s.times.Pairwise (· < ·)
  last : ∀ p, s.times.getLast? = some p → 0 < p

end S2E.Settings
