import Verif.Model.Eps
import Verif.Model.Quantization
/-!
# Thermal network

`src/dynamics/thermal/heatload.{hpp,cpp}`, `node.{hpp,cpp}`, `temperature.cpp`. Doubles are exact numbers. The per-node vectors of Temperature all have `node_num_`
elements (asserted in InitTemperature, temperature.cpp:408-436) and are functions on `Fin n`. The environment (sun direction, earth position, fluxes) does not change during
one Propagate call. Debug printing, logging and reading of the csv files are not modelled; nor are `assert`s.
-/
namespace S2E.Thermal
open S2E.Eps

variable {K : Type} [Field K] [LinearOrder K] [FloorRing K]

/-- `fmod(x, p)` for `p ≠ 0`: the remainder with the quotient rounded toward zero. -/
def fmodK (x p : K) : K := x - p * (truncZ (x / p) : K)

/-- Heatload, heatload.hpp (node id and elapsed time omitted: never read back). -/
structure Heatload (K : Type) where
  times : List K
  table : List K
  idx : Nat
  solar : K
  albedo : K
  infrared : K
  internal : K
  heater : K
  total : K
  period : K
  residual : K
deriving DecidableEq

/-- Heatload::Heatload, heatload.cpp:12-26. `time_table_s_[size - 1]` of an empty table is out of range (asserted away). The infrared load is left uninitialised there; it is
set before every use (temperature.cpp:160-164), so 0 stands for it. -/
def Heatload.make (times table : List K) : Res (Heatload K) :=
  match times.getLast? with
  | none => .ub
  | some p => .ok { times := times, table := table, idx := 0, solar := 0, albedo := 0, infrared := 0, internal := 0, heater := 0, total := 0, period := p,
                    residual := fmodK 0 p }

/-- The loop of SetElapsedTime_s, heatload.cpp:48-53. -/
def advance (times : List K) (residual : K) : Nat → Nat → Res Nat
  | 0, _ => .stuck
  | fuel + 1, idx =>
    match times[idx + 1]? with
    | none => .ub
    | some u =>
      if residual > u then
        let idx := idx + 1
        advance times residual fuel (if idx > times.length - 1 then 0 else idx)
      else .ok idx

/-- Heatload::SetElapsedTime_s, heatload.cpp:44-54. -/
def Heatload.setElapsed (h : Heatload K) (fuel : Nat) (t : K) : Res (Heatload K) := do
  let r := fmodK t h.period
  let idx ← advance h.times r fuel h.idx
  .ok { h with residual := r, idx := idx }

/-- Heatload::CalcInternalHeatload, heatload.cpp:30-42. -/
def Heatload.calcInternal (h : Heatload K) : Res (Heatload K) :=
  match h.times[h.idx]?, h.times[h.idx + 1]?, h.table[h.idx]?, h.table[h.idx + 1]? with
  | some tl, some tu, some wl, some wu => .ok { h with internal := wl + (h.residual - tl) / (tu - tl) * (wu - wl) }
  | _, _, _, _ => .ub

/-- Heatload::UpdateTotalHeatload, heatload.hpp. -/
def Heatload.updateTotal (h : Heatload K) : Heatload K := { h with total := h.solar + h.albedo + h.infrared + h.internal + h.heater }

/-- SetElapsedTime_s followed by CalcInternalHeatload. -/
def Heatload.at (h : Heatload K) (fuel : Nat) (t : K) : Res (Heatload K) := do (← h.setElapsed fuel t).calcInternal

/-- A sequence of such evaluations. -/
def Heatload.run (h : Heatload K) (fuel : Nat) : List K → Res (Heatload K)
  | [] => .ok h
  | t :: ts => do (← h.at fuel t).run fuel ts

/-! ## Node -/

/-- NodeType, node.hpp. -/
inductive NodeType where
  | diffusive
  | boundary
  | arithmetic
deriving DecidableEq

/-- Node, node.hpp (id and name omitted). -/
structure Node where
  kind : NodeType
  heaterId : Nat
  temperature : ℝ
  capacity : ℝ
  alpha : ℝ
  epsilon : ℝ
  area : ℝ
  normal : Vec 3
  solar : ℝ
  albedo : ℝ
  infrared : ℝ

/-- Node::Node with AssertNodeParams, node.cpp:18-34, 159-192. -/
noncomputable def Node.make (kind : NodeType) (heaterId : Nat) (temperature capacity alpha epsilon area : ℝ) (normal : Vec 3) : Node where
  kind := kind
  heaterId := heaterId
  temperature := if temperature < 0 then 0 else temperature
  capacity := if capacity < 0 then 0 else capacity
  alpha := if alpha < 0 ∨ alpha > 1 then 0 else alpha
  epsilon := if epsilon < 0 ∨ epsilon > 1 then 0 else epsilon
  area := if area < 0 then 0 else area
  normal := normal
  solar := 0
  albedo := 0
  infrared := 0

/-- Node::CalcSolarRadiation_W, node.cpp:38-47. -/
noncomputable def Node.calcSolar (n : Node) (sunDir : Vec 3) (flux : ℝ) : ℝ :=
  let c := innerProduct sunDir n.normal
  if c > 0 then flux * n.area * n.alpha * c else 0

/-- `environment::earth_equatorial_radius_m`, physical_constants.hpp. -/
noncomputable def earthRadius : ℝ := 6378136.6

/-- The view factor computed identically in node.cpp:57-82 and node.cpp:101-127, from the angle `lamda` between node normal and earth direction and the distance `dist` to
the earth's centre. -/
noncomputable def viewFactor (lamda dist : ℝ) : ℝ :=
  let h := dist - earthRadius
  let H := dist / earthRadius
  let phi := Real.arcsin (1 / H)
  let b := Real.sqrt (H * H - 1)
  if h < 1732000 then
    if lamda ≤ Real.pi / 2 - phi then Real.cos lamda / H / H
    else if lamda ≤ Real.pi / 2 + phi then
      1 / 2 - 1 / Real.pi * Real.arcsin (b / (H * Real.sin lamda)) +
        1 / (Real.pi * H ^ 2) * (Real.cos lamda * Real.arccos (-b / Real.tan lamda) - b * Real.sqrt (1 - (H * Real.cos lamda) ^ 2))
    else 0
  else
    if lamda < Real.pi / 2 then 0.25 / H / H else 0

/-- Node::CalcAlbedoRadiation_W, node.cpp:49-96. -/
noncomputable def Node.calcAlbedo (n : Node) (earth : Vec 3) (sunDir : Vec 3) (albedo : ℝ) : ℝ :=
  let sat2earth := calcNormalizedVector earth
  let a := vneg sat2earth
  let b := calcNormalizedVector (vsub sunDir sat2earth)
  let c := innerProduct a b
  let v := viewFactor (Real.arccos (innerProduct sat2earth n.normal)) (calcNorm earth)
  albedo * n.area * n.alpha * (if c > 0 then v * c ^ 3 else 0)

/-- Node::CalcEarthInfraredRadiation_W, node.cpp:98-133. -/
noncomputable def Node.calcInfrared (n : Node) (earth : Vec 3) (ir : ℝ) : ℝ :=
  ir * n.area * n.epsilon * viewFactor (Real.arccos (innerProduct (calcNormalizedVector earth) n.normal)) (calcNorm earth)

/-! ## Temperature -/

/-- `environment::stefan_boltzmann_constant_W_m2K4`, physical_constants.hpp:24. -/
noncomputable def stefanBoltzmann : ℝ := 5.670374419e-8

/-- What Propagate reads from the environment. -/
structure Env where
  sunPosition : Vec 3
  earthPosition : Vec 3
  solarFlux : ℝ
  albedo : ℝ
  infrared : ℝ

/-- Temperature, temperature.hpp. -/
structure Network (n : Nat) where
  conductance : Fin n → Fin n → ℝ
  radiation : Fin n → Fin n → ℝ
  nodes : Fin n → Node
  loads : Fin n → Heatload ℝ
  heaters : List (Heater ℝ)
  controllers : List (Controller ℝ)
  step : ℝ
  time : ℝ
  enabled : Bool
  solarEnabled : Bool

/-- Temperature::GetHeaterPower_W, temperature.cpp:183-190. -/
noncomputable def Network.heaterPower {n : Nat} (s : Network n) (i : Fin n) : Res ℝ :=
  if (s.nodes i).heaterId > 0 then
    match s.heaters[(s.nodes i).heaterId - 1]? with
    | some h => .ok h.output
    | none => .ub
  else .ok 0

/-- Body of the loop of CalcTemperatureDifferentials for node `i`, temperature.cpp:147-178: the state with node `i` and its heat load updated, and the differential. The
`temperatures_K` argument of the function is unused in the code. An arithmetic node keeps the value-initialised 0. -/
noncomputable def Network.nodeDifferential {n : Nat} (s : Network n) (fuel : Nat) (t : ℝ) (e : Env) (i : Fin n) : Res (Network n × ℝ) := do
  let sunDir := calcNormalizedVector e.sunPosition
  let load ← (s.loads i).setElapsed fuel t
  let nd := s.nodes i
  match nd.kind with
  | .diffusive =>
    let solar := nd.calcSolar sunDir e.solarFlux
    let alb := nd.calcAlbedo e.earthPosition sunDir e.albedo
    let nd := if s.solarEnabled then { nd with solar := solar, albedo := alb } else nd
    let load := if s.solarEnabled then { load with albedo := alb, solar := solar } else load
    let ir := nd.calcInfrared e.earthPosition e.infrared
    let nd := { nd with infrared := ir }
    let load := { load with infrared := ir }
    let p ← s.heaterPower i
    let load ← ({ load with heater := p } : Heatload ℝ).calcInternal
    let load := load.updateTotal
    let cond := ∑ j, s.conductance i j * ((s.nodes j).temperature - (s.nodes i).temperature)
    let rad := ∑ j, stefanBoltzmann * s.radiation i j * ((s.nodes j).temperature ^ 4 - (s.nodes i).temperature ^ 4)
    .ok ({ s with nodes := Function.update s.nodes i nd, loads := Function.update s.loads i load }, (cond + rad + load.total) / nd.capacity)
  | _ => .ok ({ s with loads := Function.update s.loads i load }, 0)

/-- The loop over the nodes in `is`. -/
noncomputable def Network.diffLoop {n : Nat} (fuel : Nat) (t : ℝ) (e : Env) : List (Fin n) → Network n → (Fin n → ℝ) → Res (Network n × (Fin n → ℝ))
  | [], s, d => .ok (s, d)
  | i :: is, s, d => do
    let r ← s.nodeDifferential fuel t e i
    diffLoop fuel t e is r.1 (Function.update d i r.2)

/-- Temperature::CalcTemperatureDifferentials, temperature.cpp:139-181. -/
noncomputable def Network.differentials {n : Nat} (s : Network n) (fuel : Nat) (t : ℝ) (e : Env) : Res (Network n × (Fin n → ℝ)) :=
  Network.diffLoop fuel t e (List.finRange n) s fun _ => 0

/-- Temperature::CalcRungeOneStep, temperature.cpp:102-137. The stage temperatures `xk2`, `xk3`, `xk4` are only passed to the unused argument. -/
noncomputable def Network.rungeStep {n : Nat} (s : Network n) (fuel : Nat) (now h : ℝ) (e : Env) : Res (Network n) := do
  let temps := fun i => (s.nodes i).temperature
  let r1 ← s.differentials fuel now e
  let r2 ← r1.1.differentials fuel (now + h / 2) e
  let r3 ← r2.1.differentials fuel (now + h / 2) e
  let r4 ← r3.1.differentials fuel (now + h) e
  .ok { r4.1 with nodes := fun i => { r4.1.nodes i with temperature := temps i + h / 6 * (r1.2 i + 2 * r2.2 i + 2 * r3.2 i + r4.2 i) } }

/-- `K2degC`, physical_constants.hpp:25, 43. -/
noncomputable def k2degC (t : ℝ) : ℝ := t + -273.15

/-- Temperature::UpdateHeaterStatus, temperature.cpp:192-201, for the nodes in `is`. -/
noncomputable def updateHeaters (controllers : List (Controller ℝ)) : List Node → List (Heater ℝ) → Res (List (Heater ℝ))
  | [], hs => .ok hs
  | nd :: nds, hs =>
    if nd.heaterId > 0 then
      match hs[nd.heaterId - 1]?, controllers[nd.heaterId - 1]? with
      | some h, some c => updateHeaters controllers nds (hs.set (nd.heaterId - 1) (c.control h (k2degC nd.temperature)))
      | _, _ => .ub
    else updateHeaters controllers nds hs

/-- The while loop of Temperature::Propagate, temperature.cpp:57-60. -/
noncomputable def Network.propagateLoop {n : Nat} (lfuel : Nat) (timeEnd : ℝ) (e : Env) : Nat → Network n → Res (Network n)
  | 0, _ => .stuck
  | fuel + 1, s =>
    if timeEnd - s.time - s.step > 1e-6 then do
      let s' ← s.rungeStep lfuel s.time s.step e
      propagateLoop lfuel timeEnd e fuel { s' with time := s.time + s.step }
    else .ok s

/-- Temperature::Propagate, temperature.cpp:55-63 (without the debug print). `fuel` bounds the while loop, `lfuel` the heat load loops. -/
noncomputable def Network.propagate {n : Nat} (s : Network n) (fuel lfuel : Nat) (e : Env) (timeEnd : ℝ) : Res (Network n) :=
  if s.enabled then do
    let s ← Network.propagateLoop lfuel timeEnd e fuel s
    let s ← s.rungeStep lfuel s.time (timeEnd - s.time) e
    let hs ← updateHeaters s.controllers ((List.finRange n).map s.nodes) s.heaters
    .ok { s with time := timeEnd, heaters := hs }
  else .ok s

end S2E.Thermal
