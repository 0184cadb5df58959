import Verif.Model.LinAlg
/-!
# Heater, battery, initial-study power control unit, solar array panel and the CSV scenario table

`src/dynamics/thermal/heater.{hpp,cpp}`, `heater_controller.{hpp,cpp}`, `src/components/real/power/battery.{hpp,cpp}`, `pcu_initial_study.cpp`,
`solar_array_panel.cpp`, `csv_scenario_interface.cpp`. Doubles are exact field or real numbers; where an operation on doubles gives NaN (square root of a
negative number) the model says so with `none`, and a comparison with NaN is false. Members that a constructor leaves uninitialised are `none` and reading
them is `Res.ub`. Reading of the ini and csv files and the log strings are not modelled here.
-/
namespace S2E.Eps

variable {K : Type} [Field K] [LinearOrder K]

/-! ## Heater -/

/-- Heater, heater.hpp:26-69; `on` is `heater_status_ == kOn`. -/
structure Heater (K : Type) where
  id : Nat
  rating : K
  on : Bool
  output : K
deriving DecidableEq

/-- Heater::Heater with AssertHeaterParams, heater.cpp:10-14, 34-47. -/
def Heater.make (id : Nat) (rating : K) : Heater K where
  id := if id < 1 then id + 1 else id
  rating := if rating < 0 then 0 else rating
  on := false
  output := 0

/-- Heater::SetHeaterStatus, heater.cpp:18-25. -/
def Heater.setStatus (h : Heater K) (on : Bool) : Heater K :=
  { h with on := on, output := if on then h.rating else 0 }

/-- HeaterController, heater_controller.hpp:23-95. -/
structure Controller (K : Type) where
  lower : K
  upper : K

/-- HeaterController::HeaterController with AssertHeaterControllerParams, heater_controller.cpp:9-12, 29-36. -/
def Controller.make (lower upper : K) : Controller K where
  lower := lower
  upper := if upper < lower then lower + 10 else upper

/-- HeaterController::SetLowerThreshold / SetUpperThreshold, heater_controller.hpp:73-79 (no check). -/
def Controller.setLower (c : Controller K) (v : K) : Controller K := { c with lower := v }
def Controller.setUpper (c : Controller K) (v : K) : Controller K := { c with upper := v }

/-- HeaterController::ControlHeater, heater_controller.cpp:16-27. -/
def Controller.control (c : Controller K) (h : Heater K) (temperature : K) : Heater K :=
  if h.on then
    if temperature > c.upper then h.setStatus false else h
  else
    if temperature < c.lower then h.setStatus true else h

/-- One ControlHeater call per temperature, in order. -/
def Controller.run (c : Controller K) (h : Heater K) (temps : List K) : Heater K := temps.foldl c.control h

/-! ## Battery -/

/-- Battery, battery.hpp:112-124 with the base-class prescaler (component.cpp:9-16). -/
structure Battery (K : Type) where
  prescaler : Nat
  series : Int
  parallel : Int
  capacity : K
  coeffs : List K
  ccCurrent : K
  cvVoltage : K
  voltage : Option K
  dod : K
  current : Option K
  resistance : K
  stepTime : K

/-- Battery::Battery, battery.cpp:13-25 (the constructor battery.cpp:27-39 is the same with prescaler 10 and step 0.1; the base class takes the prescaler as `unsigned int` and replaces 0 by 1): voltage and charge current are
left uninitialised. -/
def Battery.make (prescaler series parallel : Int) (capacity : K) (coeffs : List K) (initialDod ccRate cvVoltage resistance stepTime : K) : Battery K where
  prescaler := if (prescaler % 2 ^ 32).toNat > 0 then (prescaler % 2 ^ 32).toNat else 1
  series := series
  parallel := parallel
  capacity := capacity
  coeffs := coeffs
  ccCurrent := ccRate * capacity * parallel
  cvVoltage := cvVoltage
  voltage := none
  dod := initialDod
  current := none
  resistance := resistance
  stepTime := stepTime

/-- The loop of Battery::UpdateBatVoltage, battery.cpp:83-88: `temp` accumulates `coeff * pow(x, index)`. -/
def voltageLoop (x : K) : List K → Nat → K → K
  | [], _, temp => temp
  | c :: cs, index, temp => voltageLoop x cs (index + 1) (temp + c * x ^ index)

/-- Battery::UpdateBatVoltage, battery.cpp:81-90. -/
def Battery.updateVoltage (b : Battery K) : Battery K :=
  { b with voltage := some (voltageLoop (b.dod / 100 * b.capacity) b.coeffs 0 0 * b.series) }

/-- Copy constructor of Battery, battery.cpp:41-54. -/
def Battery.copy (b : Battery K) : Battery K := ({ b with current := some 0, voltage := none } : Battery K).updateVoltage

/-- Battery::SetChargeCurrent, battery.hpp:70. -/
def Battery.setCurrent (b : Battery K) (i : K) : Battery K := { b with current := some i }

/-- Battery::MainRoutine, battery.cpp:73-79. -/
def Battery.main (b : Battery K) : Res (Battery K) :=
  match b.current with
  | none => .ub
  | some i =>
    let dt := b.stepTime * b.prescaler
    .ok ({ b with dod := b.dod - i * dt / 3600 / (b.capacity * b.parallel) * 100 } : Battery K).updateVoltage

/-- One charge current per run: SetChargeCurrent, then MainRoutine. -/
def Battery.run (b : Battery K) : List K → Res (Battery K)
  | [] => .ok b
  | i :: is => do
    let b' ← (b.setCurrent i).main
    b'.run is

/-! ## PcuInitialStudy -/

/-- `std::sqrt` on a double: NaN for negative arguments. -/
noncomputable def sqrtD (x : ℝ) : Option ℝ := if x < 0 then none else some (Real.sqrt x)

/-- `a >= b` and `a < b` where `a` may be NaN. -/
noncomputable def geD (a : Option ℝ) (b : ℝ) : Bool := match a with | none => false | some a => decide (a ≥ b)
noncomputable def ltD (a : Option ℝ) (b : ℝ) : Bool := match a with | none => false | some a => decide (a < b)

/-- Charge current given to the battery and bus voltage, either possibly NaN. -/
structure PcuOut where
  current : Option ℝ
  bus : Option ℝ

/-- PcuInitialStudy::UpdateChargeCurrentAndBusVoltage, pcu_initial_study.cpp:83-117, from the battery's limits, resistance and voltage, the generated
powers of the panels and the consumption. (The sum over panels is `generation.sum`; resistance 0 is outside the model: hypotheses exclude it.) -/
noncomputable def pcuUpdate (cc cv r v : ℝ) (generation : List ℝ) (consumption : ℝ) : PcuOut :=
  let gen := generation.foldl (· + ·) 0
  let temp := (sqrtD (v * v + 4 * r * (gen - consumption))).map fun s => (-v + s) / (2 * r)
  if geD temp cc then
    if v + cc * r < cv then ⟨some cc, some (v + r * cc)⟩
    else ⟨some ((cv - v) / r), some (v + r * (cv - v) / r)⟩
  else
    if ltD (temp.map fun t => v + t * r) cv then ⟨temp, temp.map fun t => v + r * t⟩
    else ⟨some ((cv - v) / r), some (v + r * (cv - v) / r)⟩

/-! ## CSV scenario -/

/-- `std::map<double, double>` as the list of its entries in key order. `m[k] = v`. -/
def mapInsert (k v : K) : List (K × K) → List (K × K)
  | [] => [(k, v)]
  | (k', v') :: m => if k < k' then (k, v) :: (k', v') :: m else if k' < k then (k', v') :: mapInsert k v m else (k', v) :: m

/-- CsvScenarioInterface::StoreBuffer, csv_scenario_interface.cpp:82-87; `none` is a buffer name that is not in the map of buffers. -/
def storeBuffer (col : Nat) : Option (List (K × K)) → List (List K) → Res (Option (List (K × K)))
  | buf, [] => .ok buf
  | buf, line :: data =>
    match line[0]?, line[col]? with
    | some t, some v => storeBuffer col (some (mapInsert t v (buf.getD []))) data
    | _, _ => .ub

/-- `upper_bound(t)` followed by `itr--` and dereferencing: the entry before the first one whose key is greater than `t`; `prev` is the entry before the
list. -/
def beforeUpperBound (t : K) : Option (K × K) → List (K × K) → Option (K × K)
  | prev, [] => prev
  | prev, e :: m => if t < e.1 then prev else beforeUpperBound t (some e) m

/-- CsvScenarioInterface::GetValueFromBuffer, csv_scenario_interface.cpp:89-96: `.at` throws on an unknown buffer, decrementing the begin iterator is
undefined behaviour. -/
def getValue (buf : Option (List (K × K))) (t : K) : Res K :=
  match buf with
  | none => .throws
  | some m =>
    match beforeUpperBound t none m with
    | none => .ub
    | some e => .ok e.2

/-- CsvScenarioInterface::Initialize, csv_scenario_interface.cpp:25-36: columns 1..5 of the table are stored, starting from the buffers of earlier
initialisations `bufs` (they are static). -/
def initBuffers (data : List (List K)) (bufs : Nat → Option (List (K × K))) : Res (Nat → Option (List (K × K))) := do
  let b1 ← storeBuffer 1 (bufs 1) data
  let b2 ← storeBuffer 2 (bufs 2) data
  let b3 ← storeBuffer 3 (bufs 3) data
  let b4 ← storeBuffer 4 (bufs 4) data
  let b5 ← storeBuffer 5 (bufs 5) data
  .ok fun i => if i = 1 then b1 else if i = 2 then b2 else if i = 3 then b3 else if i = 4 then b4 else if i = 5 then b5 else bufs i

/-! ## SolarArrayPanel -/

/-- SolarArrayPanel, solar_array_panel.hpp; `hasLocal` is false when the constructor without local celestial information was used, which leaves the
pointer uninitialised (solar_array_panel.cpp:33-49). -/
structure Panel where
  series : Int
  parallel : Int
  area : ℝ
  normal : Vec 3
  cellEfficiency : ℝ
  transmission : ℝ
  hasLocal : Bool
  stepTime : ℝ
  power : ℝ

/-- SolarArrayPanel::SolarArrayPanel, solar_array_panel.cpp:14-31 (and 33-49 with `hasLocal = false`, 51-68). -/
noncomputable def Panel.make (series parallel : Int) (area : ℝ) (normal : Vec 3) (cellEfficiency transmission : ℝ) (hasLocal : Bool) (stepTime : ℝ) : Panel where
  series := series
  parallel := parallel
  area := area
  normal := calcNormalizedVector normal
  cellEfficiency := cellEfficiency
  transmission := transmission
  hasLocal := hasLocal
  stepTime := stepTime
  power := 0

/-- What the panel reads from its environment: power density, solar constant, sun position in the body frame, and the scenario buffers when the CSV scenario
is enabled. -/
structure PanelEnv where
  powerDensity : ℝ
  solarConstant : ℝ
  sunPosition : Vec 3
  scenario : Option (Nat → Option (List (ℝ × ℝ)))

/-- `if (power_generation_W_ < 0) power_generation_W_ = 0.0`, solar_array_panel.cpp:117. -/
noncomputable def clipPower (p : ℝ) : ℝ := if p < 0 then 0 else p

/-- SolarArrayPanel::MainRoutine, solar_array_panel.cpp:101-118, with GetSunDirectionBody and GetSunFlag, csv_scenario_interface.cpp:41-49. -/
noncomputable def Panel.main (p : Panel) (e : PanelEnv) (timeCount : Int) : Res Panel :=
  match e.scenario with
  | some bufs => do
    let t := p.stepTime * timeCount
    let x ← getValue (bufs 1) t
    let y ← getValue (bufs 2) t
    let z ← getValue (bufs 3) t
    let flag ← getValue (bufs 4) t
    let dir : Vec 3 := calcNormalizedVector ![x, y, z]
    .ok { p with power := clipPower (p.cellEfficiency * p.transmission * e.solarConstant * (if flag ≠ 0 then 1 else 0) * p.area * p.parallel * p.series *
      innerProduct p.normal dir) }
  | none =>
    if p.hasLocal then
      .ok { p with power := clipPower (p.cellEfficiency * p.transmission * e.powerDensity * p.area * p.parallel * p.series *
        innerProduct p.normal (calcNormalizedVector e.sunPosition)) }
    else .ub

end S2E.Eps
