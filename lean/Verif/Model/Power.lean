import Verif.Model.Basic
import Mathlib.Algebra.Order.Field.Basic
/-!
# `src/components/ports/power_port.cpp`, `power_port.hpp` and `src/components/real/power/power_control_unit.cpp`

`K` is any linearly ordered field (exact arithmetic in place of IEEE doubles). The quotient of a division by zero is an arbitrary
value chosen by the parameter `div0` (IEEE gives an infinity or NaN); the theorems that need it exclude the case.
-/
namespace S2E

variable {K : Type} [Field K] [LinearOrder K]

/-- Double division; `div0` supplies the unspecified quotient of a zero divisor. -/
def divD (div0 : K → K) (a b : K) : K := if b = 0 then div0 a else a / b

/-- Members of `PowerPort`, power_port.hpp:120-129 (`kPortId` is unused by the class and dropped). -/
structure PowerPort (K : Type) where
  limit : K      -- current_limit_A_
  minV : K       -- minimum_voltage_V_
  power : K      -- assumed_power_consumption_W_
  volt : K       -- voltage_V_
  cur : K        -- current_consumption_A_
  on : Bool      -- is_on_
  deriving Repr, DecidableEq

/-- `PowerPort()`, power_port.cpp:14-17 with `Initialize`, 34-38. -/
def PowerPort.newDefault : PowerPort K := ⟨10, 33 / 10, 0, 0, 0, true⟩

/-- `PowerPort(port_id, current_limit_A)`, power_port.cpp:19-22. `is_on_` is not initialised: its first value is `g`. -/
def PowerPort.new2 (limit : K) (g : Bool) : PowerPort K := ⟨limit, 33 / 10, 0, 0, 0, g⟩

/-- `PowerPort(port_id, current_limit_A, minimum_voltage_V, assumed_power_consumption_W)`, power_port.cpp:24-30. -/
def PowerPort.new4 (limit minV power : K) (g : Bool) : PowerPort K := ⟨limit, minV, power, 0, 0, g⟩

/-- First part of `Update`, power_port.cpp:42-48. `eps` is `DBL_EPSILON`. -/
def PowerPort.switch (div0 : K → K) (eps : K) (p : PowerPort K) : PowerPort K :=
  if p.volt ≥ p.minV - eps then { p with on := true, cur := divD div0 p.power p.volt }
  else { p with cur := 0, on := false }

/-- Second part of `Update`, power_port.cpp:50-54. -/
def PowerPort.overCurrent (eps : K) (p : PowerPort K) : PowerPort K :=
  if p.cur ≥ p.limit - eps then { p with cur := 0, volt := 0, on := false } else p

/-- `Update`, power_port.cpp:40-56; the return value is the `on` field of the result. -/
def PowerPort.update (div0 : K → K) (eps : K) (p : PowerPort K) : PowerPort K :=
  (p.switch div0 eps).overCurrent eps

/-- `SetVoltage_V`, power_port.cpp:58-62; the return value is the `on` field of the result. -/
def PowerPort.setVoltage (div0 : K → K) (eps v : K) (p : PowerPort K) : PowerPort K :=
  ({ p with volt := v } : PowerPort K).update div0 eps

/-- `SetAssumedPowerConsumption_W`, power_port.hpp:89. -/
def PowerPort.setPower (w : K) (p : PowerPort K) : PowerPort K := { p with power := w }

/-- `SetMinimumVoltage_V`, power_port.hpp:94. -/
def PowerPort.setMin (v : K) (p : PowerPort K) : PowerPort K := { p with minV := v }

/-- `SetCurrentLimit_A`, power_port.hpp:99. -/
def PowerPort.setLimit (a : K) (p : PowerPort K) : PowerPort K := { p with limit := a }

/-- `AddAssumedPowerConsumption_W`, power_port.hpp:106. -/
def PowerPort.addPower (w : K) (p : PowerPort K) : PowerPort K := { p with power := p.power + w }

/-- `SubtractAssumedPowerConsumption_W`, power_port.cpp:64-68. -/
def PowerPort.subPower (w : K) (p : PowerPort K) : PowerPort K :=
  let q := { p with power := p.power - w }
  if q.power < 0 then { q with power := 0 } else q

/-- The mutating calls a client can make on a port. -/
inductive PowerOp (K : Type) where
  | update
  | setVoltage (v : K)
  | setPower (w : K)
  | setMin (v : K)
  | setLimit (a : K)
  | addPower (w : K)
  | subPower (w : K)
  deriving Repr

/-- Dispatch of one call (no counterpart of its own in the C++ code). -/
def PowerPort.apply (div0 : K → K) (eps : K) (p : PowerPort K) : PowerOp K → PowerPort K
  | .update => p.update div0 eps
  | .setVoltage v => p.setVoltage div0 eps v
  | .setPower w => p.setPower w
  | .setMin v => p.setMin v
  | .setLimit a => p.setLimit a
  | .addPower w => p.addPower w
  | .subPower w => p.subPower w

/-! ## `PowerControlUnit` -/

/-- `std::map<int, PowerPort*> power_ports_`, power_control_unit.hpp:97: no entry, a null entry (left behind by
`operator[]`), or a port. -/
abbrev PcuTable (K : Type) := Int → Option (Option (PowerPort K))

/-- Assigning one key of the map. -/
def PcuTable.put (t : PcuTable K) (id : Int) (e : Option (Option (PowerPort K))) : PcuTable K :=
  fun q => if q = id then e else t q

/-- `power_ports_[port_id]` as an rvalue: a missing entry is created holding the null pointer. -/
def PcuTable.index (t : PcuTable K) (id : Int) : PcuTable K × Option (PowerPort K) :=
  match t id with
  | some e => (t, e)
  | none => (t.put id (some none), none)

/-- `ConnectPort`, power_control_unit.cpp:21-27 and 29-36; `port` is the object the respective constructor call creates. -/
def PcuTable.connect (t : PcuTable K) (id : Int) (port : PowerPort K) : PcuTable K × Int :=
  match t.index id with
  | (t, some _) => (t, -1)
  | (t, none) => (t.put id (some (some port)), 0)

/-- `ClosePort`, power_control_unit.cpp:38-46. -/
def PcuTable.close (t : PcuTable K) (id : Int) : PcuTable K × Int :=
  match t.index id with
  | (t, none) => (t, -1)
  | (t, some _) => (t.put id none, 0)

/-- `GetPowerPort(id)` followed by a call on the returned port, power_control_unit.hpp:66: `at` throws on a missing entry,
using the null pointer is undefined. -/
def PcuTable.onPort (div0 : K → K) (eps : K) (t : PcuTable K) (id : Int) (op : PowerOp K) : Res (PcuTable K) :=
  match t id with
  | none => .throws
  | some none => .ub
  | some (some p) => .ok (t.put id (some (some (p.apply div0 eps op))))

end S2E
