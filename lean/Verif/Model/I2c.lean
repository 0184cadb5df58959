import Verif.Model.Basic
/-!
# I2C and GPIO ports

`src/components/ports/i2c_port.{hpp,cpp}`, `gpio_port.{hpp,cpp}`, and the I2C/GPIO parts of
`src/components/real/cdh/on_board_computer.cpp` and `on_board_computer_with_c2a.cpp`,
and `src/components/base/i2c_target_communication_with_obc.cpp` (SILS mode), `gpio_connection_with_obc.cpp`.

`unsigned char` values are `UInt8`, so address arithmetic wraps as in C++. A `std::map<pair<uchar,uchar>,uchar>` accessed
only through `operator[]` is a total function with default 0.
-/
namespace S2E

/-- `class I2cPort`, i2c_port.hpp:18-111. -/
structure I2cPort where
  maxReg : Byte := 0xff                    -- max_register_number_
  saved  : Byte := 0                       -- saved_register_address_
  regs   : Byte → Byte → Byte := fun _ _ => 0   -- device_registers_
  cmds   : Byte → Byte → Byte := fun _ _ => 0   -- command_buffer_

namespace I2cPort

/-- `map[(a, r)] = v`. -/
def upd (m : Byte → Byte → Byte) (a r v : Byte) : Byte → Byte → Byte :=
  fun a' r' => if a' = a ∧ r' = r then v else m a' r'

/-- Constructors, i2c_port.cpp:12-14. -/
def new (maxReg : Byte) : I2cPort := { maxReg := maxReg }

/-- `RegisterDevice`, i2c_port.cpp:16-23. The `unsigned char` loop counters run over `0 .. max-1` and `0 .. 254`. -/
def registerDevice (p : I2cPort) (a : Byte) : I2cPort :=
  let regs := (List.range p.maxReg.toNat).foldl (fun m i => upd m a (UInt8.ofNat i) 0) p.regs
  let cmds := (List.range 255).foldl (fun m i => upd m a (UInt8.ofNat i) 0) p.cmds
  { p with regs := regs, cmds := cmds }

/-- `WriteRegister(i2c_address, register_address)`, i2c_port.cpp:25-31. -/
def setRegisterAddress (p : I2cPort) (_a r : Byte) : I2cPort × Int :=
  if r ≥ p.maxReg then (p, 0) else ({ p with saved := r }, 1)

/-- `WriteRegister(i2c_address, register_address, value)`, i2c_port.cpp:33-38. -/
def writeRegister (p : I2cPort) (a r v : Byte) : I2cPort × Int :=
  if r ≥ p.maxReg then (p, 0) else ({ p with saved := r, regs := upd p.regs a r v }, 1)

/-- `ReadRegister(i2c_address)`, i2c_port.cpp:55-60. -/
def readNext (p : I2cPort) (a : Byte) : I2cPort × Byte :=
  let ret := p.regs a p.saved
  let saved := p.saved + 1
  let saved := if saved ≥ p.maxReg then 0 else saved
  ({ p with saved := saved }, ret)

/-- `ReadRegister(i2c_address, register_address)`, i2c_port.cpp:62-67. -/
def readRegister (p : I2cPort) (a r : Byte) : I2cPort × Byte :=
  if r ≥ p.maxReg then (p, 0) else ({ p with saved := r }, p.regs a r)

/-- `WriteCommand(i2c_address, tx_data, length)`, i2c_port.cpp:69-87, with `length = data.length ≤ 255` (an `unsigned char`,
so the test against 255 never rejects). -/
def writeCommand (p : I2cPort) (a : Byte) (data : List Byte) : I2cPort × Nat :=
  if data.length > 255 then (p, 0)
  else
    let cmds := (List.range data.length).foldl (fun m i => upd m a (UInt8.ofNat i) (data.getD i 0)) p.cmds
    let p1 := { p with cmds := cmds }
    let p2 := if data.length = 1 then (p1.setRegisterAddress a (data.getD 0 0)).1 else p1
    let p3 := if data.length = 2 then (p2.writeRegister a (data.getD 0 0) (data.getD 1 0)).1 else p2
    (p3, data.length)

/-- `ReadCommand(i2c_address, rx_data, length)`, i2c_port.cpp:89-97: the bytes stored to `rx_data`. -/
def readCommand (p : I2cPort) (a : Byte) (length : Nat) : List Byte :=
  if length > 255 then [] else (List.range length).map fun i => p.cmds a (UInt8.ofNat i)

end I2cPort

/-- The map `i2c_ports_` / `i2c_com_ports_c2a_`; `none` is a missing or null entry. -/
abbrev ObcI2c := Int → Option I2cPort

namespace ObcI2c

/-- Assignment to one key. -/
def set (o : ObcI2c) (p : Int) (v : Option I2cPort) : ObcI2c := fun q => if q = p then v else o q

/-- `I2cConnectPort`, on_board_computer.cpp:74-83, on_board_computer_with_c2a.cpp:136-145. -/
def connectPort (o : ObcI2c) (port : Int) (a : Byte) : ObcI2c × Int :=
  match o port with
  | some p => (o.set port (some (p.registerDevice a)), 0)
  | none => (o.set port (some (({} : I2cPort).registerDevice a)), 0)

/-- `I2cCloseComPort`, on_board_computer.cpp:85-93, on_board_computer_with_c2a.cpp:147-155. -/
def closePort (o : ObcI2c) (port : Int) : ObcI2c × Int :=
  match o port with
  | none => (o, -1)
  | some _ => (o.set port none, 0)

/-- `OnBoardComputer::I2cComponentWriteRegister`, on_board_computer.cpp:95-102: every byte goes to the same register.
A call through a null port pointer is undefined behaviour. `length = data.length`. -/
def plainWriteRegister (o : ObcI2c) (port : Int) (a r : Byte) (data : List Byte) : Res ObcI2c :=
  match o port with
  | none => if data = [] then .ok o else .ub
  | some p => .ok (o.set port (some (data.foldl (fun p v => (p.writeRegister a r v).1) p)))

/-- The reading loops: `n` reads of `read i`, threading the port. -/
def readLoop (read : I2cPort → Nat → I2cPort × Byte) : Nat → Nat → I2cPort → I2cPort × List Byte
  | 0, _, p => (p, [])
  | n + 1, i, p =>
    let (p1, b) := read p i
    let (p2, bs) := readLoop read n (i + 1) p1
    (p2, b :: bs)

/-- `OnBoardComputer::I2cComponentReadRegister`, on_board_computer.cpp:103-110: the two addresses are exchanged in the call
of `ReadRegister`. The result is the content of `data[0..length)`. -/
def plainReadRegister (o : ObcI2c) (port : Int) (a r : Byte) (length : Nat) : Res (ObcI2c × List Byte) :=
  match o port with
  | none => if length = 0 then .ok (o, []) else .ub
  | some p =>
    let (p', bs) := readLoop (fun p _ => p.readRegister r a) length 0 p
    .ok (o.set port (some p'), bs)

/-- The writing loop of `ObcWithC2a`: byte `i` goes to `register_address + i` (8-bit). -/
def writeLoop (a r : Byte) : Nat → I2cPort → List Byte → I2cPort
  | _, p, [] => p
  | i, p, v :: vs => writeLoop a r (i + 1) (p.writeRegister a (r + UInt8.ofNat i) v).1 vs

/-- `ObcWithC2a::I2cComponentWriteRegister`, on_board_computer_with_c2a.cpp:184-191. -/
def c2aWriteRegister (o : ObcI2c) (port : Int) (a r : Byte) (data : List Byte) : Res ObcI2c :=
  match o port with
  | none => if data = [] then .ok o else .ub
  | some p => .ok (o.set port (some (writeLoop a r 0 p data)))

/-- `ObcWithC2a::I2cComponentReadRegister`, on_board_computer_with_c2a.cpp:192-199. -/
def c2aReadRegister (o : ObcI2c) (port : Int) (a r : Byte) (length : Nat) : Res (ObcI2c × List Byte) :=
  match o port with
  | none => if length = 0 then .ok (o, []) else .ub
  | some p =>
    let (p', bs) := readLoop (fun p i => p.readRegister a (r + UInt8.ofNat i)) length 0 p
    .ok (o.set port (some p'), bs)

/-- `ObcWithC2a::I2cWriteCommand`, on_board_computer_with_c2a.cpp:157-161. -/
def c2aWriteCommand (o : ObcI2c) (port : Int) (a : Byte) (data : List Byte) : Res ObcI2c :=
  match o port with
  | none => .ub
  | some p => .ok (o.set port (some (p.writeCommand a data).1))

/-- `ObcWithC2a::I2cWriteRegister` (the OBC side), on_board_computer_with_c2a.cpp:163-174. -/
def c2aObcWriteRegister (o : ObcI2c) (port : Int) (a : Byte) (data : List Byte) : Res ObcI2c :=
  match o port, data with
  | none, [] => .ok o
  | none, _ :: _ => .ub
  | some _, [] => .ok o
  | some p, [r] => .ok (o.set port (some (p.setRegisterAddress a r).1))
  | some p, r :: vs => .ok (o.set port (some (writeLoop a r 0 p vs)))

/-- `ObcWithC2a::I2cReadRegister` (the OBC side), on_board_computer_with_c2a.cpp:176-182. -/
def c2aObcReadRegister (o : ObcI2c) (port : Int) (a : Byte) (length : Nat) : Res (ObcI2c × List Byte) :=
  match o port with
  | none => if length = 0 then .ok (o, []) else .ub
  | some p =>
    let (p', bs) := readLoop (fun p _ => p.readNext a) length 0 p
    .ok (o.set port (some p'), bs)

end ObcI2c

/-- `class GpioPort`, gpio_port.hpp:20-54. `attached` says whether `component_` is not null. -/
structure GpioPort where
  portId : Nat
  attached : Bool
  high : Bool

namespace GpioPort

/-- Constructor, gpio_port.cpp:10-13. -/
def new (portId : Nat) (attached : Bool) : GpioPort := { portId := portId, attached := attached, high := false }

/-- `DigitalWrite`, gpio_port.cpp:17-26. Second result: calls `GpioStateChanged(port_id, level)` made; third: return value. -/
def digitalWrite (g : GpioPort) (isHigh : Bool) : GpioPort × List (Nat × Bool) × Int :=
  let calls := if g.high ≠ isHigh then (if g.attached then [(g.portId, isHigh)] else []) else []
  ({ g with high := isHigh }, calls, 0)

/-- `DigitalRead`, gpio_port.cpp:28. -/
def digitalRead (g : GpioPort) : Bool := g.high

end GpioPort

/-- The map `gpio_ports_` / `gpio_ports_c2a_`. -/
abbrev ObcGpio := Int → Option GpioPort

namespace ObcGpio

/-- `GpioConnectPort`, on_board_computer.cpp:117-124, on_board_computer_with_c2a.cpp:206-213. -/
def connectPort (o : ObcGpio) (port : Int) : ObcGpio × Int :=
  match o port with
  | some _ => (o, -1)
  | none => (fun q => if q = port then some (GpioPort.new port.toNat false) else o q, 0)

/-- `GpioComponentWrite` (and `GpioWrite_C2A`), on_board_computer.cpp:126-130, on_board_computer_with_c2a.cpp:215-219,227-231. -/
def write (o : ObcGpio) (port : Int) (isHigh : Bool) : ObcGpio × Int :=
  match o port with
  | none => (o, -1)
  | some g =>
    let (g', _, ret) := g.digitalWrite isHigh
    (fun q => if q = port then some g' else o q, ret)

/-- `GpioComponentRead` (and `GpioRead_C2A`), on_board_computer.cpp:132-136, on_board_computer_with_c2a.cpp:221-225,233-237. -/
def read (o : ObcGpio) (port : Int) : Bool :=
  match o port with
  | none => false
  | some g => g.digitalRead

end ObcGpio
end S2E
