import Verif.Model.Basic
/-!
# HILS I2C target port

`src/components/ports/hils_i2c_target_port.{hpp,cpp}`, the I2C target part of `src/simulation/hils/hils_port_manager.cpp` (compiled with USE_HILS), the
HILS branches of `src/components/base/i2c_target_communication_with_obc.cpp` and the main routine of
`src/components/examples/example_i2c_target_for_hils.cpp`.

The serial port itself (.NET `SerialPort`, hils_uart_port.cpp) is the environment: each use of it returns a value chosen by the environment and is an argument
of the operation. Written frames are recorded in `sent`. Maps accessed through `operator[]` are total functions with default 0. `unsigned char` arithmetic on
register addresses is modulo 256, the frame counter is a 32-bit `unsigned int`.
-/
namespace S2E.HilsI2c

/-- HilsI2cTargetPort, hils_i2c_target_port.hpp:90-100. -/
structure Port where
  maxReg : Byte := 0xff
  saved : Byte := 0
  counter : UInt32 := 0
  regs : Byte → Byte := fun _ => 0
  cmd : Byte → Byte := fun _ => 0
  sent : List (List Byte) := []

/-- What the serial port answers to one Receive: `GetBytesToRead()` and then `ReadRx` — the bytes received (at most the 255 asked for) or a negative code
(hils_uart_port.cpp:128-164). -/
structure SerialRead where
  avail : Int
  data : Option (List Byte)

def upd (m : Byte → Byte) (r v : Byte) : Byte → Byte := fun r' => if r' = r then v else m r'

/-- Constructors, hils_i2c_target_port.cpp:13-17, followed by RegisterDevice, :21-28, which writes zeros over zeros. -/
def new (maxReg : Byte) : Port := { maxReg := maxReg }

/-- WriteRegister(register_address), hils_i2c_target_port.cpp:30-34. -/
def setRegisterAddress (p : Port) (r : Byte) : Port := if r ≥ p.maxReg then p else { p with saved := r }

/-- WriteRegister(register_address, value), hils_i2c_target_port.cpp:36-41. -/
def writeRegister (p : Port) (r v : Byte) : Port := if r ≥ p.maxReg then p else { p with saved := r, regs := upd p.regs r v }

/-- ReadRegister, hils_i2c_target_port.cpp:43-48. -/
def readRegister (p : Port) (r : Byte) : Port × Byte := if r ≥ p.maxReg then (p, 0) else ({ p with saved := r }, p.regs r)

/-- ReadCommand, hils_i2c_target_port.cpp:50-58: the bytes copied to the caller and the return value. -/
def readCommand (p : Port) (length : Nat) : List Byte × Int :=
  if length > 255 then ([], -1) else ((List.range length).map fun i => p.cmd (UInt8.ofNat i), length)

/-- The copy loop of Receive, hils_i2c_target_port.cpp:72-74. -/
def storeCommand (cmd : Byte → Byte) (data : List Byte) : Byte → Byte :=
  (List.range data.length).foldl (fun m i => upd m (UInt8.ofNat i) (data.getD i 0)) cmd

/-- Receive, hils_i2c_target_port.cpp:60-89. A negative code from ReadRx is greater than 255 as `unsigned int`, so -1 is returned. -/
def receive (p : Port) (s : SerialRead) : Port × Int :=
  if s.avail ≤ 0 then (p, -1)
  else match s.data with
  | none => (p, -1)
  | some data =>
    let p := { p with cmd := storeCommand p.cmd data }
    let p := if data.length = 1 then
        let p := setRegisterAddress p (data.getD 0 0)
        if p.counter > 0 then { p with counter := p.counter - 1 } else p
      else p
    let p := if data.length = 2 then writeRegister p (data.getD 0 0) (data.getD 1 0) else p
    (p, data.length)

/-- Send, hils_i2c_target_port.cpp:91-107; `writeOk` is whether `SerialPort::Write` succeeds. -/
def send (p : Port) (length : Byte) (writeOk : Bool) : Port × Int :=
  if p.saved.toNat + length.toNat > p.maxReg.toNat then (p, -1)
  else
    let frame := (List.range length.toNat).map fun i => p.regs (UInt8.ofNat (p.saved.toNat + i))
    ({ p with counter := p.counter + 1, sent := if writeOk then p.sent ++ [frame] else p.sent }, if writeOk then 0 else -1)

/-- HilsPortManager::I2cTargetWriteRegister, hils_port_manager.cpp:146-163. -/
def writeBlock (p : Port) (r : Byte) (data : List Byte) : Port :=
  (List.range data.length).foldl (fun p i => writeRegister p (r + UInt8.ofNat i) (data.getD i 0)) p

/-- HilsPortManager::I2cTargetReadRegister, hils_port_manager.cpp:165-182. -/
def readBlock (p : Port) (r : Byte) (length : Nat) : Port × List Byte :=
  (List.range length).foldl (fun (q : Port × List Byte) i =>
    let q' := readRegister q.1 (r + UInt8.ofNat i)
    (q'.1, q.2 ++ [q'.2])) (p, [])

/-- The loop of StoreTelemetry, i2c_target_communication_with_obc.cpp:163-165: one SendTelemetry per element, with the serial port's answers. -/
def sendAll (p : Port) (size : Byte) : List Bool → Port
  | [] => p
  | ok :: oks => sendAll (send p size ok).1 size oks

/-- StoreTelemetry, i2c_target_communication_with_obc.cpp:157-167, in HILS mode. `additional_frame_num` is the 32-bit difference read as `int`; `oks i` is the
serial port's answer to the i-th send. -/
def storeTelemetry (p : Port) (frames : UInt32) (size : Byte) (oks : Nat → Bool) : Port × Int :=
  let diff := frames - p.counter
  let additional : Int := if diff.toNat < 2 ^ 31 then diff.toNat else (diff.toNat : Int) - 2 ^ 32
  if additional ≤ 0 then (p, -1)
  else (sendAll p size ((List.range additional.toNat).map oks), 0)

/-- Operations on a port: by the component (first four) and by the other side of the serial line through Receive. -/
inductive Op where
  | writeRegister (r v : Byte)
  | readRegister (r : Byte)
  | send (length : Byte) (writeOk : Bool)
  | receive (s : SerialRead)

def step (p : Port) : Op → Port
  | .writeRegister r v => writeRegister p r v
  | .readRegister r => (readRegister p r).1
  | .send n ok => (send p n ok).1
  | .receive s => (receive p s).1

def run (p : Port) (ops : List Op) : Port := ops.foldl step p

/-- ExampleI2cTargetForHils::MainRoutine, example_i2c_target_for_hils.cpp:17-43: telemetry `tlm`, one serial read, then sends up to three stored frames. -/
def exampleMain (p : Port) (tlm : List Byte) (s : SerialRead) (oks : Nat → Bool) : Port :=
  let p := writeBlock p 0 tlm
  let p := (receive p s).1
  let additional : Int := 3 - (p.counter.toNat : Int)
  if additional ≤ 0 then p else sendAll p 5 ((List.range additional.toNat).map oks)

end S2E.HilsI2c
