import Verif.Model.Uart
/-!
# UART ports of the computer for HILS tests

`src/components/ports/hils_uart_port.{hpp,cpp}`, the UART and I2C controller parts of `src/simulation/hils/hils_port_manager.cpp`, `src/components/base/i2c_controller.cpp`,
`src/components/base/uart_communication_with_obc.cpp` in HILS mode and `src/components/examples/example_i2c_controller_for_hils.cpp`, all compiled with USE_HILS.

The .NET class `SerialPort` and the line behind it are the environment. What is used of its documentation: `Open` succeeds or not (the environment's choice); a port that is not
open fails every read and write with an exception; `Read(array, 0, n)` fails if `n` exceeds the array, returns at once for `n = 0`, raises `TimeoutException` if nothing has arrived within
the 10 ms, and otherwise moves the first `min n (bytes waiting)` bytes that arrived into the array; `Write` takes all the bytes or fails (the environment's choice); opening and closing discard
what was waiting; `Marshal::Copy` raises an exception if the count exceeds the managed array. Sizes, offsets and lengths are non-negative; memory exhaustion is not modelled.
-/
namespace S2E

/-- `class HilsUartPort`, hils_uart_port.hpp:27-114, with the line behind it: bytes that arrived and were not read (`waiting`) and bytes written to the line (`sent`).
`tx_buffer_` only carries the bytes of one call and is not kept. -/
structure HilsUartPort where
  isOpen : Bool           -- port_->IsOpen (port_ null: false)
  txSize : Nat            -- kTxBufferSize
  rx : List Byte          -- rx_buffer_
  waiting : List Byte
  sent : List Byte

namespace HilsUartPort

/-- Constructor, `Initialize` and `OpenPort`, hils_uart_port.cpp:15-23, 32-51 and 66-108. `opens` is the environment's answer to `Open`. A baud rate that does not fit into an `int` makes
the constructor of `SerialPort` fail, which is caught (41-46); an array size that does not fit into an `int` raises an exception that is not. The results of `Initialize` are dropped. -/
def new (baud txSize rxSize : Nat) (opens : Bool) : Res HilsUartPort :=
  if txSize ≥ 2 ^ 31 ∨ rxSize ≥ 2 ^ 31 then .throws
  else .ok ⟨if baud ≥ 2 ^ 31 then false else opens, txSize, List.replicate rxSize 0, [], []⟩

/-- `WriteTx`, hils_uart_port.cpp:110-126. `takes` is the environment's answer to `Write`. -/
def writeTx (p : HilsUartPort) (src : List Byte) (offset len : Nat) (takes : Bool) : Res (HilsUartPort × Int) :=
  if offset + len > src.length then .ub
  else if len > p.txSize then .throws
  else if p.isOpen = false ∨ takes = false then .ok (p, -1)
  else .ok ({ p with sent := p.sent ++ (src.drop offset).take len }, 0)

/-- `ReadRx`, hils_uart_port.cpp:128-149: `data_length` bytes of `rx_buffer_` are copied, whatever `Read` returned. -/
def readRx (p : HilsUartPort) (dst : List Byte) (offset len : Nat) : Res (HilsUartPort × List Byte × Int) :=
  if p.isOpen = false then .ok (p, dst, -2)
  else if len > p.rx.length then .ok (p, dst, -2)
  else if len ≠ 0 ∧ p.waiting = [] then .ok (p, dst, -1)
  else do
    let got := p.waiting.take len
    let rx := got ++ p.rx.drop got.length
    let dst' ← memcpy dst offset rx 0 len
    .ok ({ p with rx := rx, waiting := p.waiting.drop len }, dst', (got.length : Int))

/-- The environment: bytes arrive on the line. -/
def arrive (p : HilsUartPort) (data : List Byte) : HilsUartPort :=
  if p.isOpen then { p with waiting := p.waiting ++ data } else p

end HilsUartPort

/-- The map `uart_ports_` of `HilsPortManager`, hils_port_manager.hpp. A missing key and a key mapped to `nullptr` are both `none`. -/
abbrev HilsPorts := Nat → Option HilsUartPort

namespace HilsPorts

def empty : HilsPorts := fun _ => none

/-- Assignment to one key of the map. -/
def set (m : HilsPorts) (i : Nat) (v : Option HilsUartPort) : HilsPorts := fun j => if j = i then v else m j

/-- `UartConnectComPort`, hils_port_manager.cpp:19-39; `I2cControllerConnectComPort`, 249-252. -/
def connect (m : HilsPorts) (id baud txSize rxSize : Nat) (opens : Bool) : Res (HilsPorts × Int) :=
  match m id with
  | some _ => .ok (m, -1)
  | none =>
    if baud = 0 ∨ txSize = 0 ∨ rxSize = 0 then .ok (m, -1)
    else do
      let p ← HilsUartPort.new baud txSize rxSize opens
      .ok (m.set id (some p), 0)

/-- `UartCloseComPort`, hils_port_manager.cpp:42-59; `I2cControllerCloseComPort`, 254. -/
def close (m : HilsPorts) (id : Nat) : HilsPorts × Int :=
  match m id with
  | none => (m, -1)
  | some _ => (m.set id none, 0)

/-- `UartReceive`, hils_port_manager.cpp:61-84; `I2cControllerReceive`, 256-258. -/
def receive (m : HilsPorts) (id : Nat) (dst : List Byte) (offset len : Nat) : Res (HilsPorts × List Byte × Int) :=
  match m id with
  | none => .ok (m, dst, -1)
  | some p => do
    let (p, dst', ret) ← p.readRx dst offset len
    .ok (m.set id (some p), dst', ret)

/-- `UartSend`, hils_port_manager.cpp:86-109; `I2cControllerSend`, 260-262. -/
def send (m : HilsPorts) (id : Nat) (src : List Byte) (offset len : Nat) (takes : Bool) : Res (HilsPorts × Int) :=
  match m id with
  | none => .ok (m, -1)
  | some p => do
    let (p, ret) ← p.writeTx src offset len takes
    .ok (m.set id (some p), ret)

/-- The environment: bytes arrive at a port. -/
def arrive (m : HilsPorts) (id : Nat) (data : List Byte) : HilsPorts :=
  match m id with
  | none => m
  | some p => m.set id (some (p.arrive data))

end HilsPorts

/-- `class UartCommunicationWithObc` in HILS mode, uart_communication_with_obc.hpp:31-132. -/
structure HilsComm where
  portId : Nat            -- hils_port_id_
  rxSize : Nat            -- rx_buffer_size_
  txBuf : List Byte       -- tx_buffer_
  rxBuf : List Byte       -- rx_buffer_
  isConnected : Bool      -- is_connected_

namespace HilsComm

/-- The constructor with buffer sizes and `InitializeObcComBase` in HILS mode, uart_communication_with_obc.cpp:52-68 and 108-110, 124-132. The constructors without sizes
(38-50, 70-81) are this one with 1024 and 1024. -/
def new (portId baud txSize rxSize : Nat) (m : HilsPorts) (opens : Bool) : Res (HilsComm × HilsPorts) := do
  let tx := if txSize > 1024 then 1024 else txSize
  let rx := if rxSize > 1024 then 1024 else rxSize
  let (m, ret) ← m.connect portId baud tx rx opens
  .ok (⟨portId, rx, UartComm.vectorResize [] tx, UartComm.vectorResize [] rx, if ret ≠ 0 then false else true⟩, m)

/-- Destructor in HILS mode, uart_communication_with_obc.cpp:83-84 and 96-101. -/
def delete (c : HilsComm) (m : HilsPorts) : HilsPorts :=
  if c.isConnected = false then m else (m.close c.portId).1

/-- `ReceiveCommand` in HILS mode, uart_communication_with_obc.cpp:139-143 and 151-154. -/
def receiveCommand (c : HilsComm) (m : HilsPorts) (offset recSize : Nat) : Res (HilsComm × HilsPorts × UartComm.RecvEnd) :=
  if offset > c.rxSize then .ok (c, m, .rejected)
  else if (offset + recSize) % 2 ^ 32 > c.rxSize then .ok (c, m, .rejected)
  else
    let rx := UartComm.vectorResize c.rxBuf recSize
    if rx = [] then .ub
    else do
      let (m, rx', ret) ← m.receive c.portId rx offset recSize
      let c' := { c with rxBuf := rx' }
      if ret = 0 then .ok (c', m, .noData) else .ok (c', m, .parse ret)

/-- `SendTelemetry` in HILS mode, uart_communication_with_obc.cpp:161-165 and 171-173: `tx` is the content of `tx_buffer_` after `GenerateTelemetry` and `tlmSize` the size it returned. -/
def sendTelemetry (c : HilsComm) (m : HilsPorts) (tx : List Byte) (tlmSize offset : Nat) (takes : Bool) : Res (HilsComm × HilsPorts × Int) :=
  let c := { c with txBuf := tx }
  if offset > c.rxSize then .ok (c, m, -1)
  else if (offset + tlmSize) % 2 ^ 32 > c.rxSize then .ok (c, m, -1)
  else if c.txBuf = [] then .ub
  else do
    let (m, _) ← m.send c.portId c.txBuf offset tlmSize takes
    .ok (c, m, 0)

end HilsComm

/-- `class I2cController`, i2c_controller.hpp:21-67, in HILS mode. The two vectors start empty. -/
structure HilsController where
  portId : Nat            -- hils_port_id_
  txBuf : List Byte       -- tx_buffer_
  rxBuf : List Byte       -- rx_buffer_

namespace HilsController

/-- Constructor, i2c_controller.cpp:12-24: the result of the connection is only printed. -/
def new (portId baud txSize rxSize : Nat) (m : HilsPorts) (opens : Bool) : Res (HilsController × HilsPorts) := do
  let (m, _) ← m.connect portId baud txSize rxSize opens
  .ok (⟨portId, [], []⟩, m)

/-- Destructor, i2c_controller.cpp:35-42. -/
def delete (c : HilsController) (m : HilsPorts) : HilsPorts := (m.close c.portId).1

/-- `SendCommand`, i2c_controller.cpp:49-52. -/
def sendCommand (c : HilsController) (m : HilsPorts) (length : Nat) (takes : Bool) : Res (HilsPorts × Int) :=
  if c.txBuf = [] then .ub else m.send c.portId c.txBuf 0 length takes

/-- `ReceiveTelemetry`, i2c_controller.cpp:44-47. -/
def receiveTelemetry (c : HilsController) (m : HilsPorts) (length : Nat) : Res (HilsController × HilsPorts × Int) :=
  if c.rxBuf = [] then .ub
  else do
    let (m, rx, ret) ← m.receive c.portId c.rxBuf 0 length
    .ok ({ c with rxBuf := rx }, m, ret)

/-- `ExampleI2cControllerForHils::RequestTlm`, example_i2c_controller_for_hils.cpp:25-37, hpp:65-68. -/
def requestTlm (c : HilsController) (m : HilsPorts) (takes : Bool) : Res (HilsController × HilsPorts) := do
  let c := { c with txBuf := [0x53, 0x44, 0x01, 0x00, 0x50] }
  let (m, _) ← c.sendCommand m 5 takes
  .ok (c, m)

/-- `ExampleI2cControllerForHils::Receive`, example_i2c_controller_for_hils.cpp:39-59. `reply` is what arrives at the controller's port between the sending of the command and the end of the read;
the third result is what is printed (`none`: the function returned before printing). -/
def receiveTlm (c : HilsController) (m : HilsPorts) (takes : Bool) (reply : List Byte) : Res (HilsController × HilsPorts × Option (List Byte)) := do
  let c := { c with txBuf := [0x53, 0x45, 5, 0x50] }
  let (m, _) ← c.sendCommand m 4 takes
  let m := m.arrive c.portId reply
  let c := { c with rxBuf := UartComm.vectorResize c.rxBuf 5 }
  let (c, m, ret) ← c.receiveTelemetry m 5
  if ret ≤ 0 then .ok (c, m, none) else .ok (c, m, some (c.rxBuf.take ret.toNat))

/-- `ExampleI2cControllerForHils::MainRoutine`, example_i2c_controller_for_hils.cpp:17-23. -/
def mainRoutine (c : HilsController) (m : HilsPorts) (takes₁ takes₂ : Bool) (reply : List Byte) : Res (HilsController × HilsPorts × Option (List Byte)) := do
  let (c, m) ← c.requestTlm m takes₁
  c.receiveTlm m takes₂ reply

end HilsController

namespace HilsPorts

/-- A use of the manager, or bytes arriving on a line. -/
inductive Call where
  | connect (id baud txSize rxSize : Nat) (opens : Bool)
  | close (id : Nat)
  | receive (id len : Nat)
  | send (id : Nat) (data : List Byte) (takes : Bool)
  | arrive (id : Nat) (data : List Byte)

/-- What the caller sees: the returned value and the bytes in the buffer it gave (of `len` zeros, at offset 0). -/
structure Seen where
  ret : Int
  bytes : List Byte

/-- One call. -/
def call (m : HilsPorts) : Call → Res (HilsPorts × Seen)
  | .connect id baud tx rx opens => do
    let (m, r) ← m.connect id baud tx rx opens
    .ok (m, ⟨r, []⟩)
  | .close id => .ok ((m.close id).1, ⟨(m.close id).2, []⟩)
  | .receive id len => do
    let (m, d, r) ← m.receive id (List.replicate len 0) 0 len
    .ok (m, ⟨r, d⟩)
  | .send id data takes => do
    let (m, r) ← m.send id data 0 data.length takes
    .ok (m, ⟨r, []⟩)
  | .arrive id data => .ok (m.arrive id data, ⟨0, []⟩)

/-- A history of calls, with what was seen of each. -/
def calls : HilsPorts → List Call → Res (HilsPorts × List (Call × Seen))
  | m, [] => .ok (m, [])
  | m, c :: cs => do
    let (m, s) ← m.call c
    let (m, ss) ← calls m cs
    .ok (m, (c, s) :: ss)

end HilsPorts
end S2E
