import Verif.Model.RingBuffer
/-!
# UART ports of the on-board computer and of components

`src/components/ports/uart_port.{hpp,cpp}`, the UART part of `src/components/real/cdh/on_board_computer.cpp` and of
`on_board_computer_with_c2a.cpp` (textually identical code over a static map), and
`src/components/base/uart_communication_with_obc.{hpp,cpp}` in SILS mode.

Sizes, offsets and lengths are non-negative (`Nat`); the `int` → `unsigned int` conversions of negative arguments are not
modelled, except for the 32-bit wrap of `offset + size` in the component's range checks.
-/
namespace S2E

/-- `class UartPort`, uart_port.hpp:18-81. -/
structure UartPort where
  rx : RingBuffer      -- rx_buffer_ (Component -> OBC)
  tx : RingBuffer      -- tx_buffer_ (OBC -> Component)

namespace UartPort

/-- `kDefaultBufferSize`, uart_port.hpp:77. -/
def defaultBufferSize : Nat := 1024

/-- Constructor, uart_port.cpp:12-19. -/
def new (rxSize txSize : Nat) (garbage : Nat → Byte) : UartPort :=
  let checkedRx := if rxSize = 0 then defaultBufferSize else rxSize
  let checkedTx := if txSize = 0 then defaultBufferSize else txSize
  { rx := RingBuffer.new checkedRx garbage, tx := RingBuffer.new checkedTx garbage }

/-- `WriteTx`, uart_port.cpp:26-28. -/
def writeTx (p : UartPort) (src : List Byte) (offset len : Nat) : Res (UartPort × Nat) := do
  let (b, n) ← p.tx.write src offset len
  .ok ({ p with tx := b }, n)

/-- `WriteRx`, uart_port.cpp:30-32. -/
def writeRx (p : UartPort) (src : List Byte) (offset len : Nat) : Res (UartPort × Nat) := do
  let (b, n) ← p.rx.write src offset len
  .ok ({ p with rx := b }, n)

/-- `ReadTx`, uart_port.cpp:34-36. -/
def readTx (p : UartPort) (dst : List Byte) (offset len : Nat) : Res (UartPort × List Byte × Nat) := do
  let (b, dst', n) ← p.tx.read dst offset len
  .ok ({ p with tx := b }, dst', n)

/-- `ReadRx`, uart_port.cpp:38-40. -/
def readRx (p : UartPort) (dst : List Byte) (offset len : Nat) : Res (UartPort × List Byte × Nat) := do
  let (b, dst', n) ← p.rx.read dst offset len
  .ok ({ p with rx := b }, dst', n)

end UartPort

/-- The map `uart_ports_` (on_board_computer.hpp) / `com_ports_c2a_` (on_board_computer_with_c2a.cpp:31).
A missing key and a key mapped to `nullptr` (which `operator[]` inserts) are both `none`. -/
abbrev ObcUart := Int → Option UartPort

namespace ObcUart

/-- No port is connected. -/
def empty : ObcUart := fun _ => none

/-- Assignment to one key of the map. -/
def set (o : ObcUart) (p : Int) (v : Option UartPort) : ObcUart := fun q => if q = p then v else o q

/-- `ConnectComPort`, on_board_computer.cpp:30-37 and on_board_computer_with_c2a.cpp:84-91: the sizes are passed to
`UartPort(rx, tx)` in the order `(tx, rx)`. -/
def connectComPort (o : ObcUart) (port : Int) (txSize rxSize : Nat) (garbage : Nat → Byte) : ObcUart × Int :=
  match o port with
  | some _ => (o, -1)
  | none => (o.set port (some (UartPort.new txSize rxSize garbage)), 0)

/-- `CloseComPort`, on_board_computer.cpp:40-48, on_board_computer_with_c2a.cpp:94-102. -/
def closeComPort (o : ObcUart) (port : Int) : ObcUart × Int :=
  match o port with
  | none => (o, -1)
  | some _ => (o.set port none, 0)

/-- `SendFromObc`, on_board_computer.cpp:50-54, on_board_computer_with_c2a.cpp:125-129. -/
def sendFromObc (o : ObcUart) (port : Int) (src : List Byte) (offset len : Nat) : Res (ObcUart × Int) :=
  match o port with
  | none => .ok (o, -1)
  | some p => do
    let (p', n) ← p.writeTx src offset len
    .ok (o.set port (some p'), n)

/-- `ReceivedByCompo`, on_board_computer.cpp:56-60, on_board_computer_with_c2a.cpp:108-112. -/
def receivedByCompo (o : ObcUart) (port : Int) (dst : List Byte) (offset len : Nat) : Res (ObcUart × List Byte × Int) :=
  match o port with
  | none => .ok (o, dst, -1)
  | some p => do
    let (p', dst', n) ← p.readTx dst offset len
    .ok (o.set port (some p'), dst', n)

/-- `SendFromCompo`, on_board_computer.cpp:62-66, on_board_computer_with_c2a.cpp:114-118. -/
def sendFromCompo (o : ObcUart) (port : Int) (src : List Byte) (offset len : Nat) : Res (ObcUart × Int) :=
  match o port with
  | none => .ok (o, -1)
  | some p => do
    let (p', n) ← p.writeRx src offset len
    .ok (o.set port (some p'), n)

/-- `ReceivedByObc`, on_board_computer.cpp:68-72, on_board_computer_with_c2a.cpp:130-134. -/
def receivedByObc (o : ObcUart) (port : Int) (dst : List Byte) (offset len : Nat) : Res (ObcUart × List Byte × Int) :=
  match o port with
  | none => .ok (o, dst, -1)
  | some p => do
    let (p', dst', n) ← p.readRx dst offset len
    .ok (o.set port (some p'), dst', n)

end ObcUart

/-- `class UartCommunicationWithObc` in SILS mode, uart_communication_with_obc.hpp:31-132. -/
structure UartComm where
  portId : Int            -- sils_port_id_
  txSize : Nat            -- tx_buffer_size_
  rxSize : Nat            -- rx_buffer_size_
  txBuf : List Byte       -- tx_buffer_
  rxBuf : List Byte       -- rx_buffer_
  isConnected : Bool      -- is_connected_

namespace UartComm

/-- `std::vector<unsigned char>::resize(n)`: truncates or appends zeros. -/
def vectorResize (v : List Byte) (n : Nat) : List Byte := v.take n ++ List.replicate (n - v.length) 0

/-- The constructor with buffer sizes and `InitializeObcComBase` in SILS mode,
uart_communication_with_obc.cpp:24-36 and 108-123. -/
def new (portId : Int) (txSize rxSize : Nat) (obc : ObcUart) (garbage : Nat → Byte) : UartComm × ObcUart :=
  let tx := if txSize > 1024 then 1024 else txSize
  let rx := if rxSize > 1024 then 1024 else rxSize
  let (obc', ret) := obc.connectComPort portId tx rx garbage
  ({ portId := portId, txSize := tx, rxSize := rx, txBuf := vectorResize [] tx, rxBuf := vectorResize [] rx,
     isConnected := if ret ≠ 0 then false else true }, obc')

/-- Destructor in SILS mode, uart_communication_with_obc.cpp:83-95. -/
def delete (c : UartComm) (obc : ObcUart) : ObcUart :=
  if c.isConnected = false then obc else (obc.closeComPort c.portId).1

/-- How `ReceiveCommand` ends: it returns `-1`, returns `0`, or hands a size to the virtual `ParseCommand`. -/
inductive RecvEnd where
  | rejected
  | noData
  | parse (size : Int)
  deriving Repr, DecidableEq

/-- `ReceiveCommand`, uart_communication_with_obc.cpp:139-160, SILS mode. `offset + rec_size` is computed in 32 bits.
`&rx_buffer_.front()` of an empty vector is undefined behaviour. -/
def receiveCommand (c : UartComm) (obc : ObcUart) (offset recSize : Nat) : Res (UartComm × ObcUart × RecvEnd) :=
  if offset > c.rxSize then .ok (c, obc, .rejected)
  else if (offset + recSize) % 2 ^ 32 > c.rxSize then .ok (c, obc, .rejected)
  else
    let rx := vectorResize c.rxBuf recSize
    if rx = [] then .ub
    else do
      let (obc', rx', ret) ← obc.receivedByCompo c.portId rx offset recSize
      let c' := { c with rxBuf := rx' }
      if ret = 0 then .ok (c', obc', .noData) else .ok (c', obc', .parse ret)

/-- `SendTelemetry`, uart_communication_with_obc.cpp:161-178, SILS mode. `tx` is the content of `tx_buffer_` after the
virtual `GenerateTelemetry` filled it and `tlmSize` the size it returned. The result is the return value. -/
def sendTelemetry (c : UartComm) (obc : ObcUart) (tx : List Byte) (tlmSize offset : Nat) :
    Res (UartComm × ObcUart × Int) :=
  let c := { c with txBuf := tx }
  if offset > c.rxSize then .ok (c, obc, -1)
  else if (offset + tlmSize) % 2 ^ 32 > c.rxSize then .ok (c, obc, -1)
  else if c.txBuf = [] then .ub
  else do
    let (obc', _) ← obc.sendFromCompo c.portId c.txBuf offset tlmSize
    .ok (c, obc', 0)

end UartComm
end S2E
