import Verif.Model.SerialExample
/-!
# The example component for HILS, in SILS mode

`src/components/examples/example_serial_communication_for_hils.{hpp,cpp}` built without USE_HILS: the constructor then selects SILS mode
(uart_communication_with_obc.cpp:71-82) and the component talks to the on-board computer through Model/Uart.

`char` values are modelled by their 8 bits: every conversion in the two functions is between `char` and `unsigned char` and keeps them; `(char)('A' + counter_ + i)` is the
sum modulo 256.
-/
namespace S2E

/-- `class ExampleSerialCommunicationForHils`, example_serial_communication_for_hils.hpp:25-75. -/
structure SerialHils where
  comm : UartComm
  memory : List Byte      -- memory_
  mode : Int              -- mode_id_
  counter : Nat           -- counter_

namespace SerialHils

/-- `kMemorySize` and `kNumAlphabet`, example_serial_communication_for_hils.hpp:54-55. -/
def memorySize : Nat := 4
def numAlphabet : Nat := 26

/-- The constructor, example_serial_communication_for_hils.cpp:11-15, with buffers of the default size. -/
def new (portId : Int) (mode : Int) (obc : ObcUart) (garbage : Nat → Byte) : SerialHils × ObcUart :=
  let r := UartComm.new portId 1024 1024 obc garbage
  (⟨r.1, [0, 0, 0, 0], mode, 0⟩, r.2)

/-- `ParseCommand`, example_serial_communication_for_hils.cpp:19-33; the printing of mode 0 is not modelled, except that it reads three elements. -/
def parseCommand (s : SerialHils) : Res SerialHils :=
  if s.mode = 1 then
    if s.comm.rxBuf.length < memorySize then .ub
    else .ok { s with memory := (s.comm.rxBuf.take memorySize).set (memorySize - 1) 0 }
  else if s.mode = 0 then (if s.comm.rxBuf.length < 3 then .ub else .ok s)
  else .ok s

/-- The end of `ReceiveCommand`, uart_communication_with_obc.cpp:148-150. -/
def received (s : SerialHils) : UartComm.RecvEnd → Res SerialHils
  | .parse _ => s.parseCommand
  | _ => .ok s

/-- `GenerateTelemetry`, example_serial_communication_for_hils.cpp:35-57: the new state, the content of `tx_buffer_` and the size returned (`sizeof(tx_)`). -/
def generateTelemetry (s : SerialHils) : SerialHils × List Byte × Nat :=
  if s.mode = 0 then
    let tx := ((List.range memorySize).map fun i => (UInt8.ofNat (65 + s.counter + i))).set (memorySize - 1) 0
    let c := s.counter + 1
    let c := if c > numAlphabet - (memorySize - 1) then 0 else c
    ({ s with counter := c }, tx, memorySize)
  else if s.mode = 1 then (s, s.memory, memorySize)
  else (s, s.comm.txBuf, 0)

/-- `MainRoutine`, example_serial_communication_for_hils.cpp:59-64. -/
def mainRoutine (s : SerialHils) (obc : ObcUart) : Res (SerialHils × ObcUart) := do
  let (c, obc, r) ← s.comm.receiveCommand obc 0 memorySize
  let s ← ({ s with comm := c } : SerialHils).received r
  let (s, tx, n) := s.generateTelemetry
  let (c, obc, _) ← s.comm.sendTelemetry obc tx n 0
  .ok ({ s with comm := c }, obc)

/-- One action at the port; the observation is what the flight software received. -/
def act (s : SerialHils) (obc : ObcUart) : SerialExample.Action → Res (SerialHils × ObcUart × List Byte)
  | .send data => do
    let (obc, _) ← obc.sendFromObc s.comm.portId data 0 data.length
    .ok (s, obc, [])
  | .receive n => do
    let (obc, dst, k) ← obc.receivedByObc s.comm.portId (List.replicate n 0) 0 n
    .ok (s, obc, dst.take k.toNat)
  | .tick => do
    let (s, obc) ← s.mainRoutine obc
    .ok (s, obc, [])

/-- All observations of a history. -/
def acts : SerialHils → ObcUart → List SerialExample.Action → Res (List (List Byte))
  | _, _, [] => .ok []
  | s, obc, a :: as => do
    let (s, obc, o) ← s.act obc a
    let os ← acts s obc as
    .ok (o :: os)

end SerialHils
end S2E
