import Verif.Model.Uart
/-!
# The example component with a serial line

`src/components/examples/example_serial_communication_with_obc.{hpp,cpp}` on top of the model of `UartCommunicationWithObc` (Model/Uart), in SILS mode.

Two things depend on the platform and are parameters: `vec` is `sizeof(std::vector<unsigned char>)`, and `tolerant` says whether
`tx_buffer_.assign(begin(tx_buffer_), end(tx_buffer_))` works; the C++ standard makes it undefined (the iterators must not point into the container itself).
-/
namespace S2E

/-- `class ExampleSerialCommunicationWithObc`, example_serial_communication_with_obc.hpp:21-94. -/
structure SerialExample where
  comm : UartComm
  memory : List Byte      -- memory_

namespace SerialExample

/-- `kMaxMemoryLength`, example_serial_communication_with_obc.hpp:69. -/
def maxMemory : Nat := 100

/-- The constructors, example_serial_communication_with_obc.cpp:12-28: `Initialize` pushes zeros; the buffers have the default size of
uart_communication_with_obc.cpp:12-22. -/
def new (portId : Int) (obc : ObcUart) (garbage : Nat → Byte) : SerialExample × ObcUart :=
  let r := UartComm.new portId 1024 1024 obc garbage
  (⟨r.1, List.replicate maxMemory 0⟩, r.2)

/-- `ParseCommand`, example_serial_communication_with_obc.cpp:32-44. `rx_buffer_` has at least the elements that are read: they are read only when
`command_size`, which is at most the size of the buffer, is at least 4; a shorter buffer would be undefined. `'S'`, `'E'`, `'T'` and
`'\n'` are 83, 69, 84 and 10. -/
def parseCommand (s : SerialExample) (size : Int) : Res SerialExample :=
  if size < 4 then .ok s
  else
    match s.comm.rxBuf with
    | b0 :: b1 :: b2 :: b3 :: _ =>
      if b0 ≠ 83 ∨ b1 ≠ 69 ∨ b2 ≠ 84 then .ok s
      else .ok { s with memory := (b3 :: s.memory.dropLast).set (maxMemory - 1) 10 }
    | _ => .ub

/-- The end of `ReceiveCommand`, uart_communication_with_obc.cpp:157-159: the virtual `ParseCommand` is called when something was received. -/
def received (s : SerialExample) : UartComm.RecvEnd → Res SerialExample
  | .parse n => s.parseCommand n
  | _ => .ok s

/-- `GenerateTelemetry`, example_serial_communication_with_obc.cpp:45-51: the new content of `tx_buffer_` and the size returned (`sizeof(tx_buffer_)`). -/
def generateTelemetry (tolerant : Bool) (vec : Nat) (s : SerialExample) : Res (List Byte × Nat) :=
  if s.comm.txBuf.length < maxMemory then .ub
  else if tolerant then .ok (s.memory ++ s.comm.txBuf.drop maxMemory, vec) else .ub

/-- `MainRoutine`, example_serial_communication_with_obc.cpp:52-57. -/
def mainRoutine (tolerant : Bool) (vec : Nat) (s : SerialExample) (obc : ObcUart) : Res (SerialExample × ObcUart) := do
  let (c, obc, r) ← s.comm.receiveCommand obc 0 5
  let s := { s with comm := c }
  let s ← s.received r
  let (tx, n) ← s.generateTelemetry tolerant vec
  let (c, obc, _) ← s.comm.sendTelemetry obc tx n 0
  .ok ({ s with comm := c }, obc)

/-- What happens at the port: the flight software sends or receives bytes (with a buffer of its own), or the component runs. -/
inductive Action where
  | send (data : List Byte)
  | receive (n : Nat)
  | tick

/-- One action; the observation is what the flight software received. -/
def act (tolerant : Bool) (vec : Nat) (s : SerialExample) (obc : ObcUart) : Action → Res (SerialExample × ObcUart × List Byte)
  | .send data => do
    let (obc, _) ← obc.sendFromObc s.comm.portId data 0 data.length
    .ok (s, obc, [])
  | .receive n => do
    let (obc, dst, k) ← obc.receivedByObc s.comm.portId (List.replicate n 0) 0 n
    .ok (s, obc, dst.take k.toNat)
  | .tick => do
    let (s, obc) ← s.mainRoutine tolerant vec obc
    .ok (s, obc, [])

/-- All observations of a history. -/
def acts (tolerant : Bool) (vec : Nat) : SerialExample → ObcUart → List Action → Res (List (List Byte))
  | _, _, [] => .ok []
  | s, obc, a :: as => do
    let (s, obc, o) ← s.act tolerant vec obc a
    let os ← acts tolerant vec s obc as
    .ok (o :: os)

end SerialExample
end S2E
