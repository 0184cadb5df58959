import Verif.Model.SerialExample
/-!
# Specification of the example component

The component reads commands of up to 5 bytes, `S E T x`, and sends its newest characters, newest first. Only the type of actions is the model's; nothing here refers to ports, buffers or the component's memory.
-/
namespace S2E.SerialSpec

/-- Bytes on the way to the component, bytes on the way to the flight software, characters accepted so far (newest first). -/
structure State where
  inbox : List Byte
  outbox : List Byte
  accepted : List Byte

def start : State := ⟨[], [], []⟩

/-- The character of a command. -/
def command (bytes : List Byte) : Option Byte := if bytes.take 3 = [83, 69, 84] then bytes[3]? else none      -- 'S', 'E', 'T'

/-- The first `k` of the characters, with zeros when there are fewer. -/
def telemetry (k : Nat) (accepted : List Byte) : List Byte := (accepted ++ List.replicate k 0).take k

def send (s : State) (data : List Byte) : State := { s with inbox := s.inbox ++ data }

/-- The flight software takes up to `n` bytes. -/
def receive (s : State) (n : Nat) : State × List Byte := ({ s with outbox := s.outbox.drop n }, s.outbox.take n)

/-- The component runs: it takes up to 5 bytes, and sends. -/
def tick (k : Nat) (s : State) : State :=
  let accepted := (command (s.inbox.take 5)).toList ++ s.accepted
  ⟨s.inbox.drop 5, s.outbox ++ telemetry k accepted, accepted⟩

/-- One action, with what the flight software receives. -/
def step (k : Nat) (s : State) : SerialExample.Action → State × List Byte
  | .send data => (send s data, [])
  | .receive n => receive s n
  | .tick => (tick k s, [])

/-- What the flight software receives in a history. -/
def run (k : Nat) : State → List SerialExample.Action → List (List Byte)
  | _, [] => []
  | s, a :: as => (step k s a).2 :: run k (step k s a).1 as

/-- Nobody who takes bytes finds more than 1023 waiting. -/
def Fits (k : Nat) : State → List SerialExample.Action → Prop
  | _, [] => True
  | s, a :: as =>
    (match a with
      | .send _ => True
      | .receive _ => s.outbox.length ≤ 1023
      | .tick => s.inbox.length ≤ 1023) ∧ Fits k (step k s a).1 as

end S2E.SerialSpec
