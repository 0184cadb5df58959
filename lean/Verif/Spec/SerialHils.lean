import Verif.Model.SerialExample
/-!
# Specification of the example component for HILS

A sender (mode 0) or responder (mode 1) of messages of three characters and a zero. Only the type of actions is the model's.
-/
namespace S2E.SerialHilsSpec

/-- Bytes on the way to the component, bytes on the way to the flight software, the four bytes last seen by the component, the message it will return, runs so far. -/
structure State where
  inbox : List Byte
  outbox : List Byte
  window : List Byte
  message : List Byte
  runs : Nat

def start : State := ⟨[], [], [0, 0, 0, 0], [0, 0, 0], 0⟩

/-- The 24 messages ABC, BCD, …, XYZ in turn. -/
def letters (n : Nat) : List Byte := [UInt8.ofNat (65 + n % 24), UInt8.ofNat (66 + n % 24), UInt8.ofNat (67 + n % 24)]

/-- A run: up to four bytes are taken. They replace the first bytes of the window; if there were any, the message to be returned is the window without its last byte. -/
def tick (mode : Int) (s : State) : State :=
  let taken := s.inbox.take 4
  let window := taken ++ s.window.drop taken.length
  let message := if taken = [] then s.message else window.take 3
  ⟨s.inbox.drop 4, s.outbox ++ (if mode = 0 then letters s.runs ++ [0] else if mode = 1 then message ++ [0] else []), window, message, s.runs + 1⟩

/-- One action, with what the flight software receives. -/
def step (mode : Int) (s : State) : SerialExample.Action → State × List Byte
  | .send data => ({ s with inbox := s.inbox ++ data }, [])
  | .receive n => ({ s with outbox := s.outbox.drop n }, s.outbox.take n)
  | .tick => (tick mode s, [])

/-- What the flight software receives in a history. -/
def run (mode : Int) : State → List SerialExample.Action → List (List Byte)
  | _, [] => []
  | s, a :: as => (step mode s a).2 :: run mode (step mode s a).1 as

/-- Nobody who takes bytes finds more than 1023 waiting. -/
def Fits (mode : Int) : State → List SerialExample.Action → Prop
  | _, [] => True
  | s, a :: as =>
    (match a with
      | .send _ => True
      | .receive _ => s.outbox.length ≤ 1023
      | .tick => s.inbox.length ≤ 1023) ∧ Fits mode (step mode s a).1 as

end S2E.SerialHilsSpec
