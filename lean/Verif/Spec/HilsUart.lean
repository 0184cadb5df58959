import Verif.Model.HilsUart
/-!
# Specification of the UART ports for HILS tests

Everything is said about a record of calls and what was seen of each (the types `Call` and `Seen` are the model's; nothing else is).
-/
namespace S2E.HilsUartSpec
open S2E.HilsPorts

abbrev Record := List (Call × Seen)

/-- A successful connection of port `id` after which the port was neither connected again nor closed; `s` is what happened since. -/
def Session (id baud tx rx : Nat) (opens : Bool) (s t : Record) : Prop :=
  (∃ before b, t = before ++ (Call.connect id baud tx rx opens, ⟨0, b⟩) :: s) ∧ (∀ b, (Call.close id, ⟨0, b⟩) ∉ s) ∧
    ∀ baud tx rx opens b, (Call.connect id baud tx rx opens, ⟨0, b⟩) ∉ s

/-- Port `id` was never connected, or was closed after its last connection. -/
def Idle (id : Nat) (t : Record) : Prop :=
  ∀ before baud tx rx opens b after, t = before ++ (Call.connect id baud tx rx opens, ⟨0, b⟩) :: after → ∃ b', (Call.close id, ⟨0, b'⟩) ∈ after

/-- The line works: it could be opened and the baud rate is a positive `int`. -/
def Works (baud : Nat) (opens : Bool) : Prop := opens = true ∧ baud < 2 ^ 31

/-- All bytes that arrived at port `id`. -/
def arrived (id : Nat) : Record → List Byte
  | [] => []
  | (.arrive i data, _) :: t => (if i = id then data else []) ++ arrived id t
  | _ :: t => arrived id t

/-- All bytes that were received from port `id`: of each buffer, as many as the returned number says. -/
def received (id : Nat) : Record → List Byte
  | [] => []
  | (.receive i _, s) :: t => (if i = id then s.bytes.take s.ret.toNat else []) ++ received id t
  | _ :: t => received id t

/-- All data of the calls of send at port `id` that returned 0. -/
def accepted (id : Nat) : Record → List Byte
  | [] => []
  | (.send i data _, s) :: t => (if i = id ∧ s.ret = 0 then data else []) ++ accepted id t
  | _ :: t => accepted id t

/-- Bytes left over from earlier receptions: `w` overwritten from its start by the bytes of each reception in turn. -/
def leftover (id : Nat) (w : List Byte) : Record → List Byte
  | [] => w
  | (.receive i _, s) :: t =>
    leftover id (if i = id then s.bytes.take s.ret.toNat ++ w.drop (s.bytes.take s.ret.toNat).length else w) t
  | _ :: t => leftover id w t

end S2E.HilsUartSpec
