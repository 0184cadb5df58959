import Verif.Model.Basic
/-!
# Specification of an I2C bus: what a history of operations stored where
-/
namespace S2E

/-- Operations on an I2C port. -/
inductive I2cOp where
  | register (a : Byte)                 -- RegisterDevice
  | setAddress (a r : Byte)             -- WriteRegister(a, r)
  | write (a r v : Byte)                -- WriteRegister(a, r, v)
  | readNext (a : Byte)                 -- ReadRegister(a)
  | read (a r : Byte)                   -- ReadRegister(a, r)
  | command (a : Byte) (data : List Byte)  -- WriteCommand
  | readCommand (a : Byte) (n : Nat)    -- ReadCommand

/-- The value an operation stores into register `r` of device `a`, if any, on a port with `max` registers. -/
def I2cOp.stores (max : Nat) (a r : Byte) : I2cOp → Option Byte
  | .register a' => if a' = a ∧ r.toNat < max then some 0 else none
  | .write a' r' v => if a' = a ∧ r' = r ∧ r.toNat < max then some v else none
  | .command a' [r', v] => if a' = a ∧ r' = r ∧ r.toNat < max then some v else none
  | _ => none

/-- The command byte an operation stores at position `i` for device `a`, if any. -/
def I2cOp.storesCmd (a i : Byte) : I2cOp → Option Byte
  | .register a' => if a' = a ∧ i.toNat < 255 then some 0 else none
  | .command a' data => if a' = a ∧ data.length ≤ 255 then data[i.toNat]? else none
  | _ => none

/-- Last value stored according to `f` in a history (oldest operation first), 0 if none. -/
def lastStored (f : I2cOp → Option Byte) (history : List I2cOp) : Byte :=
  (history.reverse.findSome? f).getD 0

end S2E
