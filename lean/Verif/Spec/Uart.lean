import Verif.Spec.Stream
/-!
# Specification of a set of UART lines

Each port id is either free or carries two finite-storage byte streams, one per direction.
-/
namespace S2E

/-- Direction of a stream. -/
inductive UartDir where
  | toCompo   -- OBC -> component
  | toObc     -- component -> OBC
  deriving Repr, DecidableEq

/-- What a user can do. `garbage` is the content of freshly allocated memory, which the user does not control. -/
inductive UartOp where
  | connect (port : Int) (txSize rxSize : Nat) (garbage : Nat → Byte)
  | close (port : Int)
  | send (d : UartDir) (port : Int) (src : List Byte) (offset len : Nat)
  | receive (d : UartDir) (port : Int) (dst : List Byte) (offset len : Nat)

/-- What the user sees: the return value and the caller's buffer after a receive. -/
structure UartObs where
  ret : Int
  buf : List Byte := []
  deriving Repr, DecidableEq

/-- The caller owns the bytes it names. -/
def UartOp.Valid : UartOp → Prop
  | .send _ _ src offset len => offset + len ≤ src.length
  | .receive _ _ dst offset len => offset + len ≤ dst.length
  | _ => True

/-- A connected line: storage size and history of each direction. -/
structure UartLine where
  cap : UartDir → Nat
  log : UartDir → StreamLog

abbrev UartLines := Int → Option UartLine

/-- Update of one direction of one connected port. -/
def UartLines.setLog (s : UartLines) (port : Int) (l : UartLine) (d : UartDir) (L : StreamLog) : UartLines :=
  fun q => if q = port then some { l with log := fun d' => if d' = d then L else l.log d' } else s q

/-- One user operation. `caps tx rx` is the storage given to each direction for requested sizes `tx`, `rx`. -/
def UartLines.step (caps : Nat → Nat → UartDir → Nat) (s : UartLines) : UartOp → UartLines × UartObs
  | .connect port tx rx _ =>
    match s port with
    | some _ => (s, ⟨-1, []⟩)
    | none => (fun q => if q = port then some ⟨caps tx rx, fun _ => StreamLog.empty⟩ else s q, ⟨0, []⟩)
  | .close port =>
    match s port with
    | none => (s, ⟨-1, []⟩)
    | some _ => (fun q => if q = port then none else s q, ⟨0, []⟩)
  | .send d port src offset len =>
    match s port with
    | none => (s, ⟨-1, []⟩)
    | some l => (s.setLog port l d { l.log d with written := (l.log d).written ++ slice src offset len }, ⟨len, []⟩)
  | .receive d port dst offset len =>
    match s port with
    | none => (s, ⟨-1, dst⟩)
    | some l =>
      let bytes := ((l.log d).readable (l.cap d)).take len
      (s.setLog port l d { l.log d with nread := (l.log d).nread + bytes.length },
        ⟨bytes.length, overwriteAt dst offset bytes⟩)

/-- All observations of a history. -/
def UartLines.run (caps : Nat → Nat → UartDir → Nat) : UartLines → List UartOp → List UartObs
  | _, [] => []
  | s, op :: ops => (s.step caps op).2 :: run caps (s.step caps op).1 ops

/-- Does the operation concern direction `d` of port `p`? Connecting and closing `p` concern both directions. -/
def UartOp.concerns (p : Int) (d : UartDir) : UartOp → Bool
  | .connect port _ _ _ => port == p
  | .close port => port == p
  | .send d' port _ _ _ => port == p && d' == d
  | .receive d' port _ _ _ => port == p && d' == d

/-- The observations made by the operations concerning direction `d` of port `p`. -/
def obsOf (p : Int) (d : UartDir) (ops : List UartOp) (obs : List UartObs) : List UartObs :=
  ((ops.zip obs).filter fun x => x.1.concerns p d).map (·.2)

/-- A requested size of zero means the default size. -/
def effectiveSize (n : Nat) : Nat := if n = 0 then 1024 else n

end S2E
