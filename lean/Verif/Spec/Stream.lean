import Verif.Model.Basic
/-!
# Specification of a byte stream with finite storage

Independent of the ring buffer implementation: a stream is the list of all bytes ever written and the number of bytes
ever read. `N` is the storage size.
-/
namespace S2E

/-- History of one byte stream. -/
structure StreamLog where
  written : List Byte
  nread   : Nat
  deriving Repr, DecidableEq

/-- Nothing written, nothing read. -/
def StreamLog.empty : StreamLog := ⟨[], 0⟩

/-- Number of unread bytes a storage of size `N` still distinguishes. -/
def StreamLog.avail (N : Nat) (L : StreamLog) : Nat := (L.written.length - L.nread) % N

/-- The bytes that can still be read: the most recent `avail` ones. -/
def StreamLog.readable (N : Nat) (L : StreamLog) : List Byte :=
  L.written.drop (L.written.length - L.avail N)

/-- `dst` with the bytes from `offset` on replaced by `bytes`. -/
def overwriteAt (dst : List Byte) (offset : Nat) (bytes : List Byte) : List Byte :=
  dst.take offset ++ (bytes ++ dst.drop (offset + bytes.length))

/-- `len` bytes of `src` starting at `offset`. -/
def slice (src : List Byte) (offset len : Nat) : List Byte := (src.drop offset).take len

/-- Operations on a stream: the caller's buffer, an offset in it and a length. -/
inductive StreamOp where
  | write (src : List Byte) (offset len : Nat)
  | read  (dst : List Byte) (offset len : Nat)
  deriving Repr, DecidableEq

/-- What the caller observes: the return value and (for a read) the buffer afterwards. -/
inductive StreamObs where
  | wrote (count : Nat)
  | got (count : Nat) (dst : List Byte)
  deriving Repr, DecidableEq

/-- The caller owns the bytes it names. -/
def StreamOp.Valid : StreamOp → Prop
  | .write src offset len => offset + len ≤ src.length
  | .read dst offset len => offset + len ≤ dst.length

instance (o : StreamOp) : Decidable o.Valid := by cases o <;> unfold StreamOp.Valid <;> infer_instance

/-- One step of the finite-storage stream. -/
def StreamLog.step (N : Nat) (L : StreamLog) : StreamOp → StreamLog × StreamObs
  | .write src offset len => ({ L with written := L.written ++ slice src offset len }, .wrote len)
  | .read dst offset len =>
    let bytes := (L.readable N).take len
    ({ L with nread := L.nread + bytes.length }, .got bytes.length (overwriteAt dst offset bytes))

/-- Observations of a whole history of the finite-storage stream. -/
def StreamLog.run (N : Nat) : StreamLog → List StreamOp → List StreamObs
  | _, [] => []
  | L, op :: ops => (L.step N op).2 :: run N (L.step N op).1 ops

/-- The ideal unbounded FIFO: state is the list of unread bytes. -/
def fifoStep (q : List Byte) : StreamOp → List Byte × StreamObs
  | .write src offset len => (q ++ slice src offset len, .wrote len)
  | .read dst offset len =>
    (q.drop len, .got (min len q.length) (overwriteAt dst offset (q.take len)))

/-- Observations of a whole history of the ideal FIFO. -/
def fifoRun : List Byte → List StreamOp → List StreamObs
  | _, [] => []
  | q, op :: ops => (fifoStep q op).2 :: fifoRun (fifoStep q op).1 ops

/-- At every point of the history at most `cap` bytes are unread. -/
def OccupancyLe (cap : Nat) : List Byte → List StreamOp → Prop
  | q, [] => q.length ≤ cap
  | q, op :: ops => q.length ≤ cap ∧ OccupancyLe cap (fifoStep q op).1 ops

end S2E
