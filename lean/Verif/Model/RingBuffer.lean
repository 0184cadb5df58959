import Verif.Model.Basic
/-!
# `src/utilities/ring_buffer.{hpp,cpp}`

`unsigned int` values are modelled by `Nat`. The subtractions `buffer_size_ - write_pointer_` etc. never wrap because
both pointers stay below `buffer_size_` (invariant `RingInv`, proved), and no sum exceeds `buffer_size_`, which is an
`int`; `offset + write_count` wraps only if the caller's buffer is larger than 4 GiB, which is not modelled.
-/
namespace S2E

/-- `class RingBuffer`, ring_buffer.hpp:17-55. -/
structure RingBuffer where
  size : Nat            -- buffer_size_
  buf  : List Byte      -- buffer_ (allocated with `size` bytes)
  rp   : Nat            -- read_pointer_
  wp   : Nat            -- write_pointer_
  deriving Repr, DecidableEq

namespace RingBuffer

/-- Constructor, ring_buffer.cpp:15-19. `garbage i` is the (uninitialised) content of cell `i` after `new byte[]`. -/
def new (n : Nat) (garbage : Nat → Byte) : RingBuffer :=
  { size := n, buf := (List.range n).map garbage, rp := 0, wp := 0 }

/-- The `while` loop of `Write`, ring_buffer.cpp:24-31. `count` is `write_count`. -/
def writeLoop : Nat → RingBuffer → List Byte → Nat → Nat → Nat → Res (RingBuffer × Nat)
  | fuel, rb, src, offset, len, count =>
    if count ≠ len then
      match fuel with
      | 0 => .stuck
      | fuel + 1 => do
        let writeLen := min (rb.size - rb.wp) (len - count)
        let buf ← memcpy rb.buf rb.wp src (offset + count) writeLen
        let wp := if rb.wp + writeLen = rb.size then 0 else rb.wp + writeLen
        writeLoop fuel { rb with buf := buf, wp := wp } src offset len (count + writeLen)
    else .ok (rb, count)

/-- `RingBuffer::Write(buffer, offset, data_length)`, ring_buffer.cpp:22-34, with at most `fuel` loop iterations. -/
def writeFuel (fuel : Nat) (rb : RingBuffer) (src : List Byte) (offset len : Nat) : Res (RingBuffer × Nat) :=
  writeLoop fuel rb src offset len 0

/-- `RingBuffer::Write`. `len` iterations suffice whenever the loop terminates (C03). -/
def write (rb : RingBuffer) (src : List Byte) (offset len : Nat) : Res (RingBuffer × Nat) :=
  writeFuel len rb src offset len

/-- The `while` loop of `Read`, ring_buffer.cpp:40-46. -/
def readLoop : Nat → RingBuffer → List Byte → Nat → Nat → Nat → Res (RingBuffer × List Byte × Nat)
  | fuel, rb, dst, offset, len, count =>
    if count ≠ len ∧ rb.wp ≠ rb.rp then
      match fuel with
      | 0 => .stuck
      | fuel + 1 => do
        let readLen :=
          if rb.wp > rb.rp then min (rb.wp - rb.rp) (len - count) else min (rb.size - rb.rp) (len - count)
        let dst ← memcpy dst (offset + count) rb.buf rb.rp readLen
        let rp := if rb.rp + readLen = rb.size then 0 else rb.rp + readLen
        readLoop fuel { rb with rp := rp } dst offset len (count + readLen)
    else .ok (rb, dst, count)

/-- `RingBuffer::Read(buffer, offset, data_length)`, ring_buffer.cpp:36-49, with at most `fuel` loop iterations. -/
def readFuel (fuel : Nat) (rb : RingBuffer) (dst : List Byte) (offset len : Nat) :
    Res (RingBuffer × List Byte × Nat) :=
  readLoop fuel rb dst offset len 0

/-- `RingBuffer::Read`. `len` iterations suffice whenever the loop terminates (C03). -/
def read (rb : RingBuffer) (dst : List Byte) (offset len : Nat) : Res (RingBuffer × List Byte × Nat) :=
  readFuel len rb dst offset len

end RingBuffer
end S2E
