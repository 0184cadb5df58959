import Verif.Model.Basic
/-!
# `src/utilities/slip.cpp` and `src/utilities/endian.cpp`

A vector together with an iterator into it is modelled by the pair (elements before the iterator, elements from the
iterator on); the `end()` iterator has an empty second part.
-/
namespace S2E
namespace Slip

/-- slip.cpp:13-16. -/
def fend : Byte := 0xc0
def fesc : Byte := 0xdb
def tfend : Byte := 0xdc
def tfesc : Byte := 0xdd

/-- `std::find(it, out.end(), b)` from the iterator `(pre, suf)`. -/
def findFrom (b : Byte) : List Byte → List Byte → List Byte × List Byte
  | pre, [] => (pre, [])
  | pre, x :: xs => if x = b then (pre, x :: xs) else findFrom b (pre ++ [x]) xs

/-- The escape loop of `decode_slip`, slip.cpp:27-40. `*(fesc_itr + 1)` at the end of the vector is undefined. -/
def decodeLoop : Nat → List Byte → List Byte → Res (List Byte)
  | fuel, pre, suf =>
    match findFrom fesc pre suf with
    | (pre', []) => .ok pre'
    | (_, [_]) => .ub
    | (pre', _ :: c :: rest) =>
      match fuel with
      | 0 => .stuck
      | fuel + 1 =>
        let c' := if c = tfend then fend else if c = tfesc then fesc else c
        -- erase the FESC; the iterator now points to c', and is then incremented
        decodeLoop fuel (pre' ++ [c']) rest

/-- `decode_slip`, slip.cpp:18-43. -/
def decode (input : List Byte) : Res (List Byte) :=
  let out := (findFrom fend [] input).1
  decodeLoop (out.length + 1) [] out

/-- `decode_slip_with_header`, slip.cpp:45-49. Erasing the first element of an empty vector is undefined. -/
def decodeWithHeader : List Byte → Res (List Byte)
  | [] => .ub
  | _ :: rest => decode rest

/-- The FESC loop of `encode_slip`, slip.cpp:56-61. -/
def escapeFescLoop : Nat → List Byte → List Byte → Res (List Byte)
  | fuel, pre, suf =>
    match findFrom fesc pre suf with
    | (pre', []) => .ok pre'
    | (pre', x :: rest) =>
      match fuel with
      | 0 => .stuck
      | fuel + 1 => escapeFescLoop fuel (pre' ++ [x]) (tfesc :: rest)

/-- The FEND loop of `encode_slip`, slip.cpp:65-71. -/
def escapeFendLoop : Nat → List Byte → List Byte → Res (List Byte)
  | fuel, pre, suf =>
    match findFrom fend pre suf with
    | (pre', []) => .ok pre'
    | (pre', _ :: rest) =>
      match fuel with
      | 0 => .stuck
      | fuel + 1 => escapeFendLoop fuel (pre' ++ [fesc]) (tfend :: rest)

/-- `encode_slip`, slip.cpp:51-75. -/
def encode (input : List Byte) : Res (List Byte) := do
  let out ← escapeFescLoop (input.length + 1) [] input
  let out ← escapeFendLoop (out.length + 1) [] out
  .ok (out ++ [fend])

/-- `encode_slip_with_header`, slip.cpp:77-81. -/
def encodeWithHeader (input : List Byte) : Res (List Byte) := do
  let out ← encode input
  .ok (fend :: out)

end Slip

namespace Endian

/-- The loop of `endian_memcpy`, endian.cpp:22-24: `i` runs from `i` to `size` (already decremented). -/
def copyLoop (src : List Byte) (size : Nat) : Nat → Nat → List Byte → Res (List Byte)
  | 0, _, dst => .ok dst
  | n + 1, i, dst =>
    match src[i]? with
    | none => .ub
    | some b => if size - i < dst.length then copyLoop src size n (i + 1) (dst.set (size - i) b) else .ub

/-- `endian_memcpy(dst, src, size)` on a little-endian host, endian.cpp:12-26 (`IS_LITTLE_ENDIAN` branch);
`dst` and `src` do not overlap. The loop `i <= size` has `size + 1` iterations after the decrement. -/
def endianMemcpy (dst src : List Byte) (size : Nat) : Res (List Byte) :=
  let size := if size > 0 then size - 1 else size
  copyLoop src size (size + 1) 0 dst

end Endian
end S2E
