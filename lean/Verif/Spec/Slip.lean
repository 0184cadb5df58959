import Verif.Model.Basic
/-!
# Specification of SLIP framing (RFC 1055 byte stuffing) by structural recursion
-/
namespace S2E
namespace SlipSpec

/-- Replacement of one byte. -/
def stuff (b : Byte) : List Byte :=
  if b = 0xc0 then [0xdb, 0xdc] else if b = 0xdb then [0xdb, 0xdd] else [b]

/-- A frame: the stuffed bytes and the end byte. -/
def frame (x : List Byte) : List Byte := x.flatMap stuff ++ [0xc0]

/-- The part of the input before the first end byte. -/
def payload (y : List Byte) : List Byte := y.takeWhile (· ≠ 0xc0)

/-- Undo the stuffing; `none` if the input ends inside an escape sequence. -/
def unstuff : List Byte → Option (List Byte)
  | [] => some []
  | [b] => if b = 0xdb then none else some [b]
  | b :: c :: rest =>
    if b = 0xdb then
      (unstuff rest).map fun r => (if c = 0xdc then 0xc0 else if c = 0xdd then 0xdb else c) :: r
    else (unstuff (c :: rest)).map fun r => b :: r

/-- The input ends inside an escape sequence: it has an odd number of escape bytes at its end. -/
def DanglingEscape (p : List Byte) : Prop := (p.reverse.takeWhile (· = 0xdb)).length % 2 = 1

/-- Cut a byte stream into the pieces that end with the end byte (an unfinished last piece is dropped). -/
def cut : List Byte → List Byte → List (List Byte)
  | _, [] => []
  | acc, b :: bs => if b = 0xc0 then (acc ++ [b]) :: cut [] bs else cut (acc ++ [b]) bs

end SlipSpec
end S2E
