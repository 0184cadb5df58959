import Verif.Model.BiasSinex
import Verif.Spec.TextLines
/-!
# The layout of a Bias-SINEX file as the reader takes it, independently of the reader

Columns count from 0.
-/
namespace S2E.Bias
open S2E.Log S2E.Sp3

/-- A line of the solution says `d`. -/
structure Says (c : Codec) (l : Str) (d : Solution) : Prop where
  size : 92 ≤ l.length
  identifier : d.identifier = if cols l 1 4 = "DSB ".toList then .dsb else if cols l 1 4 = "ISB ".toList then .isb
    else if cols l 1 4 = "OSB ".toList then .osb else .error
  svn : d.svn = cols l 6 4
  number : d.number = cols l 11 3
  station : d.station = cols l 15 9
  target : d.target =
    if (cols l 25 4, cols l 30 4) ∈ [("C1W ".toList, "C2W ".toList), ("C1P ".toList, "C2P ".toList)] then .p1p2
    else if (cols l 25 4, cols l 30 4) = ("C1P ".toList, "C1C ".toList) then .p1c1
    else if (cols l 25 4, cols l 30 4) = ("C2P ".toList, "C2C ".toList) then .p2c2 else .error
  unit : d.unit = if cols l 65 4 = "ns  ".toList then .ns else if cols l 65 4 = "cyc ".toList then .cycle else .error
  bias : c.stod (cols l 70 21) = some d.bias
  deviation : c.stod (cols l 92 12) = some d.deviation
  /-- the slope in columns 105 to 125, only if the line goes on after it -/
  slope : if 127 ≤ l.length then c.stod (cols l 105 21) = some d.slope else d.slope = 0
  /-- its standard deviation in columns 127 to 138, only if the line goes on after it; without a slope it is looked for in the columns of the slope -/
  slopeDeviation : if 140 ≤ l.length then c.stod (cols l 127 12) = some d.slopeDeviation
    else if 118 ≤ l.length ∧ l.length < 127 then c.stod (cols l 105 12) = some d.slopeDeviation else d.slopeDeviation = 0

/-- The blocks that are skipped. -/
def skipped : List String := ["FILE/REFERENCE", "FILE/COMMENT", "INPUT/ACKNOWLEDGMENTS", "BIAS/DESCRIPTION", "BIAS/RECEIVER_INFORMATION"]

/-- A line that begins no block and does not end the file. -/
def Plain (l : Str) : Prop := "*".toList <+: l ∨ (¬ "%=ENDBIA".toList <+: l ∧ ∀ b ∈ "BIAS/SOLUTION" :: skipped, ¬ ('+' :: b.toList) <+: l)

/-- The lines of a file and the biases in them. -/
inductive Reads (c : Codec) : List Str → List Solution → Prop
  | nil : Reads c [] []
  | stop (l : Str) (L : List Str) (h : "%=ENDBIA".toList <+: l) : Reads c (l :: L) []
  | plain (l : Str) (L : List Str) (d : List Solution) (h : Plain l) (hL : Reads c L d) : Reads c (l :: L) d
  | skip (b : String) (hb : b ∈ skipped) (l : Str) (B : List Str) (e : Str) (L : List Str) (d : List Solution) (h : ('+' :: b.toList) <+: l)
      (hB : ∀ m ∈ B, ¬ ('-' :: b.toList) <+: m) (he : ('-' :: b.toList) <+: e) (hL : Reads c L d) : Reads c (l :: (B ++ e :: L)) d
  | solution (l : Str) (B : List Str) (e : Str) (L : List Str) (r d : List Solution) (h : "+BIAS/SOLUTION".toList <+: l)
      (hB : ∀ m ∈ B, ¬ "-BIAS/SOLUTION".toList <+: m) (hr : List.Forall₂ (Says c) (B.filter fun m => !starts "*".toList m) r)
      (he : "-BIAS/SOLUTION".toList <+: e) (hL : Reads c L d) : Reads c (l :: (B ++ e :: L)) (r ++ d)

end S2E.Bias
