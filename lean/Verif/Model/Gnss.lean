import Verif.Model.C2a
/-!
# GNSS satellite numbers and IGS product names

`src/math_physics/gnss/gnss_satellite_number.{hpp,cpp}`, `src/math_physics/gnss/igs_product_name_handling.hpp`. `size_t` arithmetic is modulo 2^64.
-/
namespace S2E.Gnss
open S2E.Log S2E.C2a

/-- gnss_satellite_number.hpp:17-22. -/
def kNumberOfGps : Nat := 32
def kNumberOfGlonass : Nat := 26
def kNumberOfGalileo : Nat := 28
def kNumberOfBeidou : Nat := 62
def kNumberOfQzss : Nat := 5
def kNumberOfNavic : Nat := 7
/-- gnss_satellite_number.hpp:24-25. -/
def kTotal : Nat := kNumberOfGps + kNumberOfGlonass + kNumberOfGalileo + kNumberOfBeidou + kNumberOfQzss + kNumberOfNavic
/-- gnss_satellite_number.hpp:28-33. -/
def kGpsBegin : Nat := 0
def kGlonassBegin : Nat := kGpsBegin + kNumberOfGps
def kGalileoBegin : Nat := kGlonassBegin + kNumberOfGlonass
def kBeidouBegin : Nat := kGalileoBegin + kNumberOfGalileo
def kQzssBegin : Nat := kBeidouBegin + kNumberOfBeidou
def kNavicBegin : Nat := kQzssBegin + kNumberOfQzss

/-- `stoi(satellite_number.substr(1)) + begin - 1` converted to `size_t`. -/
def prnIndex (rest : Str) (begin : Nat) : Res Nat := do
  let v ← stoi rest
  .ok ((v + begin - 1) % 2 ^ 64).toNat

/-- `ConvertGnssSatelliteNumberToIndex`, gnss_satellite_number.cpp:10-28. `front()` of an empty string is undefined. -/
def numberToIndex (s : Str) : Res Nat :=
  match s with
  | [] => .ub
  | 'G' :: rest => prnIndex rest kGpsBegin
  | 'R' :: rest => prnIndex rest kGlonassBegin
  | 'E' :: rest => prnIndex rest kGalileoBegin
  | 'C' :: rest => prnIndex rest kBeidouBegin
  | 'J' :: rest => prnIndex rest kQzssBegin
  | 'I' :: rest => prnIndex rest kNavicBegin
  | _ => .ok (2 ^ 32 - 1)

/-- gnss_satellite_number.cpp:56-59. -/
def formatPrn (c : Char) (prn : Nat) : Str := (if prn < 10 then [c] ++ ['0'] else [c]) ++ dec prn

/-- `ConvertIndexToGnssSatelliteNumber`, gnss_satellite_number.cpp:30-62. -/
def indexToNumber (index : Nat) : Str :=
  if index < kGlonassBegin then formatPrn 'G' (index - kGpsBegin + 1)
  else if index < kGalileoBegin then formatPrn 'R' (index - kGlonassBegin + 1)
  else if index < kBeidouBegin then formatPrn 'E' (index - kGalileoBegin + 1)
  else if index < kQzssBegin then formatPrn 'C' (index - kBeidouBegin + 1)
  else if index < kNavicBegin then formatPrn 'J' (index - kQzssBegin + 1)
  else if index < kTotal then formatPrn 'I' (index - kNavicBegin + 1)
  else "err".toList

/-! ## `igs_product_name_handling.hpp` -/

/-- `MergeYearDoy`, igs_product_name_handling.hpp:38. -/
def mergeYearDoy (year doy : Nat) : Nat := (year * 1000 + doy) % 2 ^ 64
/-- `PerseYearFromYearDoy`, igs_product_name_handling.hpp:46. -/
def parseYear (yd : Nat) : Nat := yd / 1000
/-- `PerseDoyFromYearDoy`, igs_product_name_handling.hpp:54-57. -/
def parseDoy (yd : Nat) : Nat := yd - parseYear yd * 1000

/-- `IncrementYearDoy`, igs_product_name_handling.hpp:65-86. -/
def incrementYearDoy (yd : Nat) : Nat :=
  let output := (yd + 1) % 2 ^ 64
  let doy := parseDoy output
  if doy > 365 then
    let year := parseYear output
    if year % 4 = 0 then
      if doy > 366 then mergeYearDoy (year + 1) 1 else mergeYearDoy year doy
    else mergeYearDoy (year + 1) 1
  else output

/-- `GetOrbitClockFinalFileName`, igs_product_name_handling.hpp:24-29. -/
def orbitFileName (header : Str) (yd : Nat) (period fileType : Str) : Str :=
  header ++ "_".toList ++ dec yd ++ "0000_01D_".toList ++ period ++ "_".toList ++ fileType

end S2E.Gnss
