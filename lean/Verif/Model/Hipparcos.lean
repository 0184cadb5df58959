import Verif.Model.Quaternion
import Verif.Model.Ini
/-!
# `src/environment/global/hipparcos_catalogue.{cpp,hpp}`

A file stream is the list of its characters. The conversion of one comma-separated line to the four values of a star is an arbitrary partial function `parse`
(`none`: at least one of the extractions fails, and values are used that were never written). Doubles are real numbers.
-/
namespace S2E.Hip
open S2E.Log S2E.Ini

/-- `HipparcosData`, hipparcos_catalogue.hpp:21-26. -/
structure Star where
  id : ℤ
  magnitude : ℝ
  rightAscension : ℝ
  declination : ℝ

/-- `stream >> word` on the unread characters (`std::basic_istream` extraction of a string): white space is skipped, the word ends before the next white space.
The end-of-file flag is set exactly when nothing is left afterwards. -/
def word (s : Str) : Str × Str :=
  let t := s.dropWhile isSpace
  (t.takeWhile (fun c => !isSpace c), t.dropWhile (fun c => !isSpace c))

theorem word_lt (s : Str) (h : (word s).1 ≠ []) : (word s).2.length < s.length := by
  simp only [word] at h ⊢
  have h1 : (s.dropWhile isSpace).length ≤ s.length := (List.dropWhile_sublist _).length_le
  have h2 := congrArg List.length (List.takeWhile_append_dropWhile (p := fun c => !isSpace c) (l := s.dropWhile isSpace))
  rw [List.length_append] at h2
  have h3 := List.length_pos_iff.2 h
  omega

/-- The loop of `ReadContents`, hipparcos_catalogue.cpp:35-50, entered with the end-of-file flag not set. When only white space is left, the word is empty, no
value is extracted, and the comparison of line 46 reads a magnitude that was never written. -/
noncomputable def readLoop (parse : Str → Option Star) (limit : ℝ) (s : Str) : Res (List Star) :=
  if h : (word s).1 = [] then .ub
  else
    match parse (word s).1 with
    | none => .ub
    | some d =>
      if d.magnitude > limit then .ok []
      else if (word s).2 = [] then .ok [d]
      else (readLoop parse limit (word s).2).bind fun l => .ok (d :: l)
termination_by s.length
decreasing_by exact word_lt s h

/-- `ReadContents` on an empty catalogue, hipparcos_catalogue.cpp:24-53: return value and contents. `file = none`: the file cannot be opened. -/
noncomputable def readContents (parse : Str → Option Star) (enabled : Bool) (limit : ℝ) (file : Option Str) : Res (Bool × List Star) :=
  if !enabled then .ok (false, [])
  else
    match file with
    | none => .ok (false, [])
    | some s =>
      if (word s).2 = [] then .ok (true, [])
      else (readLoop parse limit (word s).2).bind fun l => .ok (true, l)

/-- `math::deg_to_rad`, constants.hpp:39. -/
noncomputable def degToRad : ℝ := Real.pi / 180

/-- `hipparcos_catalogue_[rank]` in the getters, hipparcos_catalogue.hpp:64-82. -/
def star (l : List Star) (rank : ℕ) : Res Star :=
  match l[rank]? with
  | none => .ub
  | some s => .ok s

/-- `GetStarDirection_i`, hipparcos_catalogue.cpp:55-65. -/
noncomputable def directionI (l : List Star) (rank : ℕ) : Res (Vec 3) :=
  (star l rank).bind fun s =>
    let ra := s.rightAscension * degToRad
    let de := s.declination * degToRad
    .ok ![Real.cos ra * Real.cos de, Real.sin ra * Real.cos de, Real.sin de]

/-- `GetStarDirection_b`, hipparcos_catalogue.cpp:67-75. -/
noncomputable def directionB (l : List Star) (rank : ℕ) (q : Quat) : Res (Vec 3) :=
  (directionI l rank).bind fun d => .ok (q.frameConversion d)

end S2E.Hip
