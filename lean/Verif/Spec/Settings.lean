import Verif.Model.InitOrbit
/-!
# Specification: what is written in a settings file

`rd` reads the text of an entry; a file gives the text of each entry, by section and key.
-/
namespace S2E.Settings
open Log InitOrbit

variable (rd : Reader) (file : File) (sec key : Str)

/-- The entry is there and is read as the number `x`. -/
def Number (x : ℝ) : Prop := ∃ text, file sec key = some text ∧ rd.getReal text = x
/-- The entry is there and is read as the integer `n`. -/
def Integer (n : ℤ) : Prop := ∃ text, file sec key = some text ∧ rd.getInteger text = n
/-- The entry is there and is read as the text `s`. -/
def Text (s : Str) : Prop := ∃ text, file sec key = some text ∧ Ini.process rd.paths text = s
/-- The entries `key(0)`, `key(1)`, `key(2)` are the components of `v`. -/
def Triple (v : Vec 3) : Prop := ∀ i : Fin 3, Number rd file sec (key ++ "(".toList ++ dec i ++ ")".toList) (v i)
/-- The entries `key(0)` … `key(8)` are the entries of `m`, row by row. -/
def Grid (m : Mat 3 3) : Prop := ∀ i j : Fin 3, Number rd file sec (key ++ "(".toList ++ dec (3 * i + j) ++ ")".toList) (m i j)
/-- The entries `key_(0)` … `key_(3)` are the components of the quaternion `q`, which is not zero. -/
def Quaternion (q : Quat) : Prop :=
  q ≠ ⟨0, 0, 0, 0⟩ ∧ Number rd file sec (key ++ "_(0)".toList) q.x ∧ Number rd file sec (key ++ "_(1)".toList) q.y ∧ Number rd file sec (key ++ "_(2)".toList) q.z ∧
    Number rd file sec (key ++ "_(3)".toList) q.w

/-- A name followed by a number. -/
def numbered (name : String) (id : ℤ) : Str := name.toList ++ (if id < 0 then "-".toList else []) ++ dec id.natAbs

/-- The least common prescaler is 1. -/
def atLeastOne (n : ℤ) : ℕ := (max 1 n).toNat

end S2E.Settings
