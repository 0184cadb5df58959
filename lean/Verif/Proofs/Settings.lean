import Verif.Spec.Settings
import Verif.Model.InitAocs
import Verif.Props.Log
/-!
# Reading what is written
-/
namespace S2E.Settings
open Log InitOrbit InitAocs

variable {rd : Reader} {file : File} {sec key : Str}

theorem Number.read {x : ℝ} (h : Number rd file sec key x) : Ini.readDouble rd.getReal (file sec) key = x := by
  obtain ⟨t, h, ht⟩ := h
  unfold Ini.readDouble; rw [h]; exact ht

theorem Integer.read {n : ℤ} (h : Integer rd file sec key n) : rd.int (file sec) key = n := by
  obtain ⟨t, h, ht⟩ := h
  unfold Reader.int; rw [h]; exact ht

theorem Text.read {s : Str} (h : Text rd file sec key s) : Ini.readString rd.paths (file sec) key = s := by
  obtain ⟨t, h, ht⟩ := h
  unfold Ini.readString; rw [h]; exact ht

theorem Triple.read {v : Vec 3} (h : Triple rd file sec key v) : rd.vec3 (file sec) key = v := by
  funext i
  exact (h i).read

theorem Grid.read {m : Mat 3 3} (h : Grid rd file sec key m) (i j : Fin 3) : Ini.readDouble rd.getReal (file sec) (Ini.indexedKey key (i.val * 3 + j.val)) = m i j := by
  rw [Nat.mul_comm]
  exact (h i j).read

theorem Quaternion.read {q : Quat} (h : Quaternion rd file sec key q) : InitAttitude.readQuat rd (file sec) key = q := by
  classical
  obtain ⟨h0, h1, h2, h3, h4⟩ := h
  have e1 : Ini.readDouble rd.getReal (file sec) (key ++ "_(".toList ++ dec 0 ++ ")".toList) = q.x := by
    have hd : dec 0 = "0".toList := by decide +kernel
    rw [hd]
    simpa using h1.read
  have e2 : Ini.readDouble rd.getReal (file sec) (key ++ "_(".toList ++ dec 1 ++ ")".toList) = q.y := by
    have hd : dec 1 = "1".toList := by decide +kernel
    rw [hd]
    simpa using h2.read
  have e3 : Ini.readDouble rd.getReal (file sec) (key ++ "_(".toList ++ dec 2 ++ ")".toList) = q.z := by
    have hd : dec 2 = "2".toList := by decide +kernel
    rw [hd]
    simpa using h3.read
  have e4 : Ini.readDouble rd.getReal (file sec) (key ++ "_(".toList ++ dec 3 ++ ")".toList) = q.w := by
    have hd : dec 3 = "3".toList := by decide +kernel
    rw [hd]
    simpa using h4.read
  unfold InitAttitude.readQuat Ini.readQuaternion
  dsimp only
  split
  · next hz =>
    rw [e1, e2, e3, e4] at hz
    exfalso
    apply h0
    have : q.x * q.x + q.y * q.y + q.z * q.z + q.w * q.w = 0 := by linarith
    have a : q.x = 0 := by nlinarith [mul_self_nonneg q.x, mul_self_nonneg q.y, mul_self_nonneg q.z, mul_self_nonneg q.w]
    have b : q.y = 0 := by nlinarith [mul_self_nonneg q.x, mul_self_nonneg q.y, mul_self_nonneg q.z, mul_self_nonneg q.w]
    have c : q.z = 0 := by nlinarith [mul_self_nonneg q.x, mul_self_nonneg q.y, mul_self_nonneg q.z, mul_self_nonneg q.w]
    have d : q.w = 0 := by nlinarith [mul_self_nonneg q.x, mul_self_nonneg q.y, mul_self_nonneg q.z, mul_self_nonneg q.w]
    ext <;> assumption
  · dsimp only; rw [e1, e2, e3, e4]

theorem numbered_eq (name : String) (id : ℤ) : name.toList ++ idStr id = numbered name id := by
  unfold idStr numbered
  split <;> simp

theorem prescaler_read {n : ℤ} (h : Integer rd file sec "prescaler".toList n) : prescalerOf rd (file sec) = atLeastOne n := by
  unfold prescalerOf atLeastOne
  rw [h.read]
  split <;> omega

end S2E.Settings
