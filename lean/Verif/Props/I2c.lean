import Verif.Model.I2c
import Verif.Spec.I2c
import Mathlib.Tactic.SplitIfs
import Mathlib.Data.List.Induction
/-!
# Properties C09–C13: I2C and GPIO
-/
namespace S2E
namespace I2cPort

/-- One operation on a port. -/
def apply (p : I2cPort) : I2cOp → I2cPort
  | .register a => p.registerDevice a
  | .setAddress a r => (p.setRegisterAddress a r).1
  | .write a r v => (p.writeRegister a r v).1
  | .readNext a => (p.readNext a).1
  | .read a r => (p.readRegister a r).1
  | .command a data => (p.writeCommand a data).1
  | .readCommand _ _ => p

/-- The state of a port with `max` registers after a history. -/
def after (max : Byte) (history : List I2cOp) : I2cPort := history.foldl apply (new max)

theorem foldl_upd (a : Byte) (v : Nat → Byte) (n : Nat) (hn : n ≤ 256) (m : Byte → Byte → Byte) (a' r : Byte) :
    (List.range n).foldl (fun m i => upd m a (UInt8.ofNat i) (v i)) m a' r =
      if a' = a ∧ r.toNat < n then v r.toNat else m a' r := by
  induction n with
  | zero => simp
  | succ n ih =>
    rw [List.range_succ, List.foldl_append, List.foldl_cons, List.foldl_nil, upd, ih (by omega)]
    have hr : (r = UInt8.ofNat n) ↔ r.toNat = n := by
      constructor
      · rintro rfl; simp; omega
      · rintro rfl; simp
    by_cases ha : a' = a
    · by_cases hrn : r.toNat = n
      · simp [ha, hr, hrn]
      · simp only [ha, hr, hrn, true_and, and_false, if_false]
        have : (r.toNat < n) ↔ (r.toNat < n + 1) := by omega
        simp [this]
    · simp [ha]

theorem ge_iff {x y : Byte} : x ≥ y ↔ y.toNat ≤ x.toNat := UInt8.le_iff_toNat_le

theorem apply_maxReg (p : I2cPort) (op : I2cOp) : (p.apply op).maxReg = p.maxReg := by
  cases op <;> simp only [apply, registerDevice, setRegisterAddress, writeRegister, readNext, readRegister, writeCommand]
  all_goals (repeat' split) <;> rfl

theorem apply_regs (p : I2cPort) (op : I2cOp) (a r : Byte) :
    (p.apply op).regs a r = (op.stores p.maxReg.toNat a r).getD (p.regs a r) := by
  cases op with
  | register a' =>
    simp only [apply, registerDevice, I2cOp.stores]
    rw [foldl_upd a' (fun _ => 0) _ (by have := p.maxReg.toNat_lt; omega)]
    by_cases h : a' = a ∧ r.toNat < p.maxReg.toNat
    · simp [h]
    · rw [if_neg (by rintro ⟨h1, h2⟩; exact h ⟨h1.symm, h2⟩), if_neg h]; rfl
  | setAddress a' r' => simp only [apply, setRegisterAddress, I2cOp.stores]; split <;> rfl
  | write a' r' v =>
    simp only [apply, writeRegister, I2cOp.stores, ge_iff]
    by_cases h : a' = a ∧ r' = r
    · obtain ⟨rfl, rfl⟩ := h
      by_cases h1 : p.maxReg.toNat ≤ r'.toNat
      · rw [if_pos h1, if_neg (fun x => absurd x.2.2 (by omega))]; rfl
      · rw [if_neg h1, if_pos ⟨rfl, rfl, by omega⟩]; simp [upd]
    · have h1 : ¬ (a' = a ∧ r' = r ∧ r.toNat < p.maxReg.toNat) := fun x => h ⟨x.1, x.2.1⟩
      have h2 : ¬ (a = a' ∧ r = r') := fun x => h ⟨x.1.symm, x.2.symm⟩
      rw [if_neg h1]
      split
      · rfl
      · simp [upd, h2]
  | readNext a' => rfl
  | read a' r' => simp only [apply, readRegister, I2cOp.stores]; split <;> rfl
  | command a' data =>
    simp only [apply, writeCommand]
    match data with
    | [] => simp [I2cOp.stores]
    | [x] => simp only [I2cOp.stores, setRegisterAddress]; simp; split <;> rfl
    | [x, v] =>
      simp only [I2cOp.stores, writeRegister, ge_iff]
      simp only [List.length_cons, List.length_nil, List.getD_cons_zero, List.getD_cons_succ]
      simp only [Nat.zero_add, Nat.reduceAdd, Nat.reduceGT, Nat.reduceLT, Nat.reduceEqDiff, gt_iff_lt, if_false, if_true]
      by_cases h : a' = a ∧ x = r
      · obtain ⟨rfl, rfl⟩ := h
        by_cases h1 : p.maxReg.toNat ≤ x.toNat
        · rw [if_pos h1, if_neg (fun x => absurd x.2.2 (by omega))]; rfl
        · rw [if_neg h1, if_pos ⟨rfl, rfl, by omega⟩]; simp [upd]
      · have h1 : ¬ (a' = a ∧ x = r ∧ r.toNat < p.maxReg.toNat) := fun x => h ⟨x.1, x.2.1⟩
        have h2 : ¬ (a = a' ∧ r = x) := fun x => h ⟨x.1.symm, x.2.symm⟩
        rw [if_neg h1]
        split
        · rfl
        · simp [upd, h2]
    | x :: y :: z :: rest =>
      simp only [I2cOp.stores, List.length_cons]
      split
      · rfl
      · rw [if_neg (by omega), if_neg (by omega)]; rfl
  | readCommand a' n => rfl

theorem apply_cmds (p : I2cPort) (op : I2cOp) (a i : Byte) :
    (p.apply op).cmds a i = (op.storesCmd a i).getD (p.cmds a i) := by
  cases op with
  | register a' =>
    simp only [apply, registerDevice, I2cOp.storesCmd]
    rw [foldl_upd a' (fun _ => 0) _ (by omega)]
    by_cases h : a' = a ∧ i.toNat < 255
    · simp [h]
    · rw [if_neg (by rintro ⟨h1, h2⟩; exact h ⟨h1.symm, h2⟩), if_neg h]; rfl
  | setAddress a' r' => simp only [apply, setRegisterAddress, I2cOp.storesCmd]; split <;> rfl
  | write a' r' v => simp only [apply, writeRegister, I2cOp.storesCmd]; split <;> rfl
  | readNext a' => rfl
  | read a' r' => simp only [apply, readRegister, I2cOp.storesCmd]; split <;> rfl
  | readCommand a' n => rfl
  | command a' data =>
    simp only [apply, writeCommand, I2cOp.storesCmd]
    by_cases hl : data.length > 255
    · rw [if_pos hl, if_neg (by omega)]; rfl
    · rw [if_neg hl]
      have key : ∀ q : I2cPort, ((if data.length = 1 then (q.setRegisterAddress a' (data.getD 0 0)).1 else q)).cmds =
          q.cmds := by
        intro q; unfold setRegisterAddress; repeat' split
        all_goals rfl
      have key2 : ∀ q : I2cPort, ((if data.length = 2 then
          (q.writeRegister a' (data.getD 0 0) (data.getD 1 0)).1 else q)).cmds = q.cmds := by
        intro q; unfold writeRegister; repeat' split
        all_goals rfl
      simp only [key2, key]
      rw [foldl_upd a' (fun i => data.getD i 0) _ (by omega)]
      by_cases ha : a = a'
      · subst ha
        by_cases hi : i.toNat < data.length
        · simp [hi, show data.length ≤ 255 by omega, List.getD]
        · have : data[i.toNat]? = none := by simp; omega
          simp [hi, this]
      · have ha' : ¬ a' = a := fun e => ha e.symm
        simp [ha, ha']

theorem after_snoc (max : Byte) (h : List I2cOp) (op : I2cOp) : after max (h ++ [op]) = (after max h).apply op := by
  simp [after, List.foldl_append]

theorem lastStored_snoc (f : I2cOp → Option Byte) (h : List I2cOp) (op : I2cOp) :
    lastStored f (h ++ [op]) = (f op).getD (lastStored f h) := by
  unfold lastStored
  rw [List.reverse_append]
  simp only [List.reverse_cons, List.reverse_nil, List.nil_append, List.singleton_append, List.findSome?_cons]
  cases f op <;> rfl

theorem after_maxReg (max : Byte) (h : List I2cOp) : (after max h).maxReg = max := by
  induction h using List.reverseRecOn with
  | nil => rfl
  | append_singleton h op ih => rw [after_snoc, apply_maxReg, ih]

theorem after_regs (max : Byte) (h : List I2cOp) (a r : Byte) :
    (after max h).regs a r = lastStored (·.stores max.toNat a r) h := by
  induction h using List.reverseRecOn with
  | nil => rfl
  | append_singleton h op ih => rw [after_snoc, apply_regs, ih, after_maxReg, lastStored_snoc]

theorem after_cmds (max : Byte) (h : List I2cOp) (a i : Byte) :
    (after max h).cmds a i = lastStored (·.storesCmd a i) h := by
  induction h using List.reverseRecOn with
  | nil => rfl
  | append_singleton h op ih => rw [after_snoc, apply_cmds, ih, lastStored_snoc]

/-- **C09.** After any history of operations on a port with `max` registers, `ReadRegister(a, r)` of an in-range register
returns the value most recently stored there by any write path (0 if none since the last registration), an out-of-range
read returns 0 and changes nothing, an in-range write returns 1 and an out-of-range write returns 0 and changes nothing. -/
theorem C09_i2c_map (max : Byte) (history : List I2cOp) (a r v : Byte) :
    (r.toNat < max.toNat →
      ((after max history).readRegister a r).2 = lastStored (·.stores max.toNat a r) history ∧
      ((after max history).writeRegister a r v).2 = 1) ∧
    (max.toNat ≤ r.toNat →
      (after max history).readRegister a r = (after max history, 0) ∧
      (after max history).writeRegister a r v = (after max history, 0) ∧
      (after max history).setRegisterAddress a r = (after max history, 0)) := by
  constructor
  · intro h
    have : ¬ (r ≥ (after max history).maxReg) := by rw [after_maxReg, ge_iff]; omega
    simp [readRegister, writeRegister, this, after_regs]
  · intro h
    have : r ≥ (after max history).maxReg := by rw [after_maxReg, ge_iff]; omega
    simp [readRegister, writeRegister, setRegisterAddress, this]

/-- Non-vacuity of C09: the value written through a 2-byte command, not disturbed by another device. -/
example : ((after 255 [.register 1, .register 2, .command 1 [7, 42], .write 2 7 9]).readRegister 1 7).2 = 42 := by
  rw [((C09_i2c_map 255 _ 1 7 0).1 (by decide)).1]; decide

/-- `k` consecutive reads without register address. -/
def readMany : Nat → I2cPort → Byte → List Byte
  | 0, _, _ => []
  | k + 1, p, a => (p.readNext a).2 :: readMany k (p.readNext a).1 a

theorem readMany_eq (k : Nat) : ∀ (p : I2cPort) (a : Byte), p.saved.toNat < p.maxReg.toNat →
    readMany k p a = (List.range k).map fun i => p.regs a (UInt8.ofNat ((p.saved.toNat + i) % p.maxReg.toNat)) := by
  induction k with
  | zero => intros; rfl
  | succ k ih =>
    intro p a hs
    have hm : p.maxReg.toNat < 256 := p.maxReg.toNat_lt
    have h1 : (p.saved + 1).toNat = p.saved.toNat + 1 := by
      rw [UInt8.toNat_add]; simp; omega
    have hsaved : (p.readNext a).1.saved.toNat = (p.saved.toNat + 1) % p.maxReg.toNat := by
      simp only [readNext]
      split_ifs with h
      · rw [ge_iff, h1] at h
        have : p.saved.toNat + 1 = p.maxReg.toNat := by omega
        simp [this]
      · rw [ge_iff, h1] at h
        rw [h1, Nat.mod_eq_of_lt (by omega)]
    have hpos : 0 < p.maxReg.toNat := by omega
    rw [readMany, ih _ _ (by rw [hsaved]; exact Nat.mod_lt _ hpos), List.range_succ_eq_map]
    simp only [List.map_cons, List.map_map, Nat.add_zero]
    congr 1
    · simp [readNext, Nat.mod_eq_of_lt hs]
    · apply List.map_congr_left
      intro i _
      simp only [Function.comp]
      rw [hsaved]
      have : (p.readNext a).1.maxReg = p.maxReg ∧ (p.readNext a).1.regs = p.regs := ⟨rfl, rfl⟩
      rw [this.1, this.2]
      congr 2
      rw [Nat.mod_add_mod]; congr 1; omega

/-- **C10.** After any history, setting the register address to `r < max` (through any device address) and then performing
`k` address-less reads of device `a` returns registers `r, r+1, …` of that device, wrapping from `max-1` to 0. -/
theorem C10_i2c_sequential (max : Byte) (history : List I2cOp) (a a' r : Byte) (k : Nat) (hr : r.toNat < max.toNat) :
    ((after max history).setRegisterAddress a' r).2 = 1 ∧
    readMany k ((after max history).setRegisterAddress a' r).1 a =
      (List.range k).map fun i =>
        lastStored (·.stores max.toNat a (UInt8.ofNat ((r.toNat + i) % max.toNat))) history := by
  have hn : ¬ (r ≥ (after max history).maxReg) := by rw [after_maxReg, ge_iff]; omega
  simp only [setRegisterAddress, hn, if_false, true_and]
  rw [readMany_eq]
  · apply List.map_congr_left
    intro i _
    simp only [after_maxReg, after_regs]
  · simpa [after_maxReg] using hr

/-- Non-vacuity of C10: wrapping on a port with 3 registers. -/
example : readMany 4 ((after 3 [.write 5 0 10, .write 5 1 11, .write 5 2 12]).setRegisterAddress 5 1).1 5 =
    [11, 12, 10, 11] := by
  rw [(C10_i2c_sequential 3 _ 5 5 1 4 (by decide)).2]; decide

/-- **C11 (command buffer).** After any history, `ReadCommand(a, n)` with `n ≤ 255` returns at each position the byte most
recently written there by a command (or registration) of device `a`; in particular a command written last is read back
byte for byte. -/
theorem C11_i2c_command_buffer (max : Byte) (history : List I2cOp) (a : Byte) :
    (∀ n, n ≤ 255 → (after max history).readCommand a n =
      (List.range n).map fun i => lastStored (·.storesCmd a (UInt8.ofNat i)) history) ∧
    (∀ data : List Byte, data.length ≤ 255 →
      (after max (history ++ [.command a data])).readCommand a data.length = data) := by
  have h1 : ∀ h n, n ≤ 255 → (after max h).readCommand a n =
      (List.range n).map fun i => lastStored (·.storesCmd a (UInt8.ofNat i)) h := by
    intro h n hn
    simp only [readCommand, show ¬ n > 255 by omega, if_false]
    apply List.map_congr_left
    intro i _
    rw [after_cmds]
  refine ⟨fun n hn => h1 history n hn, fun data hd => ?_⟩
  rw [h1 _ _ hd]
  apply List.ext_getElem
  · simp
  · intro i h2 h3
    simp only [List.getElem_map, List.getElem_range, lastStored_snoc, I2cOp.storesCmd]
    have : (UInt8.ofNat i).toNat = i := by simp; omega
    rw [this]
    simp [hd, h3]

/-- **C11 (side effects).** A command changes registers only if it has exactly two bytes, in which case it has exactly the
effect of `WriteRegister(a, data[0], data[1])` on the registers and the register pointer; a one-byte command moves the register
pointer exactly as `WriteRegister(a, data[0])` does; other lengths leave both alone. The return value is the length. -/
theorem C11_i2c_command_effects (p : I2cPort) (a : Byte) (data : List Byte) (hd : data.length ≤ 255) :
    (p.writeCommand a data).2 = data.length ∧
    (∀ x, data = [x] → (p.writeCommand a data).1.regs = p.regs ∧
      (p.writeCommand a data).1.saved = (p.setRegisterAddress a x).1.saved) ∧
    (∀ x v, data = [x, v] → (p.writeCommand a data).1.regs = (p.writeRegister a x v).1.regs ∧
      (p.writeCommand a data).1.saved = (p.writeRegister a x v).1.saved) ∧
    (data.length ≠ 1 → data.length ≠ 2 → (p.writeCommand a data).1.regs = p.regs ∧
      (p.writeCommand a data).1.saved = p.saved) := by
  refine ⟨by simp [writeCommand, show ¬ data.length > 255 by omega], ?_, ?_, ?_⟩
  · rintro x rfl
    simp only [writeCommand, setRegisterAddress]
    simp
    split <;> simp
  · rintro x v rfl
    simp only [writeCommand, writeRegister]
    simp
    split <;> simp
  · intro h1 h2
    simp [writeCommand, show ¬ data.length > 255 by omega, h1, h2]

/-- Non-vacuity of C11: a five-byte command, read back. -/
example : (after 255 ([.register 9] ++ [.command 9 [1, 2, 3, 4, 5]])).readCommand 9 5 = [1, 2, 3, 4, 5] :=
  (C11_i2c_command_buffer 255 [.register 9] 9).2 [1, 2, 3, 4, 5] (by decide)

end I2cPort

namespace ObcI2c
open I2cPort

theorem ofNat_toNat {n : Nat} (h : n < 256) : (UInt8.ofNat n).toNat = n := by simp; omega

theorem writeLoop_spec (a r : Byte) (data : List Byte) : ∀ (i : Nat) (p : I2cPort),
    r.toNat + i + data.length ≤ p.maxReg.toNat →
    (writeLoop a r i p data).maxReg = p.maxReg ∧
    ∀ a' x, (writeLoop a r i p data).regs a' x =
      if a' = a ∧ r.toNat + i ≤ x.toNat ∧ x.toNat < r.toNat + i + data.length then
        data.getD (x.toNat - (r.toNat + i)) 0 else p.regs a' x := by
  induction data with
  | nil =>
    intro i p _
    refine ⟨rfl, fun a' x => ?_⟩
    rw [if_neg (by rintro ⟨_, h1, h2⟩; simp at h2; omega)]; rfl
  | cons v vs ih =>
    intro i p hb
    simp only [List.length_cons] at hb
    have hm := p.maxReg.toNat_lt
    have hri : (r + UInt8.ofNat i).toNat = r.toNat + i := by
      rw [UInt8.toNat_add, ofNat_toNat (by omega)]; omega
    have hn : ¬ (r + UInt8.ofNat i ≥ p.maxReg) := by rw [ge_iff, hri]; omega
    have hw : (p.writeRegister a (r + UInt8.ofNat i) v).1 =
        { p with saved := r + UInt8.ofNat i, regs := upd p.regs a (r + UInt8.ofNat i) v } := by
      simp [writeRegister, hn]
    rw [writeLoop, hw]
    obtain ⟨h1, h2⟩ := ih (i + 1) { p with saved := r + UInt8.ofNat i, regs := upd p.regs a (r + UInt8.ofNat i) v }
      (by simp only; omega)
    refine ⟨h1, fun a' x => ?_⟩
    rw [h2]
    by_cases ha : a' = a
    · subst ha
      have hx : (x = r + UInt8.ofNat i) ↔ x.toNat = r.toNat + i := by
        rw [← UInt8.toNat_inj, hri]
      by_cases hxe : x.toNat = r.toNat + i
      · rw [if_neg (by omega), if_pos (by simp; omega)]
        simp [upd, hx.2 hxe, hri]
      · have hne : ¬ x = r + UInt8.ofNat i := fun e => hxe (hx.1 e)
        by_cases hin : r.toNat + (i + 1) ≤ x.toNat ∧ x.toNat < r.toNat + (i + 1) + vs.length
        · rw [if_pos ⟨rfl, hin⟩, if_pos (by simp; omega)]
          have : x.toNat - (r.toNat + i) = x.toNat - (r.toNat + (i + 1)) + 1 := by omega
          rw [this]; simp
        · rw [if_neg (by simpa using hin), if_neg (by simp; omega)]
          simp [upd, hne]
    · simp [ha, upd]

theorem readLoop_spec (a r : Byte) (n : Nat) : ∀ (i : Nat) (p : I2cPort), r.toNat + i + n ≤ p.maxReg.toNat →
    (readLoop (fun p i => p.readRegister a (r + UInt8.ofNat i)) n i p).2 =
      (List.range n).map fun j => p.regs a (UInt8.ofNat (r.toNat + i + j)) := by
  induction n with
  | zero => intros; rfl
  | succ n ih =>
    intro i p hb
    have hm := p.maxReg.toNat_lt
    have hri : (r + UInt8.ofNat i).toNat = r.toNat + i := by
      rw [UInt8.toNat_add, ofNat_toNat (by omega)]; omega
    have hn : ¬ (r + UInt8.ofNat i ≥ p.maxReg) := by rw [ge_iff, hri]; omega
    have hw : p.readRegister a (r + UInt8.ofNat i) = ({ p with saved := r + UInt8.ofNat i }, p.regs a (r + UInt8.ofNat i)) := by
      simp [readRegister, hn]
    simp only [readLoop, hw]
    rw [ih (i + 1) { p with saved := r + UInt8.ofNat i } (by simp only; omega)]
    rw [List.range_succ_eq_map]
    simp only [List.map_cons, List.map_map, Nat.add_zero]
    congr 1
    · congr 1
      rw [← UInt8.toNat_inj, hri, ofNat_toNat (by omega)]
    · apply List.map_congr_left
      intro j _
      simp only [Function.comp]
      congr 2; omega

/-- **C12 for `ObcWithC2a`.** Writing a block of bytes at register `r` of device `a` on a connected port with
`I2cComponentWriteRegister` and reading it back with `I2cComponentReadRegister` yields the block, when the block fits the
register file (`r + L ≤` number of registers); every register outside the block, every other device and every other port
are unchanged. Missing for the full property: the plain `OnBoardComputer`, for which it is false (next theorems). -/
theorem C12_block_roundtrip_partial (o : ObcI2c) (port : Int) (p : I2cPort) (hp : o port = some p) (a r : Byte)
    (data : List Byte) (hfit : r.toNat + data.length ≤ p.maxReg.toNat) :
    ∃ o1 o2, o.c2aWriteRegister port a r data = .ok o1 ∧
      o1.c2aReadRegister port a r data.length = .ok (o2, data) ∧
      (∀ q, q ≠ port → o1 q = o q) ∧
      (∃ p1, o1 port = some p1 ∧ ∀ a' x, (a' ≠ a ∨ x.toNat < r.toNat ∨ r.toNat + data.length ≤ x.toNat) →
        p1.regs a' x = p.regs a' x) := by
  obtain ⟨h1, h2⟩ := writeLoop_spec a r data 0 p (by omega)
  refine ⟨o.set port (some (writeLoop a r 0 p data)), (o.set port (some (writeLoop a r 0 p data))).set port
    (some (readLoop (fun p i => p.readRegister a (r + UInt8.ofNat i)) data.length 0 (writeLoop a r 0 p data)).1),
    by simp [c2aWriteRegister, hp], ?_, ?_, ⟨writeLoop a r 0 p data, by simp [set], ?_⟩⟩
  · simp only [c2aReadRegister, set, if_true]
    have := readLoop_spec a r data.length 0 (writeLoop a r 0 p data) (by rw [h1]; omega)
    rw [Res.ok.injEq, Prod.mk.injEq]
    refine ⟨rfl, ?_⟩
    rw [this]
    have hm := p.maxReg.toNat_lt
    apply List.ext_getElem
    · simp
    · intro i h3 h4
      simp only [List.getElem_map, List.getElem_range, Nat.add_zero]
      rw [h2, ofNat_toNat (by omega), if_pos (by simp; omega)]
      simp [List.getD, h4]
  · intro q hq; simp [set, hq]
  · intro a' x hx
    rw [h2, if_neg]
    rintro ⟨e, h3, h4⟩
    rcases hx with hx | hx | hx
    · exact hx e
    · omega
    · omega

/-- Non-vacuity of C12. -/
example : ∃ o1 o2, c2aWriteRegister (connectPort (fun _ => none) 0 0x40).1 0 0x40 10 [1, 2, 3] = .ok o1 ∧
    o1.c2aReadRegister 0 0x40 10 3 = .ok (o2, [1, 2, 3]) := by
  obtain ⟨o1, o2, h1, h2, _⟩ := C12_block_roundtrip_partial (connectPort (fun _ => none) 0 0x40).1 0 _ rfl 0x40 10
    [1, 2, 3] (by show 10 + 3 ≤ 255; omega)
  exact ⟨o1, o2, h1, h2⟩

theorem plain_read_const (a r : Byte) (n : Nat) : ∀ (i : Nat) (p : I2cPort),
    (readLoop (fun p _ => p.readRegister r a) n i p).2 =
      List.replicate n (if a.toNat < p.maxReg.toNat then p.regs r a else 0) := by
  induction n with
  | zero => intros; rfl
  | succ n ih =>
    intro i p
    by_cases h : a ≥ p.maxReg
    · have hw : p.readRegister r a = (p, 0) := by simp [readRegister, h]
      simp only [readLoop, hw, ih]
      rw [ge_iff] at h
      rw [List.replicate_succ, if_neg (by omega)]
    · have hw : p.readRegister r a = ({ p with saved := a }, p.regs r a) := by simp [readRegister, h]
      simp only [readLoop, hw, ih]
      rw [ge_iff] at h
      rw [List.replicate_succ, if_pos (by omega)]

/-- **C12, what the plain `OnBoardComputer` does.** `I2cComponentReadRegister(a, r, L)` returns `L` copies of register `a` of
device `r` (the addresses are exchanged), whatever was written. -/
theorem C12_plain_read_exact (o : ObcI2c) (port : Int) (p : I2cPort) (hp : o port = some p) (a r : Byte) (n : Nat) :
    ∃ o2, o.plainReadRegister port a r n =
      .ok (o2, List.replicate n (if a.toNat < p.maxReg.toNat then p.regs r a else 0)) := by
  refine ⟨_, by simp only [plainReadRegister, hp]; rw [plain_read_const]⟩

/-- **C12 is false for the plain `OnBoardComputer`.** Device 0x40 on a freshly connected port: the block `[1, 2]` written at
register 0 reads back as `[0, 0]`; and a two-byte block leaves only its last byte, in the first register. -/
theorem C12_plain_fails :
    ∃ o1 o2, plainWriteRegister (connectPort (fun _ => none) 0 0x40).1 0 0x40 0 [1, 2] = .ok o1 ∧
      o1.plainReadRegister 0 0x40 0 2 = .ok (o2, [0, 0]) ∧
      ∃ p1, o1 0 = some p1 ∧ p1.regs 0x40 0 = 2 ∧ p1.regs 0x40 1 = 0 := by
  have hreg : ∀ a r, (({} : I2cPort).registerDevice 0x40).regs a r = 0 := by
    intro a r
    simp only [registerDevice]
    rw [foldl_upd 0x40 (fun _ => 0) _ (by decide)]
    split <;> rfl
  have hmax : (({} : I2cPort).registerDevice 0x40).maxReg = 0xff := rfl
  generalize hq : ({} : I2cPort).registerDevice 0x40 = q at hreg hmax
  have hw : ([1, 2] : List Byte).foldl (fun p v => (I2cPort.writeRegister p 0x40 0 v).1) q =
      { q with saved := 0, regs := upd (upd q.regs 0x40 0 1) 0x40 0 2 } := by
    simp [writeRegister, hmax]
  have e1 : plainWriteRegister (connectPort (fun _ => none) 0 0x40).1 0 0x40 0 [1, 2] =
      .ok (((connectPort (fun _ => none) 0 0x40).1).set 0
        (some { q with saved := 0, regs := upd (upd q.regs 0x40 0 1) 0x40 0 2 })) := by
    have : (connectPort (fun _ => none) 0 0x40).1 0 = some q := by simp [connectPort, set, hq]
    simp only [plainWriteRegister, this, hw]
  obtain ⟨o2, h2⟩ := C12_plain_read_exact _ 0 _ (show (((connectPort (fun _ => none) 0 0x40).1).set 0
    (some { q with saved := 0, regs := upd (upd q.regs 0x40 0 1) 0x40 0 2 })) 0 = some _ by simp [set]; rfl) 0x40 0 2
  refine ⟨_, o2, e1, ?_, _, by simp [set]; rfl, by simp [upd], by simp [upd, hreg]⟩
  rw [h2]
  simp [hmax, upd, hreg]

/-- **C12 (OBC side, `ObcWithC2a`).** A block written by the OBC (`I2cWriteRegister` with register address followed by the
data) is what the component reads at that register address, when it fits the register file. -/
theorem C12_obc_to_component (o : ObcI2c) (port : Int) (p : I2cPort) (hp : o port = some p) (a r : Byte)
    (data : List Byte) (hne : data ≠ []) (hfit : r.toNat + data.length ≤ p.maxReg.toNat) :
    ∃ o1 o2, o.c2aObcWriteRegister port a (r :: data) = .ok o1 ∧
      o1.c2aReadRegister port a r data.length = .ok (o2, data) := by
  obtain ⟨o1, o2, h1, h2, _⟩ := C12_block_roundtrip_partial o port p hp a r data hfit
  refine ⟨o1, o2, ?_, h2⟩
  cases data with
  | nil => exact absurd rfl hne
  | cons v vs =>
    rw [← h1]
    simp [c2aObcWriteRegister, c2aWriteRegister, hp]

example : ∃ o1 o2, c2aObcWriteRegister (connectPort (fun _ => none) 0 0x40).1 0 0x40 [10, 1, 2] = .ok o1 ∧
    o1.c2aReadRegister 0 0x40 10 2 = .ok (o2, [1, 2]) :=
  C12_obc_to_component (connectPort (fun _ => none) 0 0x40).1 0 _ rfl 0x40 10 [1, 2] (by simp)
    (by show 10 + 2 ≤ 255; omega)

end ObcI2c

namespace GpioPort

/-- A sequence of writes: final state and all notifications. -/
def writes : GpioPort → List Bool → GpioPort × List (Nat × Bool)
  | g, [] => (g, [])
  | g, b :: bs =>
    let (g1, c, _) := g.digitalWrite b
    let (g2, cs) := writes g1 bs
    (g2, c ++ cs)

/-- The level changes in a sequence of levels that starts at `level`. -/
def edges : Bool → List Bool → List Bool
  | _, [] => []
  | level, b :: bs => if b = level then edges b bs else b :: edges b bs

/-- **C13 (port).** After any sequence of writes the port reads the last level written (low initially), and the attached
component was notified exactly of the level changes, in order, with the port id; a port without component notifies
nobody. Every write returns 0. -/
theorem C13_gpio (portId : Nat) (attached : Bool) (ws : List Bool) :
    ((new portId attached).writes ws).1.digitalRead = ws.getLast?.getD false ∧
    ((new portId attached).writes ws).2 = (if attached then (edges false ws).map (fun b => (portId, b)) else []) ∧
    ∀ b, (((new portId attached).writes ws).1.digitalWrite b).2.2 = 0 := by
  have key : ∀ (ws : List Bool) (g : GpioPort), (g.writes ws).1.digitalRead = ws.getLast?.getD g.high ∧
      (g.writes ws).2 = (if g.attached then (edges g.high ws).map (fun b => (g.portId, b)) else []) := by
    intro ws
    induction ws with
    | nil => intro g; simp [writes, digitalRead, edges]
    | cons b bs ih =>
      intro g
      obtain ⟨h1, h2⟩ := ih (g.digitalWrite b).1
      constructor
      · simp only [writes]
        rw [h1]
        cases bs with
        | nil => simp [digitalWrite]
        | cons c cs => rw [List.getLast?_cons_cons, List.getLast?_cons]; rfl
      · simp only [writes]
        rw [h2]
        simp only [digitalWrite, edges]
        by_cases hb : b = g.high
        · simp [hb]
        · have : g.high ≠ b := fun e => hb e.symm
          by_cases ha : g.attached = true <;> simp [hb, this, ha]
  have := key ws (new portId attached)
  exact ⟨this.1, this.2, fun b => rfl⟩

/-- Non-vacuity of C13. -/
example : ((new 4 true).writes [false, true, true, false]) = ({ portId := 4, attached := true, high := false },
    [(4, true), (4, false)]) := by rfl

end GpioPort

namespace ObcGpio

/-- Operations on the GPIO table. -/
inductive Op where
  | connect (port : Int)
  | write (port : Int) (level : Bool)

/-- State after an operation. -/
def apply (o : ObcGpio) : Op → ObcGpio
  | .connect p => (o.connectPort p).1
  | .write p b => (o.write p b).1

/-- Level of port `p` after a history: `none` while not connected, afterwards the last level written since. -/
def levelAfter (p : Int) : Option Bool → List Op → Option Bool
  | l, [] => l
  | l, .connect q :: ops => levelAfter p (if q = p then some (l.getD false) else l) ops
  | l, .write q b :: ops => levelAfter p (if q = p then l.map (fun _ => b) else l) ops

/-- **C13 (OBC).** After any history of connects and writes on any ports, reading port `p` gives the last level written to `p`
since it was connected, low if there is none or if `p` is not connected; writing an unconnected port returns -1 and
changes nothing; connecting a connected port returns -1 and changes nothing. -/
theorem C13_obc_gpio (ops : List Op) (p : Int) (b : Bool) :
    let o := ops.foldl apply (fun _ => none)
    o.read p = (levelAfter p none ops).getD false ∧
    (levelAfter p none ops = none → o.write p b = (o, -1) ∧ (o.connectPort p).2 = 0) ∧
    (levelAfter p none ops ≠ none → (o.write p b).2 = 0 ∧ o.connectPort p = (o, -1)) := by
  intro o
  have key : ∀ (ops : List Op) (o : ObcGpio),
      ((ops.foldl apply o) p).map (·.high) = levelAfter p ((o p).map (·.high)) ops := by
    intro ops
    induction ops with
    | nil => intro o; rfl
    | cons op ops ih =>
      intro o
      rw [List.foldl_cons, ih]
      cases op with
      | connect q =>
        simp only [levelAfter, apply, connectPort]
        by_cases hq : q = p
        · subst hq; cases h : o q <;> simp [GpioPort.new, h]
        · have hq' : p ≠ q := fun e => hq e.symm
          cases h : o q <;> simp [hq, hq']
      | write q b =>
        simp only [levelAfter, apply, write]
        by_cases hq : q = p
        · subst hq; cases h : o q <;> simp [h, GpioPort.digitalWrite]
        · have hq' : p ≠ q := fun e => hq e.symm
          cases h : o q <;> simp [hq, hq']
  have hk : (o p).map (·.high) = levelAfter p none ops := key ops (fun _ => none)
  rw [← hk]
  cases h : o p with
  | none => simp [read, write, connectPort, h]
  | some g => simp [read, write, connectPort, h, GpioPort.digitalRead, GpioPort.digitalWrite]

/-- Non-vacuity of C13 (OBC). -/
example : ObcGpio.read ([Op.write 1 true, .connect 1, .write 1 true, .connect 1, .write 2 false].foldl apply
    (fun _ => none)) 1 = true := by
  rw [(C13_obc_gpio _ 1 true).1]; rfl

end ObcGpio
end S2E
