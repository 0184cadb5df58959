import Verif.Model.HilsI2c
import Mathlib.Data.List.Infix
import Mathlib.Order.Bounds.Basic
import Mathlib.Tactic.Linarith
/-!
# C63: HILS I2C target port
-/
namespace S2E.HilsI2c

/-! ## Specification: what a history of operations means, computed from the operations and the configured register count alone -/

/-- The register address an operation selects, if it is below the register count. -/
def selects (maxReg : Byte) : Op → Option Byte
  | .writeRegister r _ => if r < maxReg then some r else none
  | .readRegister r => if r < maxReg then some r else none
  | .send _ _ => none
  | .receive s => if s.avail ≤ 0 then none else match s.data with
    | some [r] => if r < maxReg then some r else none
    | some [r, _] => if r < maxReg then some r else none
    | _ => none

/-- Address pointer after a history: the address selected last, 0 if none. -/
def pointer (maxReg : Byte) (ops : List Op) : Byte := (ops.filterMap (selects maxReg)).getLast?.getD 0

/-- The register write an operation performs. -/
def writes (maxReg : Byte) : Op → Option (Byte × Byte)
  | .writeRegister r v => if r < maxReg then some (r, v) else none
  | .receive s => if s.avail ≤ 0 then none else match s.data with
    | some [r, v] => if r < maxReg then some (r, v) else none
    | _ => none
  | _ => none

/-- Register content after a history: the value written last, 0 if none. -/
def content (maxReg : Byte) (ops : List Op) (r : Byte) : Byte :=
  (((ops.filterMap (writes maxReg)).filter fun w => w.1 = r).getLast?.map Prod.snd).getD 0

/-- The operation is a one-byte read request from the other side. -/
def isRequest : Op → Bool
  | .receive s => decide (0 < s.avail) && (s.data.map List.length == some 1)
  | _ => false

/-- After history `ops`, sending `n` bytes is accepted exactly when the window starting at the pointer fits into the registers. -/
def Accepts (maxReg : Byte) (ops : List Op) (n : Byte) : Prop := (pointer maxReg ops).toNat + n.toNat ≤ maxReg.toNat

instance (maxReg : Byte) (ops : List Op) (n : Byte) : Decidable (Accepts maxReg ops n) := by unfold Accepts; infer_instance

/-- Balance of operation `op` after history `ops`: +1 for an accepted send, -1 for a request, 0 otherwise. -/
def balance (maxReg : Byte) (ops : List Op) (op : Op) : Int :=
  match op with
  | .send n _ => if Accepts maxReg ops n then 1 else 0
  | op => if isRequest op then -1 else 0

/-- Balance of the operations `cont` following history `ops`. -/
def balanceOf (maxReg : Byte) (ops : List Op) : List Op → Int
  | [] => 0
  | op :: rest => balance maxReg ops op + balanceOf maxReg (ops ++ [op]) rest

/-! ## Proofs -/

theorem setRegisterAddress_fields (p : Port) (r : Byte) :
    (setRegisterAddress p r).saved = (if r < p.maxReg then r else p.saved) ∧ (setRegisterAddress p r).regs = p.regs ∧
    (setRegisterAddress p r).counter = p.counter ∧ (setRegisterAddress p r).maxReg = p.maxReg ∧ (setRegisterAddress p r).sent = p.sent ∧
    (setRegisterAddress p r).cmd = p.cmd := by
  unfold setRegisterAddress
  by_cases h : r ≥ p.maxReg
  · have : ¬ r < p.maxReg := by simpa using h
    simp [h]
  · have : r < p.maxReg := by simpa using h
    simp [this, h]

theorem writeRegister_fields (p : Port) (r v : Byte) :
    (writeRegister p r v).saved = (if r < p.maxReg then r else p.saved) ∧ (writeRegister p r v).regs = (if r < p.maxReg then upd p.regs r v else p.regs) ∧
    (writeRegister p r v).counter = p.counter ∧ (writeRegister p r v).maxReg = p.maxReg ∧ (writeRegister p r v).sent = p.sent ∧ (writeRegister p r v).cmd = p.cmd := by
  unfold writeRegister
  by_cases h : r ≥ p.maxReg
  · have : ¬ r < p.maxReg := by simpa using h
    simp [h]
  · have : r < p.maxReg := by simpa using h
    simp [this, h]

theorem readRegister_fields (p : Port) (r : Byte) :
    (readRegister p r).1.saved = (if r < p.maxReg then r else p.saved) ∧ (readRegister p r).1.regs = p.regs ∧
    (readRegister p r).1.counter = p.counter ∧ (readRegister p r).1.maxReg = p.maxReg ∧ (readRegister p r).1.sent = p.sent := by
  unfold readRegister
  by_cases h : r ≥ p.maxReg
  · have : ¬ r < p.maxReg := by simpa using h
    simp [h]
  · have : r < p.maxReg := by simpa using h
    simp [this, h]

theorem pointer_snoc (m : Byte) (ops : List Op) (op : Op) : pointer m (ops ++ [op]) = (selects m op).getD (pointer m ops) := by
  unfold pointer
  rw [List.filterMap_append]
  cases h : selects m op with
  | none => simp [h]
  | some r => simp [h]

theorem content_snoc (m : Byte) (ops : List Op) (op : Op) (r : Byte) :
    content m (ops ++ [op]) r = match writes m op with
      | some w => if w.1 = r then w.2 else content m ops r
      | none => content m ops r := by
  unfold content
  rw [List.filterMap_append]
  cases h : writes m op with
  | none => simp [h]
  | some w => by_cases hw : w.1 = r <;> simp [h, hw]

/-- One operation, given the state described by the specification. -/
theorem step_spec (m : Byte) (p : Port) (ops : List Op) (op : Op) (h0 : p.maxReg = m) (h1 : p.saved = pointer m ops) (h2 : ∀ r, p.regs r = content m ops r) :
    (step p op).maxReg = m ∧ (step p op).saved = pointer m (ops ++ [op]) ∧ (∀ r, (step p op).regs r = content m (ops ++ [op]) r) ∧
    (p.counter.toNat + 1 < 2 ^ 32 → ((step p op).counter.toNat : Int) = max 0 (p.counter.toNat + balance m ops op)) := by
  subst h0
  cases op with
  | writeRegister r v =>
    obtain ⟨f1, f2, f3, f4, _⟩ := writeRegister_fields p r v
    refine ⟨by simp only [step, f4], ?_, ?_, ?_⟩
    · rw [pointer_snoc]; simp only [step, f1, selects, h1]
      split <;> rfl
    · intro q; rw [content_snoc]; simp only [step, f2, writes]
      by_cases hr : r < p.maxReg
      · simp only [hr, if_true, upd]
        by_cases hq : q = r
        · simp [hq]
        · rw [if_neg hq, if_neg (fun h => hq h.symm), h2]
      · simp only [hr, if_false]; exact h2 q
    · intro hc
      simp only [step, f3, balance, isRequest]
      simp
  | readRegister r =>
    obtain ⟨f1, f2, f3, f4, _⟩ := readRegister_fields p r
    refine ⟨by simp only [step, f4], ?_, ?_, ?_⟩
    · rw [pointer_snoc]; simp only [step, f1, selects, h1]
      split <;> rfl
    · intro q; rw [content_snoc]; simp only [step, f2, writes, h2]
    · intro hc
      simp only [step, f3, balance, isRequest]
      simp
  | send n ok =>
    simp only [step, send]
    by_cases ha : p.saved.toNat + n.toNat > p.maxReg.toNat
    · rw [if_pos ha]
      have hacc : ¬ Accepts p.maxReg ops n := by unfold Accepts; rw [← h1]; omega
      refine ⟨rfl, by rw [pointer_snoc]; simp [selects, h1], fun r => by rw [content_snoc]; simp [writes, h2], fun _ => ?_⟩
      simp [balance, hacc]
    · rw [if_neg ha]
      have hacc : Accepts p.maxReg ops n := by unfold Accepts; rw [← h1]; omega
      refine ⟨rfl, by rw [pointer_snoc]; simp [selects, h1], fun r => by rw [content_snoc]; simp [writes, h2], fun hc => ?_⟩
      have : (p.counter + 1).toNat = p.counter.toNat + 1 := by
        rw [UInt32.toNat_add]; show (p.counter.toNat + 1) % 2 ^ 32 = _; exact Nat.mod_eq_of_lt hc
      simp only [balance, hacc, if_true, this]
      push_cast
      omega
  | receive s =>
    obtain ⟨avail, data⟩ := s
    by_cases ha : avail ≤ 0
    · have e : step p (.receive ⟨avail, data⟩) = p := by simp [step, receive, ha]
      rw [e]
      refine ⟨rfl, by rw [pointer_snoc]; simp [selects, ha, h1], fun r => by rw [content_snoc]; simp [writes, ha, h2], fun _ => ?_⟩
      simp [balance, isRequest, not_lt.2 ha]
    · have ha' : 0 < avail := not_le.1 ha
      cases data with
      | none =>
        have e : step p (.receive ⟨avail, none⟩) = p := by simp [step, receive]
        rw [e]
        refine ⟨rfl, by rw [pointer_snoc]; simp [selects, h1], fun r => by rw [content_snoc]; simp [writes, h2], fun _ => ?_⟩
        simp [balance, isRequest]
      | some d =>
        match d with
        | [] =>
          refine ⟨by simp [step, receive, ha], by rw [pointer_snoc]; simp [step, receive, selects, ha, h1],
            fun r => by rw [content_snoc]; simp [step, receive, writes, ha, h2], fun _ => ?_⟩
          simp [step, receive, balance, isRequest, ha]
        | [r] =>
          obtain ⟨f1, f2, f3, f4, _⟩ := setRegisterAddress_fields { p with cmd := storeCommand p.cmd [r] } r
          simp only [] at f1 f2 f3 f4
          generalize hg : setRegisterAddress { p with cmd := storeCommand p.cmd [r] } r = g at f1 f2 f3 f4
          have e : step p (.receive ⟨avail, some [r]⟩) = if g.counter > 0 then { g with counter := g.counter - 1 } else g := by
            simp [step, receive, ha, hg]
          have hs : selects p.maxReg (.receive ⟨avail, some [r]⟩) = if r < p.maxReg then some r else none := by simp [selects, ha]
          rw [e]
          have hcnt : ∀ x : UInt32, ((if x > 0 then x - 1 else x).toNat : Int) = max 0 ((x.toNat : Int) + -1) := by
            intro x
            by_cases hx : x > 0
            · have : 0 < x.toNat := by simpa [UInt32.lt_iff_toNat_lt] using hx
              rw [if_pos hx, UInt32.toNat_sub_of_le _ _ (by rw [UInt32.le_iff_toNat_le]; exact this)]
              show ((x.toNat - 1 : Nat) : Int) = _
              omega
            · have : ¬ 0 < x.toNat := by simpa [UInt32.lt_iff_toNat_lt] using hx
              rw [if_neg hx]; omega
          refine ⟨by split <;> simp only [f4], ?_, fun q => ?_, fun _ => ?_⟩
          · rw [pointer_snoc, hs, ← h1]
            have : (if g.counter > 0 then { g with counter := g.counter - 1 } else g).saved = g.saved := by split <;> rfl
            rw [this, f1]
            split <;> rfl
          · rw [content_snoc]
            have : (if g.counter > 0 then { g with counter := g.counter - 1 } else g).regs = g.regs := by split <;> rfl
            rw [this, f2]
            simp [writes, h2]
          · have : (if g.counter > 0 then { g with counter := g.counter - 1 } else g).counter = if g.counter > 0 then g.counter - 1 else g.counter := by split <;> rfl
            rw [this, f3, hcnt]
            simp [balance, isRequest, ha']
        | [r, v] =>
          obtain ⟨f1, f2, f3, f4, _⟩ := writeRegister_fields { p with cmd := storeCommand p.cmd [r, v] } r v
          have e : step p (.receive ⟨avail, some [r, v]⟩) = writeRegister { p with cmd := storeCommand p.cmd [r, v] } r v := by
            simp [step, receive, ha]
          rw [e]
          refine ⟨by rw [f4], ?_, fun q => ?_, fun _ => ?_⟩
          · rw [pointer_snoc, f1]
            simp only [selects, ha, if_false, ← h1]
            split <;> rfl
          · rw [content_snoc, f2]
            simp only [writes, ha, if_false]
            by_cases hr : r < p.maxReg
            · simp only [hr, if_true, upd]
              by_cases hq : q = r
              · simp [hq]
              · rw [if_neg hq, if_neg (fun h => hq h.symm), h2]
            · simp only [hr, if_false]; exact h2 q
          · rw [f3]; simp [balance, isRequest]
        | a :: b :: c :: rest =>
          refine ⟨by simp [step, receive, ha], by rw [pointer_snoc]; simp [step, receive, selects, ha, h1],
            fun r => by rw [content_snoc]; simp [step, receive, writes, ha, h2], fun _ => ?_⟩
          simp [step, receive, balance, isRequest, ha]

theorem run_snoc (p : Port) (ops : List Op) (op : Op) : run p (ops ++ [op]) = step (run p ops) op := by simp [run]

/-- **C63.** After every history: the address pointer is the address selected last (by either side), each register holds the value written to it last. -/
theorem C63_pointer_and_registers (m : Byte) (ops : List Op) :
    (run (new m) ops).saved = pointer m ops ∧ (∀ r, (run (new m) ops).regs r = content m ops r) ∧ (run (new m) ops).maxReg = m := by
  induction ops using List.reverseRecOn with
  | nil => exact ⟨rfl, fun r => rfl, rfl⟩
  | append_singleton ops op ih =>
    obtain ⟨h1, h2, h3⟩ := ih
    obtain ⟨g0, g1, g2, _⟩ := step_spec m (run (new m) ops) ops op h3 h1 h2
    rw [run_snoc]
    exact ⟨g1, g2, g0⟩

/-- **C63.** One step of the frame counter after any history of fewer than 2^32 - 1 operations: an accepted send adds one, a one-byte request takes one away unless the
counter is zero, everything else (rejected sends included) leaves it alone. -/
theorem C63_counter_step (m : Byte) (ops : List Op) (op : Op) (hlen : ops.length + 1 < 2 ^ 32) :
    ((run (new m) (ops ++ [op])).counter.toNat : Int) = max 0 ((run (new m) ops).counter.toNat + balance m ops op) ∧
    (run (new m) ops).counter.toNat ≤ ops.length := by
  have hle : ∀ ops : List Op, ops.length < 2 ^ 32 → (run (new m) ops).counter.toNat ≤ ops.length := by
    intro ops
    induction ops using List.reverseRecOn with
    | nil => intro _; simp [run, new]
    | append_singleton ops op ih =>
      intro hl
      simp only [List.length_append, List.length_singleton] at hl ⊢
      have ih := ih (by omega)
      obtain ⟨h1, h2, h3⟩ := C63_pointer_and_registers m ops
      have h := (step_spec m (run (new m) ops) ops op h3 h1 h2).2.2.2 (by omega)
      rw [run_snoc]
      have hb : balance m ops op ≤ 1 := by
        unfold balance; split
        · split <;> omega
        · split <;> omega
      omega
  refine ⟨?_, hle ops (by omega)⟩
  obtain ⟨h1, h2, h3⟩ := C63_pointer_and_registers m ops
  rw [run_snoc]
  exact (step_spec m (run (new m) ops) ops op h3 h1 h2).2.2.2 (by have := hle ops (by omega); omega)

theorem balanceOf_append (m : Byte) (ops a b : List Op) : balanceOf m ops (a ++ b) = balanceOf m ops a + balanceOf m (ops ++ a) b := by
  induction a generalizing ops with
  | nil => simp [balanceOf]
  | cons x a ih => simp only [List.cons_append, balanceOf, ih, List.append_assoc, List.nil_append]; omega

/-- **C63.** The stored-frame counter after any history is the largest balance (accepted sends minus requests) of any tail of the history: it counts exactly the frames
that are stored, and a request that finds nothing stored is not counted. -/
theorem C63_counter (m : Byte) (ops : List Op) (hlen : ops.length < 2 ^ 32) :
    IsGreatest {b | ∃ pre tail, ops = pre ++ tail ∧ b = balanceOf m pre tail} ((run (new m) ops).counter.toNat : Int) := by
  induction ops using List.reverseRecOn with
  | nil =>
    refine ⟨⟨[], [], rfl, rfl⟩, ?_⟩
    rintro b ⟨pre, tail, h, rfl⟩
    obtain ⟨rfl, rfl⟩ := List.append_eq_nil_iff.1 h.symm
    simp [balanceOf]
  | append_singleton ops op ih =>
    simp only [List.length_append, List.length_singleton] at hlen
    obtain ⟨⟨pre, tail, h1, h2⟩, h3⟩ := ih (by omega)
    have hs := (C63_counter_step m ops op hlen).1
    rw [hs]
    constructor
    · rcases le_total 0 (((run (new m) ops).counter.toNat : Int) + balance m ops op) with h | h
      · rw [max_eq_right h]
        refine ⟨pre, tail ++ [op], by rw [h1]; simp, ?_⟩
        rw [balanceOf_append, h2, ← h1]
        simp [balanceOf]
      · rw [max_eq_left h]
        exact ⟨ops ++ [op], [], by simp, rfl⟩
    · rintro b ⟨pre', tail', h, rfl⟩
      rcases List.eq_nil_or_concat tail' with rfl | ⟨t, x, rfl⟩
      · simp [balanceOf]
      · rw [List.concat_eq_append, ← List.append_assoc] at h
        obtain ⟨g1, g2⟩ := List.append_inj' h rfl
        obtain rfl : op = x := by simpa using g2
        rw [List.concat_eq_append, balanceOf_append, ← g1]
        have := h3 ⟨pre', t, g1, rfl⟩
        simp only [balanceOf]
        omega

/-- **C63.** Send after any history: rejected without any effect when the window from the pointer would pass the register count; otherwise the frame written to the serial
line is the current content of the `n` registers from the pointer on (and the frame counts as stored even when the serial write fails). -/
theorem C63_send (m : Byte) (ops : List Op) (n : Byte) (ok : Bool) :
    (¬ Accepts m ops n → send (run (new m) ops) n ok = (run (new m) ops, -1)) ∧
    (Accepts m ops n → ∃ frame : List Byte, frame.length = n.toNat ∧
      (∀ i (h : i < frame.length), frame[i] = content m ops (UInt8.ofNat ((pointer m ops).toNat + i))) ∧
      (send (run (new m) ops) n ok).1.sent = (run (new m) ops).sent ++ (if ok then [frame] else []) ∧
      (send (run (new m) ops) n ok).2 = (if ok then 0 else -1) ∧ (send (run (new m) ops) n ok).1.saved = pointer m ops) := by
  obtain ⟨h1, h2, h3⟩ := C63_pointer_and_registers m ops
  constructor
  · intro h
    unfold Accepts at h
    rw [send, if_pos (by rw [h1, h3]; omega)]
  · intro h
    unfold Accepts at h
    rw [send, if_neg (by rw [h1, h3]; omega)]
    refine ⟨(List.range n.toNat).map fun i => (run (new m) ops).regs (UInt8.ofNat ((run (new m) ops).saved.toNat + i)), by simp, ?_, ?_, rfl, h1⟩
    · intro i hi
      simp only [List.getElem_map, List.getElem_range, h1, h2]
    · cases ok <;> simp

theorem sendAll_counter (p : Port) (size : Byte) (oks : List Bool) (ha : p.saved.toNat + size.toNat ≤ p.maxReg.toNat) :
    (sendAll p size oks).counter.toNat = (p.counter.toNat + oks.length) % 2 ^ 32 ∧ (sendAll p size oks).saved = p.saved ∧ (sendAll p size oks).regs = p.regs := by
  induction oks generalizing p with
  | nil => exact ⟨(Nat.mod_eq_of_lt p.counter.toNat_lt).symm, rfl, rfl⟩
  | cons ok oks ih =>
    have e : ∃ snt, (send p size ok).1 = { p with counter := p.counter + 1, sent := snt } := by
      rw [send, if_neg (by omega)]; exact ⟨_, rfl⟩
    obtain ⟨snt, e⟩ := e
    rw [sendAll, e]
    obtain ⟨i1, i2, i3⟩ := ih { p with counter := p.counter + 1, sent := snt } ha
    refine ⟨?_, i2, i3⟩
    rw [i1]
    show ((p.counter + 1).toNat + oks.length) % 2 ^ 32 = (p.counter.toNat + (oks.length + 1)) % 2 ^ 32
    rw [UInt32.toNat_add]
    show ((p.counter.toNat + 1) % 2 ^ 32 + oks.length) % 2 ^ 32 = _
    omega

theorem sendAll_rejected (p : Port) (size : Byte) (oks : List Bool) (ha : p.maxReg.toNat < p.saved.toNat + size.toNat) : sendAll p size oks = p := by
  induction oks with
  | nil => rfl
  | cons ok oks ih => rw [sendAll, send, if_pos (by omega)]; exact ih

/-- **C63.** StoreTelemetry: with at least the requested number of frames already stored it does nothing and reports -1; otherwise, if the frame fits behind the pointer, the
counter is exactly the requested number afterwards; if it does not fit, nothing is stored although 0 is returned. (Frame numbers below 2^31.) -/
theorem C63_store_telemetry (p : Port) (frames : UInt32) (size : Byte) (oks : Nat → Bool) (hf : frames.toNat < 2 ^ 31) (hc : p.counter.toNat < 2 ^ 31) :
    (frames ≤ p.counter → storeTelemetry p frames size oks = (p, -1)) ∧
    (p.counter < frames → p.saved.toNat + size.toNat ≤ p.maxReg.toNat →
      (storeTelemetry p frames size oks).1.counter = frames ∧ (storeTelemetry p frames size oks).2 = 0) ∧
    (p.counter < frames → p.maxReg.toNat < p.saved.toNat + size.toNat → storeTelemetry p frames size oks = (p, 0)) := by
  have hd : (frames - p.counter).toNat = (2 ^ 32 - p.counter.toNat + frames.toNat) % 2 ^ 32 := UInt32.toNat_sub _ _
  refine ⟨fun h => ?_, fun h ha => ?_, fun h ha => ?_⟩
  · have h' : frames.toNat ≤ p.counter.toNat := UInt32.le_iff_toNat_le.1 h
    unfold storeTelemetry
    simp only
    rw [if_pos]
    split <;> omega
  · have h' : p.counter.toNat < frames.toNat := UInt32.lt_iff_toNat_lt.1 h
    have hd' : (frames - p.counter).toNat = frames.toNat - p.counter.toNat := by omega
    unfold storeTelemetry
    simp only
    rw [if_pos (by omega : (frames - p.counter).toNat < 2 ^ 31), if_neg (by omega)]
    refine ⟨?_, rfl⟩
    have hs := (sendAll_counter p size ((List.range ((frames - p.counter).toNat : Int).toNat).map oks) ha).1
    apply UInt32.toNat_inj.1
    rw [hs]
    simp only [List.length_map, List.length_range, Int.toNat_natCast]
    rw [hd']
    omega
  · have h' : p.counter.toNat < frames.toNat := UInt32.lt_iff_toNat_lt.1 h
    unfold storeTelemetry
    simp only
    rw [if_pos (by omega : (frames - p.counter).toNat < 2 ^ 31), if_neg (by omega), sendAll_rejected _ _ _ ha]

/-- **C63.** A component's own register writes move the pointer: in the example component, when no command arrives in between, the telemetry frame that is sent starts at its
last byte and continues with the registers behind it — not the five telemetry bytes it reports. -/
theorem C63_example_sends_wrong_window (a b c d e : Byte) :
    (exampleMain (new 0xff) [a, b, c, d, e] ⟨0, none⟩ fun _ => true).sent = [[e, 0, 0, 0, 0], [e, 0, 0, 0, 0], [e, 0, 0, 0, 0]] := by
  have h1 : ∃ q : Port, (receive (writeBlock (new 0xff) 0 [a, b, c, d, e]) ⟨0, none⟩).1 = q ∧ q.saved = 4 ∧ q.maxReg = 0xff ∧ q.counter = 0 ∧ q.sent = [] ∧
      q.regs 4 = e ∧ q.regs 5 = 0 ∧ q.regs 6 = 0 ∧ q.regs 7 = 0 ∧ q.regs 8 = 0 := by
    refine ⟨_, rfl, rfl, rfl, rfl, rfl, rfl, rfl, rfl, rfl, rfl⟩
  obtain ⟨q, hq, s1, s2, s3, s4, r4, r5, r6, r7, r8⟩ := h1
  have hsend : ∀ p : Port, p.saved = 4 → p.maxReg = 0xff → p.regs = q.regs →
      (send p 5 true).1 = { p with counter := p.counter + 1, sent := p.sent ++ [[e, 0, 0, 0, 0]] } := by
    intro p h1 h2 h3
    rw [send, if_neg (by rw [h1, h2]; decide), h1, h3]
    have : (List.range (5 : Byte).toNat).map (fun i => q.regs (UInt8.ofNat ((4 : Byte).toNat + i))) = [q.regs 4, q.regs 5, q.regs 6, q.regs 7, q.regs 8] := rfl
    rw [this, r4, r5, r6, r7, r8]
    rfl
  unfold exampleMain
  simp only [hq, s3]
  show (sendAll q 5 [true, true, true]).sent = _
  simp only [sendAll]
  rw [hsend q s1 s2 rfl]
  rw [hsend { q with counter := q.counter + 1, sent := q.sent ++ [[e, 0, 0, 0, 0]] } s1 s2 rfl]
  rw [hsend { q with counter := q.counter + 1 + 1, sent := q.sent ++ [[e, 0, 0, 0, 0]] ++ [[e, 0, 0, 0, 0]] } s1 s2 rfl]
  simp [s4]

example : Accepts 0xff [.writeRegister 3 7, .receive ⟨1, some [2]⟩] 5 ∧ ¬ Accepts 0xff [.readRegister 254] 2 := by decide
example : (run (new 0xff) [.writeRegister 3 7, .writeRegister 4 8, .receive ⟨1, some [3]⟩, .send 2 true]).sent = [[7, 8]] ∧
    (run (new 0xff) [.writeRegister 3 7, .writeRegister 4 8, .receive ⟨1, some [3]⟩, .send 2 true]).counter = 1 := by decide +kernel

end S2E.HilsI2c
