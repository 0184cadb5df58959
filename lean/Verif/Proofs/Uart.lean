import Verif.Model.Uart
import Verif.Spec.Uart
import Verif.Proofs.RingBuffer
/-!
# Refinement of the OBC's UART table to the specification of independent lines
-/
namespace S2E
namespace ObcUart
open RingBuffer

/-- One user operation on the modelled OBC. -/
def step (o : ObcUart) : UartOp → Res (ObcUart × UartObs)
  | .connect port tx rx g => let r := o.connectComPort port tx rx g; .ok (r.1, ⟨r.2, []⟩)
  | .close port => let r := o.closeComPort port; .ok (r.1, ⟨r.2, []⟩)
  | .send .toCompo port src offset len => do
    let (o', n) ← o.sendFromObc port src offset len
    .ok (o', ⟨n, []⟩)
  | .send .toObc port src offset len => do
    let (o', n) ← o.sendFromCompo port src offset len
    .ok (o', ⟨n, []⟩)
  | .receive .toCompo port dst offset len => do
    let (o', dst', n) ← o.receivedByCompo port dst offset len
    .ok (o', ⟨n, dst'⟩)
  | .receive .toObc port dst offset len => do
    let (o', dst', n) ← o.receivedByObc port dst offset len
    .ok (o', ⟨n, dst'⟩)

/-- A history of operations on the modelled OBC. -/
def run : ObcUart → List UartOp → Res (List UartObs)
  | _, [] => .ok []
  | o, op :: ops => do
    let (o', b) ← o.step op
    let bs ← run o' ops
    .ok (b :: bs)

/-- The storage the code gives to each direction for requested sizes `tx`, `rx`. -/
def capsApplied (tx rx : Nat) : UartDir → Nat
  | .toCompo => effectiveSize rx
  | .toObc => effectiveSize tx

/-- One port corresponds to one specified line. -/
def PortRel (p : UartPort) (l : UartLine) : Prop :=
  0 < l.cap .toCompo ∧ 0 < l.cap .toObc ∧
    RingInv (l.cap .toCompo) p.tx (l.log .toCompo) ∧ RingInv (l.cap .toObc) p.rx (l.log .toObc)

/-- The tables correspond. -/
def Rel (o : ObcUart) (s : UartLines) : Prop :=
  ∀ p, (o p = none ∧ s p = none) ∨ ∃ a b, o p = some a ∧ s p = some b ∧ PortRel a b

theorem effectiveSize_pos (n : Nat) : 0 < effectiveSize n := by unfold effectiveSize; split_ifs <;> omega

theorem rel_set {o : ObcUart} {s : UartLines} (h : Rel o s) {port : Int} {a : UartPort} {b : UartLine}
    (hab : PortRel a b) : Rel (o.set port (some a)) (fun q => if q = port then some b else s q) := by
  intro q
  by_cases hq : q = port
  · right; exact ⟨a, b, by simp [set, hq], by simp [hq], hab⟩
  · simpa [set, hq] using h q

theorem step_ok {o : ObcUart} {s : UartLines} (h : Rel o s) {op : UartOp} (hv : op.Valid) :
    ∃ o', o.step op = .ok (o', (s.step capsApplied op).2) ∧ Rel o' (s.step capsApplied op).1 := by
  cases op with
  | connect port tx rx g =>
    rcases h port with ⟨h1, h2⟩ | ⟨a, b, h1, h2, h3⟩
    · refine ⟨_, by simp [step, connectComPort, h1, h2, UartLines.step]; rfl, ?_⟩
      simp only [UartLines.step, h2]
      refine rel_set h ?_
      exact ⟨effectiveSize_pos _, effectiveSize_pos _, inv_new _ g, inv_new _ g⟩
    · exact ⟨o, by simp [step, connectComPort, h1, h2, UartLines.step], by simpa [UartLines.step, h2] using h⟩
  | close port =>
    rcases h port with ⟨h1, h2⟩ | ⟨a, b, h1, h2, h3⟩
    · exact ⟨o, by simp [step, closeComPort, h1, h2, UartLines.step], by simpa [UartLines.step, h2] using h⟩
    · refine ⟨o.set port none, by simp [step, closeComPort, h1, h2, UartLines.step], ?_⟩
      simp only [UartLines.step, h2]
      intro q
      by_cases hq : q = port
      · left; simp [set, hq]
      · simpa [set, hq] using h q
  | send d port src offset len =>
    have hv' : offset + len ≤ src.length := hv
    rcases h port with ⟨h1, h2⟩ | ⟨a, b, h1, h2, h3⟩
    · exact ⟨o, by cases d <;> simp [step, sendFromObc, sendFromCompo, h1, h2, UartLines.step],
        by simpa [UartLines.step, h2] using h⟩
    · obtain ⟨hc1, hc2, hi1, hi2⟩ := h3
      cases d with
      | toCompo =>
        obtain ⟨rb', e, hi⟩ := writeFuel_ok hc1 (fuel := len) hv' (Nat.le_refl _) hi1
        refine ⟨o.set port (some { a with tx := rb' }), ?_, ?_⟩
        · simp [step, sendFromObc, UartPort.writeTx, h1, h2, UartLines.step, write, e]
        · simp only [UartLines.step, h2]
          exact rel_set h ⟨hc1, hc2, by simpa using hi, by simpa using hi2⟩
      | toObc =>
        obtain ⟨rb', e, hi⟩ := writeFuel_ok hc2 (fuel := len) hv' (Nat.le_refl _) hi2
        refine ⟨o.set port (some { a with rx := rb' }), ?_, ?_⟩
        · simp [step, sendFromCompo, UartPort.writeRx, h1, h2, UartLines.step, write, e]
        · simp only [UartLines.step, h2]
          exact rel_set h ⟨hc1, hc2, by simpa using hi1, by simpa using hi⟩
  | receive d port dst offset len =>
    have hv' : offset + len ≤ dst.length := hv
    rcases h port with ⟨h1, h2⟩ | ⟨a, b, h1, h2, h3⟩
    · exact ⟨o, by cases d <;> simp [step, receivedByCompo, receivedByObc, h1, h2, UartLines.step],
        by simpa [UartLines.step, h2] using h⟩
    · obtain ⟨hc1, hc2, hi1, hi2⟩ := h3
      cases d with
      | toCompo =>
        obtain ⟨rb', e, hi⟩ := readFuel_ok hc1 (fuel := len) hv' (Nat.le_refl _) hi1
        refine ⟨o.set port (some { a with tx := rb' }), ?_, ?_⟩
        · simp [step, receivedByCompo, UartPort.readTx, h1, h2, UartLines.step, RingBuffer.read, e]
        · simp only [UartLines.step, h2]
          exact rel_set h ⟨hc1, hc2, by simpa using hi, by simpa using hi2⟩
      | toObc =>
        obtain ⟨rb', e, hi⟩ := readFuel_ok hc2 (fuel := len) hv' (Nat.le_refl _) hi2
        refine ⟨o.set port (some { a with rx := rb' }), ?_, ?_⟩
        · simp [step, receivedByObc, UartPort.readRx, h1, h2, UartLines.step, RingBuffer.read, e]
        · simp only [UartLines.step, h2]
          exact rel_set h ⟨hc1, hc2, by simpa using hi1, by simpa using hi⟩

theorem run_ok (ops : List UartOp) : ∀ {o : ObcUart} {s : UartLines}, Rel o s → (∀ op ∈ ops, op.Valid) →
    o.run ops = .ok (s.run capsApplied ops) := by
  induction ops with
  | nil => intros; rfl
  | cons op ops ih =>
    intro o s h hv
    obtain ⟨o', h1, h2⟩ := step_ok h (hv op (by simp))
    simp [run, h1, UartLines.run, ih h2 (fun x hx => hv x (by simp [hx]))]

theorem rel_empty : Rel empty (fun _ => none) := fun _ => Or.inl ⟨rfl, rfl⟩

/-- Two specification states agree on one direction of one port. -/
def AgreeOn (p : Int) (d : UartDir) (s t : UartLines) : Prop :=
  (s p = none ∧ t p = none) ∨ ∃ a b, s p = some a ∧ t p = some b ∧ a.cap d = b.cap d ∧ a.log d = b.log d

theorem agree_other {caps : Nat → Nat → UartDir → Nat} {p : Int} {d : UartDir} {s t : UartLines} (h : AgreeOn p d s t)
    {op : UartOp} (hc : op.concerns p d = false) : AgreeOn p d (s.step caps op).1 t := by
  cases op with
  | connect port tx rx g =>
    have hp : p ≠ port := by simp [UartOp.concerns] at hc; exact fun e => hc e.symm
    cases hs : s port <;> simpa [UartLines.step, hs, AgreeOn, hp] using h
  | close port =>
    have hp : p ≠ port := by simp [UartOp.concerns] at hc; exact fun e => hc e.symm
    cases hs : s port <;> simpa [UartLines.step, hs, AgreeOn, hp] using h
  | send d' port src offset len =>
    simp only [UartOp.concerns, Bool.and_eq_false_iff, beq_eq_false_iff_ne] at hc
    cases hs : s port with
    | none => simpa [UartLines.step, hs] using h
    | some l =>
      by_cases hp : p = port
      · subst hp
        have hd : d ≠ d' := by rcases hc with hc | hc; exact absurd rfl hc; exact fun e => hc e.symm
        rcases h with ⟨h1, _⟩ | ⟨a, b, h1, h2, h3, h4⟩
        · rw [h1] at hs; cases hs
        · rw [h1] at hs; cases hs
          refine Or.inr ⟨_, b, by simp only [UartLines.step, h1, UartLines.setLog, if_true]; rfl, h2, ?_, ?_⟩
          · exact h3
          · simpa [hd] using h4
      · simpa [UartLines.step, hs, AgreeOn, UartLines.setLog, hp] using h
  | receive d' port dst offset len =>
    simp only [UartOp.concerns, Bool.and_eq_false_iff, beq_eq_false_iff_ne] at hc
    cases hs : s port with
    | none => simpa [UartLines.step, hs] using h
    | some l =>
      by_cases hp : p = port
      · subst hp
        have hd : d ≠ d' := by rcases hc with hc | hc; exact absurd rfl hc; exact fun e => hc e.symm
        rcases h with ⟨h1, _⟩ | ⟨a, b, h1, h2, h3, h4⟩
        · rw [h1] at hs; cases hs
        · rw [h1] at hs; cases hs
          refine Or.inr ⟨_, b, by simp only [UartLines.step, h1, UartLines.setLog, if_true]; rfl, h2, ?_, ?_⟩
          · exact h3
          · simpa [hd] using h4
      · simpa [UartLines.step, hs, AgreeOn, UartLines.setLog, hp] using h

theorem agree_same {caps : Nat → Nat → UartDir → Nat} {p : Int} {d : UartDir} {s t : UartLines} (h : AgreeOn p d s t)
    {op : UartOp} (hc : op.concerns p d = true) :
    (s.step caps op).2 = (t.step caps op).2 ∧ AgreeOn p d (s.step caps op).1 (t.step caps op).1 := by
  cases op with
  | connect port tx rx g =>
    have hp : port = p := by simpa [UartOp.concerns] using hc
    subst hp
    rcases h with ⟨h1, h2⟩ | ⟨a, b, h1, h2, h3, h4⟩
    · simp [UartLines.step, h1, h2, AgreeOn]
    · simp [UartLines.step, h1, h2, AgreeOn, h3, h4]
  | close port =>
    have hp : port = p := by simpa [UartOp.concerns] using hc
    subst hp
    rcases h with ⟨h1, h2⟩ | ⟨a, b, h1, h2, h3, h4⟩
    · simp [UartLines.step, h1, h2, AgreeOn]
    · simp [UartLines.step, h1, h2, AgreeOn]
  | send d' port src offset len =>
    have hp : port = p ∧ d' = d := by simpa [UartOp.concerns] using hc
    obtain ⟨rfl, rfl⟩ := hp
    rcases h with ⟨h1, h2⟩ | ⟨a, b, h1, h2, h3, h4⟩
    · simp [UartLines.step, h1, h2, AgreeOn]
    · simp [UartLines.step, h1, h2, AgreeOn, h3, h4, UartLines.setLog]
  | receive d' port dst offset len =>
    have hp : port = p ∧ d' = d := by simpa [UartOp.concerns] using hc
    obtain ⟨rfl, rfl⟩ := hp
    rcases h with ⟨h1, h2⟩ | ⟨a, b, h1, h2, h3, h4⟩
    · simp [UartLines.step, h1, h2, AgreeOn]
    · simp [UartLines.step, h1, h2, AgreeOn, h3, h4, UartLines.setLog]

theorem obsOf_run {caps : Nat → Nat → UartDir → Nat} {p : Int} {d : UartDir} (ops : List UartOp) :
    ∀ {s t : UartLines}, AgreeOn p d s t →
      obsOf p d ops (s.run caps ops) = t.run caps (ops.filter (·.concerns p d)) := by
  induction ops with
  | nil => intros; rfl
  | cons op ops ih =>
    intro s t h
    cases hc : op.concerns p d with
    | false =>
      have := ih (agree_other (caps := caps) h hc)
      simp only [obsOf] at this
      simp [obsOf, UartLines.run, hc, this]
    | true =>
      obtain ⟨h1, h2⟩ := agree_same (caps := caps) h hc
      have := ih h2
      simp only [obsOf] at this
      simp [obsOf, UartLines.run, hc, this, h1]

end ObcUart
end S2E
