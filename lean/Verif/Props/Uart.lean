import Verif.Proofs.Uart
import Verif.Props.RingBuffer
/-!
# Properties C04–C08: UART lines and component UART communication
-/
namespace S2E
namespace ObcUart
open RingBuffer

/-- **C04 (content).** For every history of connects, closes, sends and receives on any ports, the OBC behaves exactly as
a table of independent lines with one finite-storage stream per direction: what the OBC sends on port `p` is what the
component side of `p` receives, and conversely. (`capsApplied` — which size goes to which direction — is the subject of
C06.) -/
theorem C04_uart_streams (ops : List UartOp) (hv : ∀ op ∈ ops, op.Valid) :
    empty.run ops = .ok (UartLines.run capsApplied (fun _ => none) ops) :=
  run_ok ops rel_empty hv

/-- Non-vacuity of C04: both directions of port 3 and another port, interleaved. -/
example : empty.run [.connect 3 8 8 (fun _ => 0), .connect 4 8 8 (fun _ => 0), .send .toCompo 3 [1, 2] 0 2,
      .send .toObc 3 [5] 0 1, .receive .toObc 4 [9] 0 1, .receive .toCompo 3 [9, 9, 9] 1 2,
      .receive .toObc 3 [9] 0 1] =
    .ok [⟨0, []⟩, ⟨0, []⟩, ⟨2, []⟩, ⟨1, []⟩, ⟨0, [9]⟩, ⟨2, [9, 1, 2]⟩, ⟨1, [5]⟩] := by
  rw [C04_uart_streams _ (by simp [UartOp.Valid])]
  simp [UartLines.run, UartLines.step, capsApplied, effectiveSize, StreamLog.empty, UartLines.setLog, StreamLog.readable,
    StreamLog.avail, slice, overwriteAt]

/-- **C04 (independence).** What is observed on direction `d` of port `p` does not change if all traffic on other
directions and other ports is removed from the history. -/
theorem C04_uart_noninterference (p : Int) (d : UartDir) (ops : List UartOp) (hv : ∀ op ∈ ops, op.Valid) :
    ∃ obs, empty.run ops = .ok obs ∧
      empty.run (ops.filter (·.concerns p d)) = .ok (obsOf p d ops obs) := by
  refine ⟨_, C04_uart_streams ops hv, ?_⟩
  rw [C04_uart_streams _ (fun op h => hv op ((List.mem_filter.1 h).1)), obsOf_run ops (t := fun _ => none) (Or.inl ⟨rfl, rfl⟩)]

/-- Non-vacuity: the filter removes something here, and keeps something. -/
example : (([.connect 3 8 8 (fun _ => 0), .send .toObc 3 [5] 0 1, .send .toCompo 3 [1] 0 1] : List UartOp).filter
    (·.concerns 3 .toCompo)).length = 2 := by rfl

/-! ## C05: life cycle -/

/-- The state after a history. -/
def exec : ObcUart → List UartOp → Res ObcUart
  | o, [] => .ok o
  | o, op :: ops => do
    let (o', _) ← o.step op
    exec o' ops

/-- Is port `p` connected after the history? (Looking only at the connects and closes.) -/
def connectedAfter (p : Int) : Bool → List UartOp → Bool
  | b, [] => b
  | b, .connect q _ _ _ :: ops => connectedAfter p (if q = p then true else b) ops
  | b, .close q :: ops => connectedAfter p (if q = p then false else b) ops
  | b, _ :: ops => connectedAfter p b ops

theorem exec_ok (ops : List UartOp) : ∀ {o : ObcUart} {s : UartLines}, Rel o s → (∀ op ∈ ops, op.Valid) →
    ∃ o' s', exec o ops = .ok o' ∧ Rel o' s' ∧ ∀ p, (o' p).isSome = connectedAfter p (o p).isSome ops := by
  induction ops with
  | nil => intro o s h _; exact ⟨o, s, rfl, h, fun p => rfl⟩
  | cons op ops ih =>
    intro o s h hv
    obtain ⟨o1, h1, h2⟩ := step_ok h (hv op (by simp))
    obtain ⟨o', s', h3, h4, h5⟩ := ih h2 (fun x hx => hv x (by simp [hx]))
    refine ⟨o', s', by simp [exec, h1, h3], h4, ?_⟩
    intro p
    rw [h5 p]
    have hrel : ∀ {o : ObcUart} {s : UartLines}, Rel o s → ∀ q, (o q).isSome = (s q).isSome := by
      intro o s h q
      rcases h q with ⟨a, b⟩ | ⟨x, y, a, b, _⟩ <;> simp [a, b]
    rw [hrel h2 p, hrel h p]
    cases op with
    | connect q tx rx g =>
      simp only [connectedAfter]
      by_cases hq : q = p
      · subst hq; cases hs : s q <;> simp [UartLines.step, hs]
      · have hq' : p ≠ q := fun e => hq e.symm
        cases hs : s q <;> simp [UartLines.step, hs, hq, hq']
    | close q =>
      simp only [connectedAfter]
      by_cases hq : q = p
      · subst hq; cases hs : s q <;> simp [UartLines.step, hs]
      · have hq' : p ≠ q := fun e => hq e.symm
        cases hs : s q <;> simp [UartLines.step, hs, hq, hq']
    | send d q src offset len =>
      simp only [connectedAfter]
      by_cases hq : p = q
      · subst hq; cases hs : s p <;> simp [UartLines.step, hs, UartLines.setLog]
      · cases hs : s q <;> simp [UartLines.step, hs, UartLines.setLog, hq]
    | receive d q dst offset len =>
      simp only [connectedAfter]
      by_cases hq : p = q
      · subst hq; cases hs : s p <;> simp [UartLines.step, hs, UartLines.setLog]
      · cases hs : s q <;> simp [UartLines.step, hs, UartLines.setLog, hq]

/-- **C05.** After any history:
* on a connected port, `ConnectComPort` returns -1 and changes nothing, `CloseComPort` returns 0;
* on a free port, `ConnectComPort` returns 0 and both streams then read as empty, while `CloseComPort`, every send and
  every receive return -1 and change nothing (not even the caller's buffer).
Whether a port is connected is determined by the last connect/close of that port in the history. -/
theorem C05_uart_lifecycle (ops : List UartOp) (hv : ∀ op ∈ ops, op.Valid) :
    ∃ o, exec empty ops = .ok o ∧ ∀ p,
      (connectedAfter p false ops = true → ∀ tx rx g,
        o.step (.connect p tx rx g) = .ok (o, ⟨-1, []⟩) ∧ ∃ o', o.step (.close p) = .ok (o', ⟨0, []⟩)) ∧
      (connectedAfter p false ops = false →
        (∀ tx rx g, ∃ o', o.step (.connect p tx rx g) = .ok (o', ⟨0, []⟩) ∧
          ∀ d dst offset len, offset + len ≤ dst.length →
            ∃ o'', o'.step (.receive d p dst offset len) = .ok (o'', ⟨0, dst⟩)) ∧
        o.step (.close p) = .ok (o, ⟨-1, []⟩) ∧
        (∀ d src offset len, o.step (.send d p src offset len) = .ok (o, ⟨-1, []⟩)) ∧
        (∀ d dst offset len, o.step (.receive d p dst offset len) = .ok (o, ⟨-1, dst⟩))) := by
  obtain ⟨o, s, h1, h2, h3⟩ := exec_ok ops rel_empty hv
  refine ⟨o, h1, fun p => ⟨fun hc tx rx g => ?_, fun hc => ?_⟩⟩
  · have hp := (h3 p).trans hc
    cases ho : o p with
    | none => rw [ho] at hp; cases hp
    | some a => exact ⟨by simp [step, connectComPort, ho], _, by simp [step, closeComPort, ho]; rfl⟩
  · have hp := (h3 p).trans hc
    cases ho : o p with
    | some a => rw [ho] at hp; cases hp
    | none =>
      refine ⟨fun tx rx g => ?_, by simp [step, closeComPort, ho],
        by intro d; cases d <;> simp [step, sendFromObc, sendFromCompo, ho],
        by intro d; cases d <;> simp [step, receivedByCompo, receivedByObc, ho]⟩
      have hs : s p = none := by
        rcases h2 p with ⟨_, b⟩ | ⟨x, _, a, _, _⟩
        · exact b
        · rw [ho] at a; cases a
      obtain ⟨o', h4, h5⟩ := step_ok h2 (op := .connect p tx rx g) trivial
      refine ⟨o', by simpa [UartLines.step, hs] using h4, fun d dst offset len hl => ?_⟩
      obtain ⟨o'', h6, _⟩ := step_ok h5 (op := .receive d p dst offset len) hl
      refine ⟨o'', ?_⟩
      rw [h6]
      simp [UartLines.step, hs, StreamLog.empty, StreamLog.readable, overwriteAt]

/-- Non-vacuity of C05: a port that is connected, closed and connected again. -/
example : connectedAfter 2 false [.connect 2 4 4 (fun _ => 0), .close 2, .send .toObc 2 [1] 0 1,
    .connect 2 4 4 (fun _ => 0)] = true ∧ connectedAfter 2 false [.connect 2 4 4 (fun _ => 0), .close 2] = false := by
  decide

/-! ## C06: which size goes to which direction -/

/-- The documented sizes (on_board_computer.hpp:61-62): `tx` is OBC → component, `rx` is component → OBC. -/
def capsRequested (tx rx : Nat) : UartDir → Nat
  | .toCompo => effectiveSize tx
  | .toObc => effectiveSize rx

/-- **C06 is false as documented.** Connecting a port with a transmit size of 8 and a receive size of 2, sending 4 bytes
towards the component loses all of them, although an 8-byte stream would deliver all 4. -/
theorem C06_requested_sizes_fail :
    ∃ ops : List UartOp, (∀ op ∈ ops, op.Valid) ∧
      empty.run ops ≠ .ok (UartLines.run capsRequested (fun _ => none) ops) ∧
      empty.run ops = .ok [⟨0, []⟩, ⟨4, []⟩, ⟨0, [0, 0, 0, 0]⟩] := by
  let ops : List UartOp := [.connect 0 8 2 (fun _ => 0), .send .toCompo 0 [1, 2, 3, 4] 0 4,
    .receive .toCompo 0 [0, 0, 0, 0] 0 4]
  have hv : ∀ op ∈ ops, op.Valid := by simp [ops, UartOp.Valid]
  have h1 : empty.run ops = .ok [⟨0, []⟩, ⟨4, []⟩, ⟨0, [0, 0, 0, 0]⟩] := by
    rw [C04_uart_streams ops hv]
    simp [ops, UartLines.run, UartLines.step, capsApplied, effectiveSize, StreamLog.empty, UartLines.setLog,
      StreamLog.readable, StreamLog.avail, slice, overwriteAt]
  refine ⟨ops, hv, ?_, h1⟩
  rw [h1]
  simp [ops, UartLines.run, UartLines.step, capsRequested, effectiveSize, StreamLog.empty, UartLines.setLog,
    StreamLog.readable, StreamLog.avail, slice]

/-- Stream operations performed on direction `d` of port `p`. -/
def onLine (p : Int) (d : UartDir) : StreamOp → UartOp
  | .write src offset len => .send d p src offset len
  | .read dst offset len => .receive d p dst offset len

/-- UART observation of a stream observation. -/
def lineObs : StreamObs → UartObs
  | .wrote n => ⟨n, []⟩
  | .got n dst => ⟨n, dst⟩

theorem lines_run_session {caps : Nat → Nat → UartDir → Nat} {p : Int} {d : UartDir} (ops : List StreamOp) :
    ∀ {s : UartLines} {l : UartLine}, s p = some l →
      s.run caps (ops.map (onLine p d)) = ((l.log d).run (l.cap d) ops).map lineObs := by
  induction ops with
  | nil => intros; rfl
  | cons op ops ih =>
    intro s l hs
    cases op with
    | write src offset len =>
      have hs1 : (s.step caps (onLine p d (.write src offset len))).1 p =
          some { l with log := fun d' => if d' = d then
            { l.log d with written := (l.log d).written ++ slice src offset len } else l.log d' } := by
        simp [onLine, UartLines.step, hs, UartLines.setLog]
      simp only [List.map_cons, UartLines.run, StreamLog.run]
      rw [ih hs1]
      simp [onLine, UartLines.step, hs, StreamLog.step, lineObs]
    | read dst offset len =>
      have hs1 : (s.step caps (onLine p d (.read dst offset len))).1 p =
          some { l with log := fun d' => if d' = d then
            { l.log d with nread := (l.log d).nread + (((l.log d).readable (l.cap d)).take len).length }
              else l.log d' } := by
        simp [onLine, UartLines.step, hs, UartLines.setLog]
      simp only [List.map_cons, UartLines.run, StreamLog.run]
      rw [ih hs1]
      simp [onLine, UartLines.step, hs, StreamLog.step, lineObs]

theorem onLine_valid {p : Int} {d : UartDir} {ops : List StreamOp} (hv : ∀ op ∈ ops, op.Valid) :
    ∀ op ∈ ops.map (onLine p d), op.Valid := by
  intro op h
  obtain ⟨o, ho, rfl⟩ := List.mem_map.1 h
  have := hv o ho
  cases o <;> exact this

/-- **C06 (what holds instead).** After `ConnectComPort(p, tx, rx)` on a free port, the direction OBC → component delivers
everything as long as at most `rx - 1` bytes are unread, and component → OBC as long as at most `tx - 1` are — the two
sizes are exchanged with respect to the documentation. Missing for the full property: the documented order. -/
theorem C06_sizes_partial (p : Int) (tx rx : Nat) (g : Nat → Byte) (d : UartDir) (ops : List StreamOp)
    (hv : ∀ op ∈ ops, op.Valid)
    (hocc : OccupancyLe ((match d with | .toCompo => effectiveSize rx | .toObc => effectiveSize tx) - 1) [] ops) :
    empty.run (.connect p tx rx g :: ops.map (onLine p d)) = .ok (⟨0, []⟩ :: (fifoRun [] ops).map lineObs) := by
  rw [C04_uart_streams _ (by
    intro op h
    rcases List.mem_cons.1 h with rfl | h
    · trivial
    · exact onLine_valid hv op h)]
  simp only [UartLines.run, UartLines.step]
  rw [lines_run_session (l := ⟨capsApplied tx rx, fun _ => StreamLog.empty⟩) ops (by simp)]
  rw [run_eq_fifo (N := capsApplied tx rx d) (by cases d <;> exact effectiveSize_pos _) ops hv
    (by simp [StreamLog.empty]) (by cases d <;> simpa [StreamLog.empty, capsApplied] using hocc)]
  simp [StreamLog.empty]

/-- Non-vacuity of C06_sizes_partial. -/
example : empty.run [.connect 0 2 8 (fun _ => 0), .send .toCompo 0 [1, 2, 3, 4] 0 4,
    .receive .toCompo 0 [0, 0, 0, 0] 0 4] = .ok [⟨0, []⟩, ⟨4, []⟩, ⟨4, [1, 2, 3, 4]⟩] :=
  C06_sizes_partial 0 2 8 (fun _ => 0) .toCompo [.write [1, 2, 3, 4] 0 4, .read [0, 0, 0, 0] 0 4] (by decide)
    (by simp [OccupancyLe, fifoStep, slice, effectiveSize])

end ObcUart

namespace UartComm
open RingBuffer ObcUart

/-- **C06 (component view).** A *component* names the directions from its own side (`tx` is component → OBC), so the
exchange in `ConnectComPort` makes its requested sizes come out right: a component constructed with sizes `tx`, `rx`
between 1 and 1024 on a free port can have `tx - 1` unread bytes towards the OBC and `rx - 1` towards itself. -/
theorem C06_component_sizes (p : Int) (tx rx : Nat) (ht : 1 ≤ tx ∧ tx ≤ 1024) (hr : 1 ≤ rx ∧ rx ≤ 1024)
    (g : Nat → Byte) (d : UartDir) (ops : List StreamOp) (hv : ∀ op ∈ ops, op.Valid)
    (hocc : OccupancyLe ((match d with | .toObc => tx | .toCompo => rx) - 1) [] ops) :
    (UartComm.new p tx rx ObcUart.empty g).1.isConnected = true ∧
    (UartComm.new p tx rx ObcUart.empty g).2.run (ops.map (onLine p d)) = .ok ((fifoRun [] ops).map lineObs) := by
  have ht' : ¬ tx > 1024 := by omega
  have hr' : ¬ rx > 1024 := by omega
  have h := C06_sizes_partial p tx rx g d ops hv
    (by cases d <;> simpa [effectiveSize, show tx ≠ 0 by omega, show rx ≠ 0 by omega] using hocc)
  constructor
  · simp [UartComm.new, connectComPort, ObcUart.empty]
  · simp only [ObcUart.run, ObcUart.step, Res.bind_ok] at h
    simp only [UartComm.new, ht', hr', if_false]
    generalize (ObcUart.run _ _) = r at h ⊢
    cases r with
    | ok x => simp only [Res.bind_ok, Res.ok.injEq, List.cons.injEq] at h; rw [h.2]
    | ub => simp at h
    | throws => simp at h
    | stuck => simp at h

example : (UartComm.new 1 2 8 ObcUart.empty (fun _ => 0)).2.run
    [.send .toCompo 1 [1, 2, 3, 4] 0 4, .receive .toCompo 1 [0, 0, 0, 0] 0 4] = .ok [⟨4, []⟩, ⟨4, [1, 2, 3, 4]⟩] :=
  (C06_component_sizes 1 2 8 (by decide) (by decide) (fun _ => 0) .toCompo
    [.write [1, 2, 3, 4] 0 4, .read [0, 0, 0, 0] 0 4] (by decide)
    (by simp [OccupancyLe, fifoStep, slice])).2

/-! ## C07: receiving a command -/

/-- Number of bytes the port would deliver for a request of `n` bytes, as observed through a large enough buffer. -/
def Delivers (obc : ObcUart) (p : Int) (n k : Nat) : Prop :=
  ∃ obc' dst', obc.receivedByCompo p (List.replicate n 0) 0 n = .ok (obc', dst', k)

theorem receivedByCompo_gen {o : ObcUart} {s : UartLines} (h : Rel o s) {p : Int} {l : UartLine} (hp : s p = some l)
    (dst : List Byte) (offset len : Nat) :
    let k := min len ((l.log .toCompo).avail (l.cap .toCompo))
    (offset + k ≤ dst.length → ∃ o', o.receivedByCompo p dst offset len =
      .ok (o', overwriteAt dst offset (((l.log .toCompo).readable (l.cap .toCompo)).take len), k)) ∧
    (dst.length < offset + k → 1 ≤ k → o.receivedByCompo p dst offset len = .ub) := by
  intro k
  rcases h p with ⟨_, h2⟩ | ⟨a, b, h1, h2, hc1, _, hi, _⟩
  · rw [hp] at h2; cases h2
  rw [hp] at h2; cases h2
  constructor
  · intro hk
    obtain ⟨rb', e, _⟩ := readLoop_ok hc1 offset len len 0 a.tx dst _ (by simpa using hk) hi (by omega) (by omega)
    refine ⟨_, by
      simp only [receivedByCompo, h1, UartPort.readTx, RingBuffer.read, readFuel, e, Res.bind_ok, Nat.zero_add,
        Nat.sub_zero, Nat.add_zero, List.length_take, readable_length]; rfl⟩
  · intro hk hk1
    have e := readLoop_ub hc1 offset len len 0 a.tx dst _ (by simpa using hk) hk1 hi (by omega)
      (by omega)
    simp [receivedByCompo, h1, UartPort.readTx, RingBuffer.read, readFuel, e]

theorem vectorResize_length (v : List Byte) (n : Nat) : (vectorResize v n).length = n := by
  simp [vectorResize]; omega

/-- **C07, exact characterisation.** Let the OBC be in any state a history of valid calls reaches, with the component's port
connected and about to deliver `k` bytes for a request of `recSize`. An accepted `ReceiveCommand(offset, recSize)` stays
inside the receive buffer exactly when `offset + k ≤ recSize` or nothing is delivered; otherwise it writes past the end
of the receive buffer. -/
theorem C07_receive_exact (ops : List UartOp) (hv : ∀ op ∈ ops, op.Valid) (obc : ObcUart)
    (hobc : ObcUart.exec ObcUart.empty ops = .ok obc) (c : UartComm) (hc : connectedAfter c.portId false ops = true)
    (offset recSize k : Nat) (h0 : 1 ≤ recSize) (hacc1 : offset ≤ c.rxSize) (hacc2 : offset + recSize ≤ c.rxSize)
    (hsz : c.rxSize ≤ 1024) (hk : Delivers obc c.portId recSize k) :
    (offset + k ≤ recSize ∨ k = 0 → ∃ c' obc', c.receiveCommand obc offset recSize =
        .ok (c', obc', if k = 0 then .noData else .parse k) ∧ c'.rxBuf.length = recSize) ∧
    (recSize < offset + k → 1 ≤ k → c.receiveCommand obc offset recSize = .ub) := by
  obtain ⟨o, s, h1, h2, h3⟩ := exec_ok ops rel_empty hv
  rw [hobc] at h1; cases h1
  have hsome := (h3 c.portId).trans hc
  obtain ⟨l, hl⟩ : ∃ l, s c.portId = some l := by
    rcases h2 c.portId with ⟨a, _⟩ | ⟨_, b, _, hb, _⟩
    · rw [a] at hsome; cases hsome
    · exact ⟨b, hb⟩
  have hlen := vectorResize_length c.rxBuf recSize
  have hne : vectorResize c.rxBuf recSize ≠ [] := by
    intro e; rw [e] at hlen; simp at hlen; omega
  have hkeq : k = min recSize ((l.log .toCompo).avail (l.cap .toCompo)) := by
    obtain ⟨o1, d1, hd⟩ := hk
    obtain ⟨o2, e⟩ := (receivedByCompo_gen h2 hl (List.replicate recSize 0) 0 recSize).1 (by simp)
    rw [e] at hd
    simp only [Res.ok.injEq, Prod.mk.injEq] at hd
    exact_mod_cast hd.2.2.symm
  have hmod : (offset + recSize) % 2 ^ 32 = offset + recSize := Nat.mod_eq_of_lt (by omega)
  have hg := receivedByCompo_gen h2 hl (vectorResize c.rxBuf recSize) offset recSize
  rw [hlen, ← hkeq] at hg
  have hun : c.receiveCommand obc offset recSize = (do
      let (obc', rx', ret) ← obc.receivedByCompo c.portId (vectorResize c.rxBuf recSize) offset recSize
      let c' := { c with rxBuf := rx' }
      if ret = 0 then .ok (c', obc', RecvEnd.noData) else .ok (c', obc', .parse ret)) := by
    unfold receiveCommand
    rw [if_neg (by omega), hmod, if_neg (by omega)]
    simp only [hne, if_false]
  constructor
  · intro hor
    by_cases hfit : offset + k ≤ recSize
    · obtain ⟨o', e⟩ := hg.1 hfit
      rw [hun, e]
      refine ⟨{ c with rxBuf := _ }, o', by simp only [Res.bind_ok]; by_cases hk0 : k = 0 <;> simp [hk0] <;> rfl, ?_⟩
      simp only
      rw [overwriteAt_length (by rw [List.length_take, readable_length, hlen]; omega), hlen]
    · have hk0 : k = 0 := by omega
      have hav : (l.log .toCompo).avail (l.cap .toCompo) = 0 := by omega
      -- nothing is delivered: the read loop does not execute a copy
      rcases h2 c.portId with ⟨_, b⟩ | ⟨a, b, ha, hb, hc1, _, hi, _⟩
      · rw [hl] at b; cases b
      · rw [hl] at hb; cases hb
        have hnil : (l.log .toCompo).readable (l.cap .toCompo) = [] :=
          List.eq_nil_of_length_eq_zero (by rw [readable_length, hav])
        have hpp : a.tx.wp = a.tx.rp := by
          have := wp_of_avail hc1 hi.le
          rw [hav, ← hi.wp, ← hi.rp] at this
          have hrl : a.tx.rp < l.cap .toCompo := by rw [hi.rp]; exact Nat.mod_lt _ hc1
          rw [if_pos (by omega)] at this; omega
        have e : obc.receivedByCompo c.portId (vectorResize c.rxBuf recSize) offset recSize =
            .ok (obc.set c.portId (some a), vectorResize c.rxBuf recSize, 0) := by
          have : readLoop recSize a.tx (vectorResize c.rxBuf recSize) offset recSize 0 =
              .ok (a.tx, vectorResize c.rxBuf recSize, 0) := by
            unfold readLoop; simp [hpp]
          simp [receivedByCompo, ha, UartPort.readTx, RingBuffer.read, readFuel, this]
        rw [hun, e]
        exact ⟨_, _, by simp [hk0]; exact ⟨rfl, rfl⟩, hlen⟩
  · intro hlt hk1
    rw [hun, hg.2 hlt hk1]; rfl

/-- A port with four bytes waiting for the component. -/
def demoObc : List UartOp := [.connect 1 16 16 (fun _ => 0), .send .toCompo 1 [1, 2, 3, 4] 0 4]

/-- **C07 is false for `offset > 0`.** A component with a 16-byte receive buffer and 4 waiting bytes: `ReceiveCommand(1, 4)`
is accepted and writes past the end of the receive buffer. -/
theorem C07_receive_overflow :
    ∃ (obc : ObcUart) (c : UartComm), ObcUart.exec ObcUart.empty demoObc = .ok obc ∧
      c = (UartComm.new 1 16 16 ObcUart.empty (fun _ => 0)).1 ∧
      c.receiveCommand obc 1 4 = .ub := by
  have hv : ∀ op ∈ demoObc, op.Valid := by simp [demoObc, UartOp.Valid]
  obtain ⟨o, s, h1, h2, h3⟩ := exec_ok demoObc rel_empty hv
  refine ⟨o, _, h1, rfl, ?_⟩
  refine (C07_receive_exact demoObc hv o h1 _ (by rfl) 1 4 4 (by omega) (by decide) (by decide) (by decide) ?_).2
    (by omega) (by omega)
  cases h1
  exact ⟨_, _, rfl⟩

/-- **C07 (the part that holds).** With `offset = 0` and a non-zero size an accepted `ReceiveCommand` never writes outside
the receive buffer, in any reachable state of the OBC, connected or not. Missing: `offset > 0`. -/
theorem C07_receive_partial (ops : List UartOp) (hv : ∀ op ∈ ops, op.Valid) (obc : ObcUart)
    (hobc : ObcUart.exec ObcUart.empty ops = .ok obc) (c : UartComm) (recSize : Nat) (h0 : 1 ≤ recSize)
    (hsz : c.rxSize ≤ 1024) (hrs : recSize < 2 ^ 32) :
    ∃ c' obc' e, c.receiveCommand obc 0 recSize = .ok (c', obc', e) ∧ (e = .rejected ∨ c'.rxBuf.length = recSize) := by
  by_cases hacc : recSize ≤ c.rxSize
  · obtain ⟨o, s, h1, h2, h3⟩ := exec_ok ops rel_empty hv
    rw [hobc] at h1; cases h1
    have hlen := vectorResize_length c.rxBuf recSize
    have hne : vectorResize c.rxBuf recSize ≠ [] := by
      intro e; rw [e] at hlen; simp at hlen; omega
    rcases h2 c.portId with ⟨ha, _⟩ | ⟨a, l, ha, hl, _⟩
    · refine ⟨{ c with rxBuf := vectorResize c.rxBuf recSize }, obc, .parse (-1), ?_, Or.inr hlen⟩
      unfold receiveCommand
      rw [if_neg (by omega), if_neg (by rw [Nat.mod_eq_of_lt (by omega)]; omega)]
      simp [hne, receivedByCompo, ha]
    · obtain ⟨o', e⟩ := (receivedByCompo_gen h2 hl (List.replicate recSize 0) 0 recSize).1 (by simp)
      have hcon : connectedAfter c.portId false ops = true := by
        have := h3 c.portId
        rw [ha] at this
        simpa [ObcUart.empty] using this.symm
      obtain ⟨c', obc', hh, hlen'⟩ := (C07_receive_exact ops hv obc hobc c hcon 0 recSize _ h0 (by omega) (by omega) hsz
        ⟨o', _, e⟩).1 (Or.inl (by omega))
      exact ⟨c', obc', _, hh, Or.inr hlen'⟩
  · refine ⟨c, obc, .rejected, ?_, Or.inl rfl⟩
    unfold receiveCommand
    rw [if_neg (by omega), if_pos (by rw [Nat.zero_add, Nat.mod_eq_of_lt hrs]; omega)]

/-- Non-vacuity of C07: the state of `demoObc` is reachable, and its port delivers 4 bytes. -/
example : ∃ obc, ObcUart.exec ObcUart.empty demoObc = .ok obc ∧ Delivers obc 1 4 4 ∧
    connectedAfter 1 false demoObc = true := ⟨_, rfl, ⟨_, _, rfl⟩, rfl⟩

/-! ## C08: sending telemetry -/

/-- **C08 (the part that holds).** If the receive buffer size does not exceed the length of the transmit buffer, an accepted
`SendTelemetry` reads only bytes inside the transmit buffer, in any reachable state of the OBC, whatever
`GenerateTelemetry` produced (its `int` result below 2^31). Missing: a receive buffer larger than the transmit buffer. -/
theorem C08_send_partial (ops : List UartOp) (hv : ∀ op ∈ ops, op.Valid) (obc : ObcUart)
    (hobc : ObcUart.exec ObcUart.empty ops = .ok obc) (c : UartComm) (tx : List Byte) (tlmSize offset : Nat)
    (hsz : c.rxSize ≤ 1024) (ht : tlmSize < 2 ^ 31) (hrt : c.rxSize ≤ tx.length) (hne : tx ≠ []) :
    ∃ c' obc' r, c.sendTelemetry obc tx tlmSize offset = .ok (c', obc', r) ∧
      (r = 0 ↔ offset + tlmSize ≤ c.rxSize) := by
  unfold sendTelemetry
  dsimp only
  by_cases h1 : offset > c.rxSize
  · rw [if_pos h1]; exact ⟨_, _, _, rfl, by simp; omega⟩
  rw [if_neg h1]
  have hmod : (offset + tlmSize) % 2 ^ 32 = offset + tlmSize := Nat.mod_eq_of_lt (by omega)
  rw [hmod]
  by_cases h2 : offset + tlmSize > c.rxSize
  · rw [if_pos h2]; exact ⟨_, _, _, rfl, by simp; omega⟩
  rw [if_neg h2, if_neg hne]
  obtain ⟨o, s, h3, h4, _⟩ := exec_ok ops rel_empty hv
  rw [hobc] at h3; cases h3
  obtain ⟨o', h5, _⟩ := step_ok h4 (op := .send .toObc c.portId tx offset tlmSize)
    (by simp only [UartOp.Valid]; omega)
  simp only [ObcUart.step] at h5
  cases hs : obc.sendFromCompo c.portId tx offset tlmSize with
  | ok x => exact ⟨_, _, _, rfl, by simp; omega⟩
  | ub => rw [hs] at h5; simp at h5
  | throws => rw [hs] at h5; simp at h5
  | stuck => rw [hs] at h5; simp at h5

/-- **C08 is false when the receive buffer is larger.** Whenever the port is connected and the telemetry reaches past the end
of the transmit buffer but not past the *receive* buffer size, `SendTelemetry` is accepted and reads outside the transmit
buffer. -/
theorem C08_send_overread (ops : List UartOp) (hv : ∀ op ∈ ops, op.Valid) (obc : ObcUart)
    (hobc : ObcUart.exec ObcUart.empty ops = .ok obc) (c : UartComm) (hc : connectedAfter c.portId false ops = true)
    (tx : List Byte) (tlmSize offset : Nat) (hsz : c.rxSize ≤ 1024) (hne : tx ≠ []) (ht : 1 ≤ tlmSize)
    (hacc : offset + tlmSize ≤ c.rxSize) (hlt : tx.length < offset + tlmSize) :
    c.sendTelemetry obc tx tlmSize offset = .ub := by
  unfold sendTelemetry
  dsimp only
  have hmod : (offset + tlmSize) % 2 ^ 32 = offset + tlmSize := Nat.mod_eq_of_lt (by omega)
  rw [if_neg (by omega), hmod, if_neg (by omega), if_neg hne]
  obtain ⟨o, s, h1, h2, h3⟩ := exec_ok ops rel_empty hv
  rw [hobc] at h1; cases h1
  have hsome := (h3 c.portId).trans hc
  rcases h2 c.portId with ⟨ha, _⟩ | ⟨a, b, ha, _, _, hc2, _, hi⟩
  · rw [ha] at hsome; cases hsome
  · have e := writeLoop_ub hc2 tx offset tlmSize hlt tlmSize 0 a.rx _ hi (by omega) (by omega)
    simp [sendFromCompo, ha, UartPort.writeRx, RingBuffer.write, writeFuel, e]

/-- Non-vacuity of C08: a component with a 4-byte transmit and a 1024-byte receive buffer, sending 5 bytes. -/
example : ∃ obc, ObcUart.exec ObcUart.empty demoObc = .ok obc ∧
    ({ portId := 1, txSize := 4, rxSize := 1024, txBuf := [], rxBuf := [], isConnected := true } :
      UartComm).sendTelemetry obc [1, 2, 3, 4] 5 0 = .ub := by
  have hv : ∀ op ∈ demoObc, op.Valid := by simp [demoObc, UartOp.Valid]
  obtain ⟨o, s, h1, _, _⟩ := exec_ok demoObc rel_empty hv
  exact ⟨o, h1, C08_send_overread demoObc hv o h1 _ (by rfl) _ 5 0 (by simp) (by simp) (by simp) (by simp) (by simp)⟩

end UartComm
end S2E
