import Verif.Model.SerialExample
import Verif.Spec.SerialExample
import Verif.Props.Uart

/-!
# C181: the example component with a serial line, end to end
-/
namespace S2E.SerialExample

open RingBuffer ObcUart

/-- Port `p` of `o` is connected with 1024 bytes per direction and holds the unread bytes `a` (to the component) and `b` (to the flight software). -/
def Line (o : ObcUart) (p : Int) (a b : List Byte) : Prop :=
  ∃ u, o p = some u ∧ ∃ L M, RingInv 1024 u.tx L ∧ RingInv 1024 u.rx M ∧ L.nread ≤ L.written.length ∧ M.nread ≤ M.written.length ∧
    L.written.drop L.nread = a ∧ M.written.drop M.nread = b

theorem read_queue {rb : RingBuffer} {L : StreamLog} (h : RingInv 1024 rb L) (hn : L.nread ≤ L.written.length) {a : List Byte} (ha : L.written.drop L.nread = a)
    (hl : a.length < 1024) (dst : List Byte) (len : Nat) (hd : len ≤ dst.length) :
    ∃ rb' L', rb.read dst 0 len = .ok (rb', overwriteAt dst 0 (a.take len), (a.take len).length) ∧ RingInv 1024 rb' L' ∧ L'.nread ≤ L'.written.length ∧
      L'.written.drop L'.nread = a.drop len := by
  obtain ⟨rb', h1, h2⟩ := readFuel_ok (N := 1024) (dst := dst) (offset := 0) (len := len) (by decide) (fuel := len) (by rw [Nat.zero_add]; exact hd) (Nat.le_refl _) h
  have hav : L.avail 1024 = L.written.length - L.nread := by
    unfold StreamLog.avail
    rw [← ha, List.length_drop] at hl
    exact Nat.mod_eq_of_lt hl
  have hrd : L.readable 1024 = a := by
    unfold StreamLog.readable; rw [hav, ← ha]; congr 1; omega
  rw [hrd] at h1 h2
  refine ⟨rb', _, h1, h2, ?_, ?_⟩
  · dsimp only
    have : (a.take len).length ≤ a.length := by simp
    rw [← ha, List.length_drop] at this
    rw [← ha]
    omega
  · dsimp only
    rw [← ha, List.drop_drop]
    by_cases hc : len ≤ L.written.length - L.nread
    · congr 1; simp; omega
    · rw [List.drop_eq_nil_of_le (by simp; omega), List.drop_eq_nil_of_le (by omega)]

theorem write_queue {rb : RingBuffer} {L : StreamLog} (h : RingInv 1024 rb L) (hn : L.nread ≤ L.written.length) {a : List Byte} (ha : L.written.drop L.nread = a)
    (src : List Byte) (len : Nat) (hd : len ≤ src.length) :
    ∃ rb' L', rb.write src 0 len = .ok (rb', len) ∧ RingInv 1024 rb' L' ∧ L'.nread ≤ L'.written.length ∧ L'.written.drop L'.nread = a ++ src.take len := by
  obtain ⟨rb', h1, h2⟩ := writeFuel_ok (N := 1024) (src := src) (offset := 0) (len := len) (by decide) (fuel := len) (by rw [Nat.zero_add]; exact hd) (Nat.le_refl _) h
  refine ⟨rb', _, h1, h2, ?_, ?_⟩
  · dsimp only; rw [List.length_append]; omega
  · dsimp only; rw [List.drop_append_of_le_length hn, ha]; simp [slice]

theorem Line.sendFromObc {o : ObcUart} {p : Int} {a b : List Byte} (h : Line o p a b) (src : List Byte) :
    ∃ o', o.sendFromObc p src 0 src.length = .ok (o', (src.length : Int)) ∧ Line o' p (a ++ src) b := by
  obtain ⟨u, hu, L, M, h1, h2, h3, h4, h5, h6⟩ := h
  obtain ⟨rb, L', k1, k2, k3, k4⟩ := write_queue h1 h3 h5 src src.length le_rfl
  refine ⟨o.set p (some { u with tx := rb }), ?_, ⟨{ u with tx := rb }, by simp [ObcUart.set], L', M, k2, h2, k3, h4, by simpa using k4, h6⟩⟩
  simp [ObcUart.sendFromObc, hu, UartPort.writeTx, k1, bind, Res.bind]

theorem Line.receivedByCompo {o : ObcUart} {p : Int} {a b : List Byte} (h : Line o p a b) (hl : a.length < 1024) (dst : List Byte) (len : Nat) (hd : len ≤ dst.length) :
    ∃ o', o.receivedByCompo p dst 0 len = .ok (o', overwriteAt dst 0 (a.take len), ((a.take len).length : Int)) ∧ Line o' p (a.drop len) b := by
  obtain ⟨u, hu, L, M, h1, h2, h3, h4, h5, h6⟩ := h
  obtain ⟨rb, L', k1, k2, k3, k4⟩ := read_queue h1 h3 h5 hl dst len hd
  refine ⟨o.set p (some { u with tx := rb }), ?_, ⟨{ u with tx := rb }, by simp [ObcUart.set], L', M, k2, h2, k3, h4, k4, h6⟩⟩
  simp [ObcUart.receivedByCompo, hu, UartPort.readTx, k1, bind, Res.bind]

theorem Line.sendFromCompo {o : ObcUart} {p : Int} {a b : List Byte} (h : Line o p a b) (src : List Byte) (len : Nat) (hd : len ≤ src.length) :
    ∃ o', o.sendFromCompo p src 0 len = .ok (o', (len : Int)) ∧ Line o' p a (b ++ src.take len) := by
  obtain ⟨u, hu, L, M, h1, h2, h3, h4, h5, h6⟩ := h
  obtain ⟨rb, L', k1, k2, k3, k4⟩ := write_queue h2 h4 h6 src len hd
  refine ⟨o.set p (some { u with rx := rb }), ?_, ⟨{ u with rx := rb }, by simp [ObcUart.set], L, L', h1, k2, h3, k3, h5, k4⟩⟩
  simp [ObcUart.sendFromCompo, hu, UartPort.writeRx, k1, bind, Res.bind]

theorem Line.receivedByObc {o : ObcUart} {p : Int} {a b : List Byte} (h : Line o p a b) (hl : b.length < 1024) (dst : List Byte) (len : Nat) (hd : len ≤ dst.length) :
    ∃ o', o.receivedByObc p dst 0 len = .ok (o', overwriteAt dst 0 (b.take len), ((b.take len).length : Int)) ∧ Line o' p a (b.drop len) := by
  obtain ⟨u, hu, L, M, h1, h2, h3, h4, h5, h6⟩ := h
  obtain ⟨rb, L', k1, k2, k3, k4⟩ := read_queue h2 h4 h6 hl dst len hd
  refine ⟨o.set p (some { u with rx := rb }), ?_, ⟨{ u with rx := rb }, by simp [ObcUart.set], L, L', h1, k2, h3, k3, h5, k4⟩⟩
  simp [ObcUart.receivedByObc, hu, UartPort.readRx, k1, bind, Res.bind]

/-- The memory for the accepted characters. -/
def MemoryOk (m accepted : List Byte) : Prop := m.length = 100 ∧ m.take 99 = (accepted ++ List.replicate 99 0).take 99

/-- The component and its line correspond to a specified state. -/
structure Rel (s : SerialExample) (o : ObcUart) (p : Int) (t : SerialSpec.State) : Prop where
  port : s.comm.portId = p
  rx : s.comm.rxSize = 1024
  tx : 100 ≤ s.comm.txBuf.length
  line : Line o p t.inbox t.outbox
  memory : MemoryOk s.memory t.accepted

theorem telemetry_eq {m acc : List Byte} (h : MemoryOk m acc) (rest : List Byte) {k : Nat} (hk : k ≤ 99) :
    (m ++ rest).take k = SerialSpec.telemetry k acc := by
  obtain ⟨h1, h2⟩ := h
  rw [List.take_append_of_le_length (by omega)]
  have : m.take k = (m.take 99).take k := by rw [List.take_take, Nat.min_eq_left hk]
  rw [this, h2, List.take_take, Nat.min_eq_left hk]
  unfold SerialSpec.telemetry
  simp only [List.take_append, List.take_replicate]
  congr 2
  omega

theorem MemoryOk.push {m acc : List Byte} (h : MemoryOk m acc) (b : Byte) :
    MemoryOk ((b :: m.dropLast).set (maxMemory - 1) 10) (b :: acc) := by
  obtain ⟨h1, h2⟩ := h
  refine ⟨by simp [h1], ?_⟩
  rw [List.take_set_of_le (by decide)]
  rw [List.cons_append, List.take_succ_cons, List.take_succ_cons]
  congr 1
  rw [List.dropLast_eq_take, List.take_take, h1]
  have : m.take (min 98 (100 - 1)) = (m.take 99).take 98 := by rw [List.take_take]
  rw [this, h2, List.take_take]; rfl

theorem Rel.send {s : SerialExample} {o : ObcUart} {p : Int} {t : SerialSpec.State} (h : Rel s o p t) (tolerant : Bool) (vec : Nat) (data : List Byte) :
    ∃ o', s.act tolerant vec o (.send data) = .ok (s, o', []) ∧ Rel s o' p (SerialSpec.send t data) := by
  obtain ⟨o', h1, h2⟩ := h.line.sendFromObc data
  refine ⟨o', ?_, h.port, h.rx, h.tx, h2, h.memory⟩
  simp only [act, h.port, h1, bind, Res.bind]

theorem Rel.receive {s : SerialExample} {o : ObcUart} {p : Int} {t : SerialSpec.State} (h : Rel s o p t) (hb : t.outbox.length < 1024)
    (tolerant : Bool) (vec n : Nat) :
    ∃ o', s.act tolerant vec o (.receive n) = .ok (s, o', (SerialSpec.receive t n).2) ∧ Rel s o' p (SerialSpec.receive t n).1 := by
  obtain ⟨o', h1, h2⟩ := h.line.receivedByObc hb (List.replicate n 0) n (by simp)
  refine ⟨o', ?_, h.port, h.rx, h.tx, h2, h.memory⟩
  simp only [act, h.port, h1, bind, Res.bind, SerialSpec.receive]
  rw [Int.toNat_natCast]
  simp only [overwriteAt, List.take_zero, List.nil_append]
  rw [List.take_left]

theorem Rel.tick {s : SerialExample} {o : ObcUart} {p : Int} {t : SerialSpec.State} (h : Rel s o p t) (hb : t.inbox.length < 1024) {vec : Nat} (hv : vec ≤ 99) :
    ∃ s' o', s.act true vec o .tick = .ok (s', o', []) ∧ Rel s' o' p (SerialSpec.tick vec t) := by
  have hlen : (UartComm.vectorResize s.comm.rxBuf 5).length = 5 := by simp [UartComm.vectorResize]; omega
  obtain ⟨o1, h1, h2⟩ := h.line.receivedByCompo hb (UartComm.vectorResize s.comm.rxBuf 5) 5 (by omega)
  -- the command
  have hcmd : ∃ m, MemoryOk m ((SerialSpec.command (t.inbox.take 5)).toList ++ t.accepted) ∧ ∃ r, ∃ rx,
      s.comm.receiveCommand o 0 5 = .ok ({ s.comm with rxBuf := rx }, o1, r) ∧
      received { s with comm := { s.comm with rxBuf := rx } } r = Res.ok ⟨{ s.comm with rxBuf := rx }, m⟩ := by
    have hne : UartComm.vectorResize s.comm.rxBuf 5 ≠ [] := by intro hc; rw [hc] at hlen; simp at hlen
    have hr : s.comm.receiveCommand o 0 5 = .ok ({ s.comm with rxBuf := overwriteAt (UartComm.vectorResize s.comm.rxBuf 5) 0 (t.inbox.take 5) }, o1,
        if ((t.inbox.take 5).length : Int) = 0 then .noData else .parse ((t.inbox.take 5).length : Int)) := by
      unfold UartComm.receiveCommand
      rw [if_neg (by omega), if_neg (by rw [h.rx]; decide)]
      dsimp only
      rw [if_neg hne, h.port, h1]
      simp only [bind, Res.bind]
      split <;> rfl
    have hlt : (t.inbox.take 5).length ≤ 5 := by simp
    generalize t.inbox.take 5 = q at hr hlt ⊢
    rcases q with _ | ⟨b0, _ | ⟨b1, _ | ⟨b2, _ | ⟨b3, q⟩⟩⟩⟩
    · exact ⟨s.memory, by simpa [SerialSpec.command] using h.memory, _, _, hr, by simp [received]⟩
    · exact ⟨s.memory, by simpa [SerialSpec.command] using h.memory, _, _, hr, by simp [received, parseCommand]⟩
    · exact ⟨s.memory, by simpa [SerialSpec.command] using h.memory, _, _, hr, by simp [received, parseCommand]⟩
    · refine ⟨s.memory, ?_, _, _, hr, by simp [received, parseCommand]⟩
      have : SerialSpec.command [b0, b1, b2] = none := by simp [SerialSpec.command]
      rw [this]; exact h.memory
    · by_cases hs : b0 = 83 ∧ b1 = 69 ∧ b2 = 84
      · obtain ⟨rfl, rfl, rfl⟩ := hs
        refine ⟨_, h.memory.push b3, _, _, hr, ?_⟩
        rw [if_neg (by simp; omega)]
        simp only [received, parseCommand, overwriteAt]
        rw [if_neg (by simp; omega)]
        simp
      · have hc : SerialSpec.command (b0 :: b1 :: b2 :: b3 :: q) = none := by
          unfold SerialSpec.command
          rw [if_neg]
          simpa using hs
        refine ⟨s.memory, by rw [hc]; exact h.memory, _, _, hr, ?_⟩
        rw [if_neg (by simp; omega)]
        simp only [received, parseCommand, overwriteAt]
        rw [if_neg (by simp; omega)]
        simp only [List.take_zero, List.nil_append, List.cons_append]
        rw [if_pos (by tauto)]
  obtain ⟨m, hm, r, rx, hr, hp⟩ := hcmd
  -- the telemetry
  have htx : ¬ s.comm.txBuf.length < maxMemory := by have := h.tx; unfold maxMemory; omega
  obtain ⟨o2, k1, k2⟩ := h2.sendFromCompo (m ++ s.comm.txBuf.drop maxMemory) vec (by rw [List.length_append, hm.1]; omega)
  rw [telemetry_eq hm _ hv] at k2
  refine ⟨⟨{ s.comm with rxBuf := rx, txBuf := m ++ s.comm.txBuf.drop maxMemory }, m⟩, o2, ?_, h.port, h.rx, ?_, k2, hm⟩
  · simp only [act, mainRoutine, hr, bind, Res.bind]
    simp only [hp, generateTelemetry, if_neg htx, if_true, UartComm.sendTelemetry]
    rw [if_neg (by omega), if_neg (by rw [h.rx, Nat.zero_add, Nat.mod_eq_of_lt (by omega)]; omega), if_neg (by
      intro hc; have := congrArg List.length hc; rw [List.length_append, hm.1] at this; simp at this), h.port, k1]
    rfl
  · show 100 ≤ (m ++ s.comm.txBuf.drop maxMemory).length
    rw [List.length_append, hm.1]; omega

theorem Rel.acts {vec : Nat} (hv : vec ≤ 99) {p : Int} : ∀ (as : List Action) {s : SerialExample} {o : ObcUart} {t : SerialSpec.State},
    Rel s o p t → SerialSpec.Fits vec t as → acts true vec s o as = .ok (SerialSpec.run vec t as)
  | [], _, _, _, _, _ => rfl
  | .send data :: as, s, o, t, h, hf => by
    obtain ⟨o', h1, h2⟩ := h.send true vec data
    have := Rel.acts hv as h2 hf.2
    simp only [SerialExample.acts, h1, bind, Res.bind, this]; rfl
  | .receive n :: as, s, o, t, h, hf => by
    obtain ⟨o', h1, h2⟩ := h.receive (Nat.lt_succ_of_le hf.1) true vec n
    have := Rel.acts hv as h2 hf.2
    simp only [SerialExample.acts, h1, bind, Res.bind, this]; rfl
  | .tick :: as, s, o, t, h, hf => by
    obtain ⟨s', o', h1, h2⟩ := h.tick (Nat.lt_succ_of_le hf.1) hv
    have := Rel.acts hv as h2 hf.2
    simp only [SerialExample.acts, h1, bind, Res.bind, this]; rfl

theorem new_rel (p : Int) (o : ObcUart) (g : Nat → Byte) (hp : o p = none) : Rel (new p o g).1 (new p o g).2 p SerialSpec.start := by
  have h1 : (new p o g).2 p = some (UartPort.new 1024 1024 g) := by simp [new, UartComm.new, ObcUart.connectComPort, hp, ObcUart.set]
  have hr := RingBuffer.inv_new 1024 g
  refine ⟨rfl, rfl, ?_, ⟨_, h1, _, _, hr, hr, le_rfl, le_rfl, rfl, rfl⟩, ?_⟩
  · show 100 ≤ (UartComm.vectorResize [] 1024).length
    simp only [UartComm.vectorResize, List.length_append, List.length_replicate, List.length_nil]; omega
  · refine ⟨by simp [new, maxMemory], ?_⟩
    simp [new, maxMemory, SerialSpec.start]

/-- On a free port, for every history in which no reader finds more than 1023 waiting bytes, every byte the flight software receives is the specified one
(on platforms where a vector may be assigned from itself; `vec` is the size of a vector object, 24 with the usual libraries). -/
theorem C181_serial (p : Int) (o : ObcUart) (g : Nat → Byte) (hp : o p = none) (vec : Nat) (hv : vec ≤ 99) (as : List Action)
    (hf : SerialSpec.Fits vec SerialSpec.start as) :
    acts true vec (new p o g).1 (new p o g).2 as = .ok (SerialSpec.run vec SerialSpec.start as) :=
  Rel.acts hv as (new_rel p o g hp) hf

/-- By the letter of the C++ standard the first run of the component is undefined. -/
theorem C181_standard (p : Int) (o : ObcUart) (g : Nat → Byte) (hp : o p = none) (vec : Nat) (as : List Action) :
    acts false vec (new p o g).1 (new p o g).2 (.tick :: as) = .ub := by
  have h := new_rel p o g hp
  obtain ⟨o1, h1, -⟩ := h.line.receivedByCompo (by decide) (UartComm.vectorResize (new p o g).1.comm.rxBuf 5) 5 (by simp [UartComm.vectorResize]; omega)
  have hne : UartComm.vectorResize (new p o g).1.comm.rxBuf 5 ≠ [] := by
    intro hc
    have := congrArg List.length hc
    simp only [UartComm.vectorResize, List.length_append, List.length_take, List.length_replicate, List.length_nil] at this; omega
  have h2 : (new p o g).1.comm.receiveCommand (new p o g).2 0 5 = .ok ({ (new p o g).1.comm with
      rxBuf := overwriteAt (UartComm.vectorResize (new p o g).1.comm.rxBuf 5) 0 (List.take 5 SerialSpec.start.inbox) }, o1, .noData) := by
    unfold UartComm.receiveCommand
    rw [if_neg (by omega), if_neg (by rw [h.rx]; decide)]
    dsimp only
    rw [if_neg hne, h.port, h1]
    rfl
  have h3 : ¬ (new p o g).1.comm.txBuf.length < maxMemory := by have := h.tx; unfold maxMemory; omega
  simp only [acts, act, mainRoutine, h2, bind, Res.bind, received, generateTelemetry, if_neg h3, Bool.false_eq_true, if_false]

/-- A history: two commands in one packet of 9 bytes (a 5-byte one and a 4-byte one), two runs, and 48 bytes of telemetry: first the `A`, then `B A`. -/
example : ∃ out, acts true 24 (new 3 ObcUart.empty (fun _ => 7)).1 (new 3 ObcUart.empty (fun _ => 7)).2
    [.send [83, 69, 84, 65, 0, 83, 69, 84, 66], .tick, .tick, .receive 2, .receive 22, .receive 3] = .ok out ∧
    out = [[], [], [], [65, 0], List.replicate 22 0, [66, 65, 0]] := by
  refine ⟨_, C181_serial 3 _ _ rfl 24 (by decide) _ ?_, by decide⟩
  simp [SerialSpec.Fits, SerialSpec.step, SerialSpec.tick, SerialSpec.send, SerialSpec.receive, SerialSpec.start, SerialSpec.telemetry, SerialSpec.command]

example : acts false 24 (new 3 ObcUart.empty (fun _ => 7)).1 (new 3 ObcUart.empty (fun _ => 7)).2 [.tick, .receive 4] = .ub :=
  C181_standard 3 _ _ rfl 24 _

end S2E.SerialExample
