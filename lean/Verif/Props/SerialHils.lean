import Verif.Model.SerialHils
import Verif.Spec.SerialHils
import Verif.Props.SerialExample

/-!
# C182: the example component for HILS in SILS mode
-/
namespace S2E.SerialHils

open RingBuffer
open SerialExample (Line Action)

/-- The component and its line correspond to a specified state. -/
structure Corr (s : SerialHils) (o : ObcUart) (p : Int) (mode : Int) (t : SerialHilsSpec.State) : Prop where
  port : s.comm.portId = p
  isMode : s.mode = mode
  rx : s.comm.rxSize = 1024
  tx : s.comm.txBuf ≠ []
  line : Line o p t.inbox t.outbox
  window : UartComm.vectorResize s.comm.rxBuf 4 = t.window
  memory : mode = 1 → s.memory = t.message ++ [0]
  count : mode = 0 → s.counter = t.runs % 24
  lenW : t.window.length = 4
  lenM : t.message.length = 3

theorem Corr.send {s : SerialHils} {o : ObcUart} {p mode : Int} {t : SerialHilsSpec.State} (h : Corr s o p mode t) (data : List Byte) :
    ∃ o', s.act o (.send data) = .ok (s, o', []) ∧ Corr s o' p mode (SerialHilsSpec.step mode t (.send data)).1 := by
  obtain ⟨o', h1, h2⟩ := h.line.sendFromObc data
  refine ⟨o', ?_, h.port, h.isMode, h.rx, h.tx, h2, h.window, h.memory, h.count, h.lenW, h.lenM⟩
  simp only [act, h.port, h1, bind, Res.bind]

theorem Corr.receive {s : SerialHils} {o : ObcUart} {p mode : Int} {t : SerialHilsSpec.State} (h : Corr s o p mode t) (hb : t.outbox.length < 1024) (n : Nat) :
    ∃ o', s.act o (.receive n) = .ok (s, o', (SerialHilsSpec.step mode t (.receive n)).2) ∧ Corr s o' p mode (SerialHilsSpec.step mode t (.receive n)).1 := by
  obtain ⟨o', h1, h2⟩ := h.line.receivedByObc hb (List.replicate n 0) n (by simp)
  refine ⟨o', ?_, h.port, h.isMode, h.rx, h.tx, h2, h.window, h.memory, h.count, h.lenW, h.lenM⟩
  simp only [act, h.port, h1, bind, Res.bind, SerialHilsSpec.step]
  rw [Int.toNat_natCast]
  simp only [overwriteAt, List.take_zero, List.nil_append]
  rw [List.take_left]

theorem resize_self {l : List Byte} {n : Nat} (h : l.length = n) : UartComm.vectorResize l n = l := by
  unfold UartComm.vectorResize
  rw [h, Nat.sub_self, ← h]; simp

theorem next_counter (n : Nat) : (if n % 24 + 1 > numAlphabet - (memorySize - 1) then 0 else n % 24 + 1) = (n + 1) % 24 := by
  unfold numAlphabet memorySize
  split <;> omega

theorem Corr.tick {s : SerialHils} {o : ObcUart} {p mode : Int} {t : SerialHilsSpec.State} (h : Corr s o p mode t) (hb : t.inbox.length < 1024) :
    ∃ s' o', s.act o .tick = .ok (s', o', []) ∧ Corr s' o' p mode (SerialHilsSpec.tick mode t) := by
  obtain ⟨o1, h1, h2⟩ := h.line.receivedByCompo hb (UartComm.vectorResize s.comm.rxBuf 4) 4 (by rw [h.window, h.lenW])
  rw [h.window] at h1
  have hlt : (t.inbox.take 4).length ≤ 4 := by simp
  -- what is in the buffer afterwards
  obtain ⟨w, hw⟩ : ∃ w, w = t.inbox.take 4 ++ t.window.drop (t.inbox.take 4).length := ⟨_, rfl⟩
  have hwl : w.length = 4 := by rw [hw, List.length_append, List.length_drop, h.lenW]; omega
  have hov : overwriteAt t.window 0 (t.inbox.take 4) = w := by rw [hw]; simp [overwriteAt]
  rw [hov] at h1
  have hr : s.comm.receiveCommand o 0 4 = .ok ({ s.comm with rxBuf := w }, o1,
      if ((t.inbox.take 4).length : Int) = 0 then .noData else .parse ((t.inbox.take 4).length : Int)) := by
    unfold UartComm.receiveCommand
    rw [if_neg (by omega), if_neg (by rw [h.rx]; decide)]
    dsimp only
    rw [h.window, if_neg (by intro hc; have := h.lenW; rw [hc] at this; simp at this), h.port, h1]
    simp only [bind, Res.bind]
    split <;> rfl
  -- the message
  obtain ⟨m, hm⟩ : ∃ m, m = if t.inbox.take 4 = [] then t.message else w.take 3 := ⟨_, rfl⟩
  have hml : m.length = 3 := by rw [hm]; split; exact h.lenM; simp [hwl]
  have hp : ∃ mem, (mode = 1 → mem = m ++ [0]) ∧
      received { s with comm := { s.comm with rxBuf := w } } (if ((t.inbox.take 4).length : Int) = 0 then .noData else .parse ((t.inbox.take 4).length : Int)) =
        .ok ⟨{ s.comm with rxBuf := w }, mem, mode, s.counter⟩ := by
    by_cases hc : t.inbox.take 4 = []
    · refine ⟨s.memory, fun h1 => by rw [hm, if_pos hc, h.memory h1], ?_⟩
      rw [hc, if_pos (by simp)]
      simp [received, h.isMode]
    · have hc' : ((t.inbox.take 4).length : Int) ≠ 0 := by
        intro hz
        exact hc (List.length_eq_zero_iff.1 (by exact_mod_cast hz))
      rw [if_neg hc']
      rw [if_neg hc] at hm
      simp only [received, parseCommand, h.isMode]
      by_cases h1 : mode = 1
      · refine ⟨m ++ [0], fun _ => rfl, ?_⟩
        rw [if_pos h1, if_neg (by rw [hwl]; decide), hm]
        congr 2
        clear * - hwl
        match w, hwl with
        | [a, b, c, d], _ => rfl
      · refine ⟨s.memory, fun h2 => absurd h2 h1, ?_⟩
        rw [if_neg h1]
        split
        · rw [if_neg (by rw [hwl]; decide)]
        · rfl
  obtain ⟨mem, hmem, hp⟩ := hp
  -- the telemetry
  obtain ⟨out, hout⟩ : ∃ out, out = if mode = 0 then SerialHilsSpec.letters t.runs ++ [0] else if mode = 1 then m ++ [0] else [] := ⟨_, rfl⟩
  have hg : ∃ tx c, generateTelemetry ⟨{ s.comm with rxBuf := w }, mem, mode, s.counter⟩ = (⟨{ s.comm with rxBuf := w }, mem, mode, c⟩, tx, out.length) ∧ tx ≠ [] ∧
      out.length ≤ tx.length ∧ tx.take out.length = out ∧ (mode = 0 → c = (t.runs + 1) % 24) ∧ out.length ≤ 4 := by
    by_cases h0 : mode = 0
    · rw [if_pos h0] at hout
      have hl : ((List.range memorySize).map fun i => (UInt8.ofNat (65 + s.counter + i))).set (memorySize - 1) 0 = SerialHilsSpec.letters t.runs ++ [0] := by
        rw [h.count h0]
        show [UInt8.ofNat (65 + t.runs % 24 + 0), UInt8.ofNat (65 + t.runs % 24 + 1), UInt8.ofNat (65 + t.runs % 24 + 2), (0 : Byte)] = _
        rw [show 65 + t.runs % 24 + 1 = 66 + t.runs % 24 by omega, show 65 + t.runs % 24 + 2 = 67 + t.runs % 24 by omega]
        rfl
      refine ⟨out, (t.runs + 1) % 24, ?_, by rw [hout]; simp, le_rfl, by simp, fun _ => rfl, by rw [hout]; exact le_refl 4⟩
      unfold generateTelemetry
      rw [if_pos h0]
      dsimp only
      rw [hl, h.count h0, next_counter, hout]
      rfl
    · rw [if_neg h0] at hout
      by_cases h1 : mode = 1
      · rw [if_pos h1] at hout
        refine ⟨out, s.counter, ?_, by rw [hout]; simp, le_rfl, by simp, fun h => absurd h h0, by rw [hout, List.length_append, hml]; decide⟩
        unfold generateTelemetry
        rw [if_neg h0, if_pos h1]
        dsimp only
        rw [hmem h1, hout, List.length_append, hml]
        rfl
      · rw [if_neg h1] at hout
        refine ⟨s.comm.txBuf, s.counter, ?_, h.tx, by rw [hout]; simp, by rw [hout]; simp, fun h => absurd h h0, by rw [hout]; simp⟩
        unfold generateTelemetry
        rw [if_neg h0, if_neg h1, hout]
        rfl
  obtain ⟨tx, c, hg, htx, hle, htake, hcount, h4⟩ := hg
  obtain ⟨o2, k1, k2⟩ := h2.sendFromCompo tx out.length hle
  rw [htake] at k2
  have hw' : SerialHilsSpec.tick mode t = ⟨t.inbox.drop 4, t.outbox ++ out, w, m, t.runs + 1⟩ := by
    unfold SerialHilsSpec.tick
    dsimp only
    rw [hout, hm, hw]
  rw [hw']
  refine ⟨⟨{ s.comm with rxBuf := w, txBuf := tx }, mem, mode, c⟩, o2, ?_, h.port, rfl, h.rx, htx, k2, resize_self hwl, hmem, hcount, hwl, hml⟩
  simp only [act, mainRoutine, memorySize, hr, bind, Res.bind]
  simp only [hp, hg, UartComm.sendTelemetry]
  rw [if_neg (by omega), if_neg (by rw [h.rx, Nat.zero_add, Nat.mod_eq_of_lt (by omega)]; omega), if_neg htx, h.port, k1]
  rfl

theorem Corr.acts {p mode : Int} : ∀ (as : List Action) {s : SerialHils} {o : ObcUart} {t : SerialHilsSpec.State},
    Corr s o p mode t → SerialHilsSpec.Fits mode t as → acts s o as = .ok (SerialHilsSpec.run mode t as)
  | [], _, _, _, _, _ => rfl
  | .send data :: as, s, o, t, h, hf => by
    obtain ⟨o', h1, h2⟩ := h.send data
    have := Corr.acts as h2 hf.2
    simp only [SerialHils.acts, h1, bind, Res.bind, this]; rfl
  | .receive n :: as, s, o, t, h, hf => by
    obtain ⟨o', h1, h2⟩ := h.receive (Nat.lt_succ_of_le hf.1) n
    have := Corr.acts as h2 hf.2
    simp only [SerialHils.acts, h1, bind, Res.bind, this]; rfl
  | .tick :: as, s, o, t, h, hf => by
    obtain ⟨s', o', h1, h2⟩ := h.tick (Nat.lt_succ_of_le hf.1)
    have := Corr.acts as h2 hf.2
    simp only [SerialHils.acts, h1, bind, Res.bind, this]; rfl

theorem new_corr (p mode : Int) (o : ObcUart) (g : Nat → Byte) (hp : o p = none) : Corr (new p mode o g).1 (new p mode o g).2 p mode SerialHilsSpec.start := by
  have h1 : (new p mode o g).2 p = some (UartPort.new 1024 1024 g) := by simp [new, UartComm.new, ObcUart.connectComPort, hp, ObcUart.set]
  have hr := RingBuffer.inv_new 1024 g
  refine ⟨rfl, rfl, rfl, ?_, ⟨_, h1, _, _, hr, hr, le_rfl, le_rfl, rfl, rfl⟩, ?_, fun _ => rfl, fun _ => rfl, rfl, rfl⟩
  · show UartComm.vectorResize [] 1024 ≠ []
    intro hc
    have := congrArg List.length hc
    simp only [UartComm.vectorResize, List.length_append, List.length_replicate, List.length_nil] at this; omega
  · show UartComm.vectorResize (UartComm.vectorResize [] 1024) 4 = [0, 0, 0, 0]
    have : UartComm.vectorResize [] 1024 = List.replicate 1024 0 := by unfold UartComm.vectorResize; rw [List.take_nil, List.nil_append, List.length_nil]
    rw [this]
    unfold UartComm.vectorResize
    rw [List.take_replicate, List.length_replicate]
    rfl

/-- On a free port, in every mode and for every history in which no reader finds more than 1023 waiting bytes, the flight software receives the specified bytes. -/
theorem C182_serial (p mode : Int) (o : ObcUart) (g : Nat → Byte) (hp : o p = none) (as : List Action) (hf : SerialHilsSpec.Fits mode SerialHilsSpec.start as) :
    acts (new p mode o g).1 (new p mode o g).2 as = .ok (SerialHilsSpec.run mode SerialHilsSpec.start as) :=
  Corr.acts as (new_corr p mode o g hp) hf

/-- Rounds of: the flight software sends a message, the component runs, the flight software takes four bytes. -/
def rounds (messages : List (List Byte)) : List Action := messages.flatMap fun m => [.send m, .tick, .receive 4]

/-- A responder returns every message of three bytes and a zero as received, however many there are. -/
theorem C182_echo (p : Int) (o : ObcUart) (g : Nat → Byte) (hp : o p = none) (messages : List (List Byte)) (hm : ∀ m ∈ messages, ∃ a b c, m = [a, b, c, 0]) :
    acts (new p 1 o g).1 (new p 1 o g).2 (rounds messages) = .ok (messages.flatMap fun m => [[], [], m]) := by
  have key : ∀ (ms : List (List Byte)) (t : SerialHilsSpec.State), (∀ m ∈ ms, ∃ a b c, m = [a, b, c, (0 : Byte)]) → t.inbox = [] → t.outbox = [] →
      SerialHilsSpec.Fits 1 t (rounds ms) ∧ SerialHilsSpec.run 1 t (rounds ms) = ms.flatMap fun m => [[], [], m] := by
    intro ms
    induction ms with
    | nil => intro t _ _ _; exact ⟨trivial, rfl⟩
    | cons m ms ih =>
      intro t hms h1 h2
      obtain ⟨a, b, c, rfl⟩ := hms m (by simp)
      obtain ⟨i, ob, w, me, r⟩ := t
      obtain rfl : i = [] := h1
      obtain rfl : ob = [] := h2
      obtain ⟨k1, k2⟩ := ih ⟨[], [], [a, b, c, 0] ++ w.drop 4, [a, b, c], r + 1⟩ (fun m hm => hms m (List.mem_cons_of_mem _ hm)) rfl rfl
      refine ⟨⟨trivial, show 4 ≤ 1023 by decide, show 4 ≤ 1023 by decide, k1⟩, ?_⟩
      show _ :: _ :: _ :: SerialHilsSpec.run 1 _ (rounds ms) = _
      rw [List.flatMap_cons, ← k2]
      rfl
  obtain ⟨k1, k2⟩ := key messages SerialHilsSpec.start hm rfl rfl
  rw [C182_serial p 1 o g hp _ k1, k2]

/-- A sender sends ABC, BCD, …, XYZ, ABC, … with a zero after each. -/
theorem C182_sender (p : Int) (o : ObcUart) (g : Nat → Byte) (hp : o p = none) (n : Nat) :
    acts (new p 0 o g).1 (new p 0 o g).2 ((List.range n).flatMap fun _ => [.tick, .receive 4]) =
      .ok ((List.range n).flatMap fun i => [[], SerialHilsSpec.letters i ++ [0]]) := by
  have key : ∀ (n k : Nat) (t : SerialHilsSpec.State), t.inbox = [] → t.outbox = [] → t.runs = k →
      SerialHilsSpec.Fits 0 t ((List.range n).flatMap fun _ => [.tick, .receive 4]) ∧
      SerialHilsSpec.run 0 t ((List.range n).flatMap fun _ => [.tick, .receive 4]) = (List.range n).flatMap fun i => [[], SerialHilsSpec.letters (k + i) ++ [0]] := by
    intro n
    induction n with
    | zero => intro k t _ _ _; exact ⟨trivial, rfl⟩
    | succ n ih =>
      intro k t h1 h2 h3
      obtain ⟨i, ob, w, me, r⟩ := t
      obtain rfl : i = [] := h1
      obtain rfl : ob = [] := h2
      obtain rfl : r = k := h3
      obtain ⟨k1, k2⟩ := ih (r + 1) ⟨[], [], w, me, r + 1⟩ rfl rfl rfl
      rw [List.range_succ_eq_map, List.flatMap_cons, List.flatMap_map, List.flatMap_cons, List.flatMap_map]
      refine ⟨⟨show 0 ≤ 1023 by decide, show 4 ≤ 1023 by decide, k1⟩, ?_⟩
      show _ :: _ :: SerialHilsSpec.run 0 _ _ = _
      rw [show (fun a => [[], SerialHilsSpec.letters (r + a.succ) ++ [0]]) = fun a => [[], SerialHilsSpec.letters (r + 1 + a) ++ [0]] from by
        funext a; rw [show r + a.succ = r + 1 + a by omega], ← k2]
      rfl
  obtain ⟨k1, k2⟩ := key n 0 SerialHilsSpec.start rfl rfl rfl
  rw [C182_serial p 0 o g hp _ k1, k2]
  simp only [Nat.zero_add]

/-- Two messages returned; and a message of two bytes: the third byte of the message before it is returned with them. -/
example : acts (new 3 1 ObcUart.empty (fun _ => 7)).1 (new 3 1 ObcUart.empty (fun _ => 7)).2 (rounds [[72, 105, 33, 0], [65, 66, 67, 0]]) =
    .ok [[], [], [72, 105, 33, 0], [], [], [65, 66, 67, 0]] :=
  C182_echo 3 _ _ rfl _ (by simp)

example : acts (new 3 1 ObcUart.empty (fun _ => 7)).1 (new 3 1 ObcUart.empty (fun _ => 7)).2 (rounds [[72, 105, 33, 0], [65, 66]]) =
    .ok [[], [], [72, 105, 33, 0], [], [], [65, 66, 33, 0]] := by
  refine (C182_serial 3 1 _ _ rfl _ ?_).trans (by decide)
  simp [rounds, SerialHilsSpec.Fits, SerialHilsSpec.step, SerialHilsSpec.tick, SerialHilsSpec.start]

end S2E.SerialHils
