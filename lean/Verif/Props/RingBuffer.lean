import Verif.Proofs.RingBuffer
/-!
# Properties C01, C02, C03: the ring buffer
-/
namespace S2E
namespace RingBuffer

/-- One client operation on a ring buffer and what the client observes. -/
def step (rb : RingBuffer) : StreamOp → Res (RingBuffer × StreamObs)
  | .write src offset len => do
    let (rb', n) ← rb.write src offset len
    .ok (rb', .wrote n)
  | .read dst offset len => do
    let (rb', dst', n) ← rb.read dst offset len
    .ok (rb', .got n dst')

/-- A whole history of operations on one ring buffer. -/
def run : RingBuffer → List StreamOp → Res (List StreamObs)
  | _, [] => .ok []
  | rb, op :: ops => do
    let (rb', o) ← rb.step op
    let os ← run rb' ops
    .ok (o :: os)

theorem step_ok {N : Nat} (hN : 0 < N) {rb : RingBuffer} {L : StreamLog} (h : RingInv N rb L) {op : StreamOp}
    (hv : op.Valid) : ∃ rb', rb.step op = .ok (rb', (L.step N op).2) ∧ RingInv N rb' (L.step N op).1 := by
  cases op with
  | write src offset len =>
    obtain ⟨rb', h1, h2⟩ := writeFuel_ok hN (fuel := len) hv (Nat.le_refl _) h
    exact ⟨rb', by simp [step, write, h1, StreamLog.step], h2⟩
  | read dst offset len =>
    obtain ⟨rb', h1, h2⟩ := readFuel_ok hN (fuel := len) hv (Nat.le_refl _) h
    exact ⟨rb', by simp [step, read, h1, StreamLog.step], h2⟩

theorem run_ok {N : Nat} (hN : 0 < N) (ops : List StreamOp) :
    ∀ {rb : RingBuffer} {L : StreamLog}, RingInv N rb L → (∀ op ∈ ops, op.Valid) → rb.run ops = .ok (L.run N ops) := by
  induction ops with
  | nil => intro rb L _ _; rfl
  | cons op ops ih =>
    intro rb L h hv
    obtain ⟨rb', h1, h2⟩ := step_ok hN h (hv op (by simp))
    simp [run, h1, StreamLog.run, ih h2 (fun o ho => hv o (by simp [ho]))]

/-- **C02.** For every size ≥ 1, every initial memory content and every history of in-range writes and reads —
including ones that overrun the buffer any number of times — the observations are exactly those of the finite-storage
stream: a read returns the oldest bytes among the most recent `(written - read) mod N` bytes. -/
theorem C02_ring_history (N : Nat) (hN : 1 ≤ N) (garbage : Nat → Byte) (ops : List StreamOp)
    (hv : ∀ op ∈ ops, op.Valid) : (new N garbage).run ops = .ok (StreamLog.empty.run N ops) :=
  run_ok hN ops (inv_new N garbage) hv

/-- Non-vacuity of C02: an overrun history (5 bytes into a 3-byte buffer, then a read gives 5 mod 3 = 2 bytes). -/
example : (new 3 (fun _ => 0)).run [.write [1, 2, 3, 4, 5] 0 5, .read [9, 9, 9, 9] 1 3] =
    .ok [.wrote 5, .got 2 [9, 4, 5, 9]] := by
  rw [C02_ring_history 3 (by decide) _ _ (by decide)]; decide

theorem run_eq_fifo {N : Nat} (hN : 0 < N) (ops : List StreamOp) :
    ∀ {L : StreamLog}, (∀ op ∈ ops, op.Valid) → L.nread ≤ L.written.length →
      OccupancyLe (N - 1) (L.written.drop L.nread) ops → L.run N ops = fifoRun (L.written.drop L.nread) ops := by
  induction ops with
  | nil => intros; rfl
  | cons op ops ih =>
    intro L hv hle hocc
    obtain ⟨hq, hocc'⟩ := hocc
    have hav : L.avail N = L.written.length - L.nread := by
      unfold StreamLog.avail
      rw [List.length_drop] at hq
      exact Nat.mod_eq_of_lt (by omega)
    have hrd : L.readable N = L.written.drop L.nread := by
      unfold StreamLog.readable; rw [hav]; congr 1; omega
    have hv' : ∀ o ∈ ops, o.Valid := fun o ho => hv o (by simp [ho])
    cases op with
    | write src offset len =>
      have e : (L.written ++ slice src offset len).drop L.nread = L.written.drop L.nread ++ slice src offset len := by
        rw [List.drop_append_of_le_length hle]
      have := ih (L := { L with written := L.written ++ slice src offset len }) hv' (by simp; omega)
        (by simpa [fifoStep, e] using hocc')
      simp only [StreamLog.run, StreamLog.step, fifoRun, fifoStep]
      rw [this]; simp [e]
    | read dst offset len =>
      have e : (L.written.drop L.nread).drop len =
          L.written.drop (L.nread + ((L.written.drop L.nread).take len).length) := by
        rw [List.drop_drop]
        by_cases hc : len ≤ L.written.length - L.nread
        · congr 1; simp; omega
        · rw [List.drop_eq_nil_of_le (by omega), List.drop_eq_nil_of_le (by simp; omega)]
      have hmin : ((L.written.drop L.nread).take len).length = min len (L.written.drop L.nread).length := by
        rw [List.length_take]
      simp only [StreamLog.run, StreamLog.step, fifoRun, fifoStep, hrd]
      rw [ih hv' (by simp; omega) (by simp only [fifoStep, e] at hocc'; exact hocc')]
      simp [e, hmin]

/-- **C01.** As long as the ideal FIFO never holds more than `N - 1` unread bytes, the ring buffer is observationally the
ideal FIFO: every read returns the oldest unread bytes, in order, none lost, duplicated or altered. -/
theorem C01_ring_fifo (N : Nat) (hN : 1 ≤ N) (garbage : Nat → Byte) (ops : List StreamOp)
    (hv : ∀ op ∈ ops, op.Valid) (hocc : OccupancyLe (N - 1) [] ops) :
    (new N garbage).run ops = .ok (fifoRun [] ops) := by
  rw [C02_ring_history N hN garbage ops hv, run_eq_fifo hN ops hv (by simp [StreamLog.empty])
    (by simpa [StreamLog.empty] using hocc)]
  simp [StreamLog.empty]

/-- Non-vacuity of C01: a history that wraps round a 4-byte buffer. -/
example : (new 4 (fun _ => 7)).run
      [.write [1, 2, 3] 0 3, .read [0, 0] 0 2, .write [4, 5] 0 2, .read [0, 0, 0, 0, 0] 1 4] =
    .ok [.wrote 3, .got 2 [1, 2], .wrote 2, .got 3 [0, 3, 4, 5, 0]] := by
  rw [C01_ring_fifo 4 (by decide) _ _ (by decide) (by simp [OccupancyLe, fifoStep, slice])]; decide

/-- The bound `N - 1` of C01 is tight: a buffer of `N` bytes that receives exactly `N` bytes reports nothing to read. -/
theorem C01_capacity_tight (N : Nat) (hN : 1 ≤ N) (garbage : Nat → Byte) (src : List Byte) (hs : src.length = N)
    (dst : List Byte) :
    (new N garbage).run [.write src 0 N, .read dst 0 dst.length] = .ok [.wrote N, .got 0 dst] := by
  rw [C02_ring_history N hN garbage _ (by simp [StreamOp.Valid, hs])]
  simp [StreamLog.run, StreamLog.step, StreamLog.empty, StreamLog.readable, StreamLog.avail, slice, hs, overwriteAt]

example : (new 2 (fun _ => 0)).run [.write [1, 2] 0 2, .read [0, 0, 0] 0 3] = .ok [.wrote 2, .got 0 [0, 0, 0]] :=
  C01_capacity_tight 2 (by decide) _ _ rfl _

/-- A state some history of in-range operations reaches. -/
inductive Reachable (N : Nat) : RingBuffer → Prop
  | init (garbage : Nat → Byte) : Reachable N (new N garbage)
  | step {rb rb' : RingBuffer} {op : StreamOp} {o : StreamObs} :
      Reachable N rb → op.Valid → rb.step op = .ok (rb', o) → Reachable N rb'

theorem reachable_inv {N : Nat} (hN : 0 < N) {rb : RingBuffer} (h : Reachable N rb) : ∃ L, RingInv N rb L := by
  induction h with
  | init g => exact ⟨_, inv_new N g⟩
  | step _ hv hs ih =>
    obtain ⟨L, hL⟩ := ih
    obtain ⟨rb'', h1, h2⟩ := step_ok hN hL hv
    rw [h1] at hs
    cases hs
    exact ⟨_, h2⟩

/-- **C03 (safety and termination).** In every state a history of in-range calls can reach, for any buffer size ≥ 1, a
further in-range `Write` or `Read` terminates within `len` loop iterations, executes no out-of-range copy, returns a count
of at most `len` (exactly `len` for `Write`), leaves the caller's buffer length unchanged, and the number of loop
iterations allowed beyond `len` changes nothing. -/
theorem C03_ring_safe (N : Nat) (hN : 1 ≤ N) (rb : RingBuffer) (hr : Reachable N rb) (data : List Byte)
    (offset len : Nat) (hd : offset + len ≤ data.length) :
    (∃ rb', rb.write data offset len = .ok (rb', len) ∧
      ∀ fuel, len ≤ fuel → rb.writeFuel fuel data offset len = .ok (rb', len)) ∧
    (∃ rb' dst' n, rb.read data offset len = .ok (rb', dst', n) ∧ n ≤ len ∧ dst'.length = data.length ∧
      (∀ i, (i < offset ∨ offset + n ≤ i) → dst'[i]? = data[i]?) ∧
      ∀ fuel, len ≤ fuel → rb.readFuel fuel data offset len = .ok (rb', dst', n)) := by
  obtain ⟨L, h⟩ := reachable_inv hN hr
  constructor
  · have key : ∀ fuel, len ≤ fuel → rb.writeFuel fuel data offset len = rb.writeFuel len data offset len := by
      -- more iterations than `len` are never used
      have aux : ∀ (fuel extra count : Nat) (rb : RingBuffer) (x : RingBuffer × Nat),
          writeLoop fuel rb data offset len count = .ok x →
          writeLoop (fuel + extra) rb data offset len count = .ok x := by
        intro fuel
        induction fuel with
        | zero =>
          intro extra count rb x hx
          unfold writeLoop at hx ⊢
          by_cases hc : count ≠ len
          · simp [hc] at hx
          · rw [if_neg hc] at hx ⊢; exact hx
        | succ fuel ih =>
          intro extra count rb x hx
          rw [Nat.add_right_comm]
          unfold writeLoop at hx ⊢
          by_cases hc : count ≠ len
          · rw [if_pos hc] at hx ⊢
            dsimp only at hx ⊢
            cases hm : memcpy rb.buf rb.wp data (offset + count) (min (rb.size - rb.wp) (len - count)) with
            | ok b => rw [hm] at hx; simp only [Res.bind_ok] at hx ⊢; exact ih _ _ _ _ hx
            | ub => rw [hm] at hx; simp at hx
            | throws => rw [hm] at hx; simp at hx
            | stuck => rw [hm] at hx; simp at hx
          · rw [if_neg hc] at hx ⊢; exact hx
      intro fuel hf
      obtain ⟨rb', h1, _⟩ := writeFuel_ok hN (fuel := len) hd (Nat.le_refl _) h
      have := aux len (fuel - len) 0 rb _ h1
      rw [Nat.add_sub_cancel' hf] at this
      rw [h1]; exact this
    obtain ⟨rb', h1, _⟩ := writeFuel_ok hN (fuel := len) hd (Nat.le_refl _) h
    exact ⟨rb', h1, fun fuel hf => by rw [key fuel hf, h1]⟩
  · have aux : ∀ (fuel extra count : Nat) (rb : RingBuffer) (dst : List Byte) (x : RingBuffer × List Byte × Nat),
          readLoop fuel rb dst offset len count = .ok x →
          readLoop (fuel + extra) rb dst offset len count = .ok x := by
      intro fuel
      induction fuel with
      | zero =>
        intro extra count rb dst x hx
        unfold readLoop at hx ⊢
        by_cases hc : count ≠ len ∧ rb.wp ≠ rb.rp
        · simp [hc] at hx
        · rw [if_neg hc] at hx ⊢; exact hx
      | succ fuel ih =>
        intro extra count rb dst x hx
        rw [Nat.add_right_comm]
        unfold readLoop at hx ⊢
        by_cases hc : count ≠ len ∧ rb.wp ≠ rb.rp
        · rw [if_pos hc] at hx ⊢
          dsimp only at hx ⊢
          generalize (if rb.wp > rb.rp then min (rb.wp - rb.rp) (len - count)
            else min (rb.size - rb.rp) (len - count)) = k at hx ⊢
          cases hm : memcpy dst (offset + count) rb.buf rb.rp k with
          | ok b => rw [hm] at hx; simp only [Res.bind_ok] at hx ⊢; exact ih _ _ _ _ _ hx
          | ub => rw [hm] at hx; simp at hx
          | throws => rw [hm] at hx; simp at hx
          | stuck => rw [hm] at hx; simp at hx
        · rw [if_neg hc] at hx ⊢; exact hx
    obtain ⟨rb', h1, _⟩ := readFuel_ok hN (fuel := len) hd (Nat.le_refl _) h
    have hle : ((L.readable N).take len).length ≤ len := by rw [List.length_take]; omega
    refine ⟨rb', _, _, h1, hle, overwriteAt_length (by omega), ?_, ?_⟩
    · intro i hi
      unfold overwriteAt
      rcases hi with hi | hi
      · rw [List.getElem?_append_left (by simp; omega), List.getElem?_take_of_lt hi]
      · have h0 : (List.take offset data).length = offset := by rw [List.length_take]; omega
        rw [List.getElem?_append_right (by omega), List.getElem?_append_right (by omega), List.getElem?_drop]
        congr 1; omega
    · intro fuel hf
      have := aux len (fuel - len) 0 rb data _ h1
      rw [Nat.add_sub_cancel' hf] at this
      exact this

/-- Non-vacuity of C03: a reachable state with unread wrapped data. -/
example : ∃ rb, Reachable 3 rb ∧ rb.rp = 2 ∧ rb.wp = 1 := by
  refine ⟨_, .step (.step (.step (.init fun _ => 0) (op := .write [1, 2] 0 2) (by decide) rfl)
    (op := .read [0, 0] 0 2) (by decide) rfl) (op := .write [3, 4] 0 2) (by decide) rfl, by decide, by decide⟩

/-- **C03 (the excluded size).** A buffer constructed with size 0 makes every non-empty `Write` loop forever: no number of
iterations suffices. -/
theorem C03_ring_zero_diverges (garbage : Nat → Byte) (src : List Byte) (offset len : Nat)
    (hs : offset + len ≤ src.length) (hl : 1 ≤ len) (fuel : Nat) :
    (new 0 garbage).writeFuel fuel src offset len = .stuck := by
  have : ∀ fuel, writeLoop fuel { size := 0, buf := [], rp := 0, wp := 0 } src offset len 0 = .stuck := by
    intro fuel
    induction fuel with
    | zero => unfold writeLoop; simp; omega
    | succ fuel ih =>
      unfold writeLoop
      have h0 : (0 : Nat) ≠ len := by omega
      have hm : memcpy [] 0 src (offset + 0) (min (0 - 0) (len - 0)) = .ok [] := by
        simp [memcpy]; omega
      simp only [h0, ne_eq, not_false_eq_true, if_true, hm, Res.bind_ok]
      simpa using ih
  simpa [writeFuel, new] using this fuel

example : (new 0 (fun _ => 0)).writeFuel 1000 [1, 2] 1 1 = .stuck :=
  C03_ring_zero_diverges _ _ _ _ (by decide) (by decide) _

end RingBuffer
end S2E
