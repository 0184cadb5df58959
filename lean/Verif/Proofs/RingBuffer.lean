import Verif.Model.RingBuffer
import Verif.Spec.Stream
import Mathlib.Tactic.Linarith
/-!
# Lemmas about the ring buffer: the history invariant and its preservation
-/
namespace S2E
namespace RingBuffer

/-- Correspondence between the ring buffer and the history of its stream. -/
structure RingInv (N : Nat) (rb : RingBuffer) (L : StreamLog) : Prop where
  size : rb.size = N
  len  : rb.buf.length = N
  wp   : rb.wp = L.written.length % N
  rp   : rb.rp = L.nread % N
  le   : L.nread ≤ L.written.length
  cell : ∀ i, i < L.written.length → L.written.length ≤ i + N → rb.buf[i % N]? = L.written[i]?

theorem inv_new (N : Nat) (g : Nat → Byte) : RingInv N (new N g) StreamLog.empty := by
  refine ⟨rfl, ?_, ?_, ?_, ?_, ?_⟩ <;> simp [new, StreamLog.empty]

theorem slice_length {src : List Byte} {o n : Nat} (h : o + n ≤ src.length) : (slice src o n).length = n := by
  simp [slice]; omega

theorem slice_append {src : List Byte} {o n m : Nat} :
    slice src o n ++ slice src (o + n) m = slice src o (n + m) := by
  simp only [slice]
  rw [List.take_add, List.drop_drop]

theorem slice_zero {src : List Byte} {o : Nat} : slice src o 0 = [] := by simp [slice]

theorem mod_sub_helper {w d N : Nat} (hN : 0 < N) (hd : d ≤ N) (hdw : d ≤ w) :
    (w - d) % N = if d ≤ w % N then w % N - d else w % N + N - d := by
  have h1 := Nat.div_add_mod w N
  have h2 := Nat.mod_lt w hN
  split_ifs with h
  · have : w - d = N * (w / N) + (w % N - d) := by omega
    rw [this, Nat.mul_add_mod, Nat.mod_eq_of_lt (by omega)]
  · have hq : 0 < w / N := by
      rcases Nat.eq_zero_or_pos (w / N) with h0 | h0
      · rw [h0] at h1; omega
      · exact h0
    obtain ⟨q, hq'⟩ : ∃ q, w / N = q + 1 := ⟨w / N - 1, by omega⟩
    have e : w - d = N * q + (w % N + N - d) := by rw [hq', Nat.mul_add] at h1; omega
    rw [e, Nat.mul_add_mod, Nat.mod_eq_of_lt (by omega)]

theorem mod_add_helper {w e N : Nat} (h : w % N + e < N) : (w + e) % N = w % N + e := by
  conv_lhs => rw [← Nat.div_add_mod w N, Nat.add_assoc, Nat.mul_add_mod]
  exact Nat.mod_eq_of_lt h

/-- One `memcpy` of the write loop keeps the correspondence. -/
theorem inv_write_chunk {N : Nat} {rb : RingBuffer} {L : StreamLog} (hN : 0 < N) (h : RingInv N rb L)
    {src : List Byte} {o n : Nat} (ho : o + n ≤ src.length) (hn : rb.wp + n ≤ N) :
    ∃ b, memcpy rb.buf rb.wp src o n = .ok b ∧
      RingInv N { rb with buf := b, wp := if rb.wp + n = rb.size then 0 else rb.wp + n }
        { L with written := L.written ++ slice src o n } := by
  obtain ⟨hs, hl, hw, hr, hle, hc⟩ := h
  refine ⟨rb.buf.take rb.wp ++ (slice src o n ++ rb.buf.drop (rb.wp + n)), ?_, ?_⟩
  · simp [memcpy, slice, hl, hn, ho]
  have hsl := slice_length ho
  refine ⟨hs, ?_, ?_, hr, ?_, ?_⟩
  · simp [hsl]; omega
  · simp only [List.length_append, hsl, hs]
    split_ifs with hf
    · have := Nat.div_add_mod L.written.length N
      have e : L.written.length + n = N * (L.written.length / N) + N := by omega
      rw [e]; simp
    · rw [mod_add_helper] <;> omega
  · simp; omega
  · intro i hi1 hi2
    simp only [List.length_append, hsl] at hi1 hi2
    dsimp only
    have hlt : L.written.length % N < N := Nat.mod_lt _ hN
    by_cases hi : i < L.written.length
    · rw [List.getElem?_append_left (l₁ := L.written) hi]
      rw [← hc i hi (by omega)]
      obtain ⟨d, hd⟩ : ∃ d, i = L.written.length - d ∧ 1 ≤ d ∧ d + n ≤ N ∧ d ≤ L.written.length :=
        ⟨L.written.length - i, by omega, by omega, by omega, by omega⟩
      have hm := mod_sub_helper (w := L.written.length) hN (d := d) (by omega) hd.2.2.2
      rw [hd.1, hm, ← hw]
      split_ifs with hdw
      · rw [List.getElem?_append_left (by simp; omega), List.getElem?_take_of_lt (by omega)]
      · rw [List.getElem?_append_right (by simp; omega), List.getElem?_append_right (by simp [hsl]; omega),
          List.getElem?_drop]
        congr 1
        simp [hsl]; omega
    · rw [List.getElem?_append_right (l₁ := L.written) (by omega)]
      have e : i = L.written.length + (i - L.written.length) := by omega
      have hm : i % N = rb.wp + (i - L.written.length) := by
        rw [hw]; conv_lhs => rw [e]
        exact mod_add_helper (by omega)
      rw [hm, List.getElem?_append_right (by simp), List.getElem?_append_left (by simp [hsl]; omega)]
      congr 1
      simp; omega

theorem write_zero_fuel_ok {N : Nat} (hN : 0 < N) (src : List Byte) (offset len : Nat)
    (hsrc : offset + len ≤ src.length) :
    ∀ (fuel count : Nat) (rb : RingBuffer) (L : StreamLog), RingInv N rb L → count ≤ len → len - count ≤ fuel →
      ∃ rb', writeLoop fuel rb src offset len count = .ok (rb', len) ∧
        RingInv N rb' { L with written := L.written ++ slice src (offset + count) (len - count) } := by
  intro fuel
  induction fuel with
  | zero =>
    intro count rb L h hc hf
    have : count = len := by omega
    subst this
    exact ⟨rb, by unfold writeLoop; simp, by simpa [slice_zero] using h⟩
  | succ fuel ih =>
    intro count rb L h hc hf
    by_cases hcl : count = len
    · subst hcl
      exact ⟨rb, by unfold writeLoop; simp, by simpa [slice_zero] using h⟩
    · unfold writeLoop
      simp only [ne_eq, hcl, not_false_eq_true, if_true]
      have hwlt : rb.wp < N := by rw [h.wp]; exact Nat.mod_lt _ hN
      have hs := h.size
      obtain ⟨b, hb, hinv⟩ := inv_write_chunk hN h (src := src) (o := offset + count)
        (n := min (rb.size - rb.wp) (len - count)) (by omega) (by omega)
      rw [hb]
      simp only [Res.bind_ok]
      obtain ⟨rb', h1, h2⟩ := ih (count + min (rb.size - rb.wp) (len - count)) _ _ hinv (by omega) (by omega)
      refine ⟨rb', h1, ?_⟩
      have : L.written ++ slice src (offset + count) (len - count) =
          (L.written ++ slice src (offset + count) (min (rb.size - rb.wp) (len - count))) ++
            slice src (offset + (count + min (rb.size - rb.wp) (len - count)))
              (len - (count + min (rb.size - rb.wp) (len - count))) := by
        rw [List.append_assoc]
        congr 1
        have e1 : len - count = min (rb.size - rb.wp) (len - count) +
            (len - (count + min (rb.size - rb.wp) (len - count))) := by omega
        conv_lhs => rw [e1]
        rw [← slice_append]
        congr 2; omega
      rw [this]; exact h2

/-- The write loop on a buffer of at least one byte. -/
theorem writeFuel_ok {N : Nat} (hN : 0 < N) {src : List Byte} {offset len fuel : Nat}
    (hsrc : offset + len ≤ src.length) (hf : len ≤ fuel) {rb : RingBuffer} {L : StreamLog} (h : RingInv N rb L) :
    ∃ rb', writeFuel fuel rb src offset len = .ok (rb', len) ∧
      RingInv N rb' { L with written := L.written ++ slice src offset len } := by
  simpa [writeFuel] using write_zero_fuel_ok hN src offset len hsrc fuel 0 rb L h (by omega) (by omega)

/-- If the source is too short, the write is out of range. -/
theorem writeLoop_ub {N : Nat} (hN : 0 < N) (src : List Byte) (offset len : Nat)
    (hsrc : src.length < offset + len) :
    ∀ (fuel count : Nat) (rb : RingBuffer) (L : StreamLog), RingInv N rb L → count < len → len - count ≤ fuel →
      writeLoop fuel rb src offset len count = .ub := by
  intro fuel
  induction fuel with
  | zero => intro count rb L h hc hf; omega
  | succ fuel ih =>
    intro count rb L h hc hf
    have hcl : count ≠ len := by omega
    unfold writeLoop
    simp only [ne_eq, hcl, not_false_eq_true, if_true]
    have hwlt : rb.wp < N := by rw [h.wp]; exact Nat.mod_lt _ hN
    have hs := h.size
    by_cases hfit : offset + count + min (rb.size - rb.wp) (len - count) ≤ src.length
    · obtain ⟨b, hb, hinv⟩ := inv_write_chunk hN h (src := src) (o := offset + count)
        (n := min (rb.size - rb.wp) (len - count)) hfit (by omega)
      rw [hb]
      simp only [Res.bind_ok]
      exact ih _ _ _ hinv (by omega) (by omega)
    · have : memcpy rb.buf rb.wp src (offset + count) (min (rb.size - rb.wp) (len - count)) = .ub := by
        unfold memcpy; rw [if_neg (by omega)]
      rw [this]; rfl

theorem avail_lt {N : Nat} (hN : 0 < N) (L : StreamLog) : L.avail N < N := Nat.mod_lt _ hN

theorem avail_le {N : Nat} (L : StreamLog) : L.avail N ≤ L.written.length - L.nread := Nat.mod_le _ _

theorem readable_length {N : Nat} (L : StreamLog) : (L.readable N).length = L.avail N := by
  have := avail_le (N := N) L
  simp [StreamLog.readable]; omega

theorem mod_avail {N : Nat} {L : StreamLog} (h : L.nread ≤ L.written.length) :
    (L.written.length - L.avail N) % N = L.nread % N := by
  unfold StreamLog.avail
  have h1 := Nat.div_add_mod (L.written.length - L.nread) N
  have : L.written.length - (L.written.length - L.nread) % N =
      L.nread + N * ((L.written.length - L.nread) / N) := by omega
  rw [this, Nat.add_mul_mod_self_left]

theorem wp_of_avail {N : Nat} (hN : 0 < N) {L : StreamLog} (h : L.nread ≤ L.written.length) :
    L.written.length % N =
      if L.nread % N + L.avail N < N then L.nread % N + L.avail N else L.nread % N + L.avail N - N := by
  have h1 := mod_avail (N := N) h
  have h3 := avail_le (N := N) L
  have h2 : L.written.length = (L.written.length - L.avail N) + L.avail N := by omega
  have ha := avail_lt hN L
  have hr : L.nread % N < N := Nat.mod_lt _ hN
  split_ifs with hc
  · rw [h2, mod_add_helper (by omega), h1]
  · have hd := Nat.div_add_mod (L.written.length - L.avail N) N
    have : L.written.length = N * ((L.written.length - L.avail N) / N + 1) + (L.nread % N + L.avail N - N) := by
      rw [Nat.mul_add]; omega
    rw [this, Nat.mul_add_mod, Nat.mod_eq_of_lt (by omega)]

theorem avail_after_read {N : Nat} (hN : 0 < N) {L : StreamLog} {k : Nat} (hk : k ≤ L.avail N) :
    StreamLog.avail N { L with nread := L.nread + k } = L.avail N - k := by
  have ha := avail_lt hN L
  have h1 := Nat.div_add_mod (L.written.length - L.nread) N
  unfold StreamLog.avail at *
  dsimp only
  have : L.written.length - (L.nread + k) =
      N * ((L.written.length - L.nread) / N) + ((L.written.length - L.nread) % N - k) := by omega
  rw [this, Nat.mul_add_mod, Nat.mod_eq_of_lt (by omega)]

/-- One `memcpy` of the read loop delivers the next readable bytes and keeps the correspondence. -/
theorem inv_read_chunk {N : Nat} {rb : RingBuffer} {L : StreamLog} (hN : 0 < N) (h : RingInv N rb L)
    {dst : List Byte} {o n : Nat} (ho : o + n ≤ dst.length) (hn : rb.rp + n ≤ N) (hna : n ≤ L.avail N) :
    memcpy dst o rb.buf rb.rp n = .ok (overwriteAt dst o ((L.readable N).take n)) ∧
      RingInv N { rb with rp := if rb.rp + n = rb.size then 0 else rb.rp + n } { L with nread := L.nread + n } := by
  obtain ⟨hs, hl, hw, hr, hle, hc⟩ := h
  have ha := avail_lt hN L
  have hav := avail_le (N := N) L
  constructor
  · have hsl : (rb.buf.drop rb.rp).take n = (L.readable N).take n := by
      apply List.ext_getElem?
      intro j
      by_cases hj : j < n
      · rw [List.getElem?_take_of_lt hj, List.getElem?_take_of_lt hj, List.getElem?_drop, StreamLog.readable,
          List.getElem?_drop]
        rw [← hc (L.written.length - L.avail N + j) (by omega) (by omega)]
        congr 1
        rw [mod_add_helper] <;> rw [mod_avail hle] <;> omega
      · rw [List.getElem?_take_eq_none (by omega), List.getElem?_take_eq_none (by omega)]
    have hlen : ((L.readable N).take n).length = n := by
      rw [List.length_take, readable_length]; omega
    simp only [memcpy, hl, hn, ho, and_self, if_true, overwriteAt, hlen, hsl]
  · refine ⟨hs, hl, hw, ?_, ?_, hc⟩
    · dsimp only
      rw [hs]
      split_ifs with hf
      · have := Nat.div_add_mod L.nread N
        have e : L.nread + n = N * (L.nread / N) + N := by omega
        rw [e]; simp
      · rw [mod_add_helper] <;> omega
    · dsimp only; omega

theorem overwriteAt_append {dst : List Byte} {o : Nat} {a b : List Byte} (h : o + (a.length + b.length) ≤ dst.length) :
    overwriteAt (overwriteAt dst o a) (o + a.length) b = overwriteAt dst o (a ++ b) := by
  unfold overwriteAt
  have h1 : (List.take o dst ++ (a ++ List.drop (o + a.length) dst)).take (o + a.length) = List.take o dst ++ a := by
    rw [← List.append_assoc, List.take_append_of_le_length (by simp; omega), List.take_of_length_le (by simp)]
  have h2 : (List.take o dst ++ (a ++ List.drop (o + a.length) dst)).drop (o + a.length + b.length) =
      dst.drop (o + (a ++ b).length) := by
    rw [← List.append_assoc, List.drop_append, List.drop_eq_nil_of_le (by simp; omega)]
    simp only [List.nil_append, List.length_append, List.length_take, List.drop_drop]
    congr 1; omega
  rw [h1, h2]; simp

theorem overwriteAt_length {dst : List Byte} {o : Nat} {a : List Byte} (h : o + a.length ≤ dst.length) :
    (overwriteAt dst o a).length = dst.length := by
  simp [overwriteAt]; omega

theorem overwriteAt_nil {dst : List Byte} {o : Nat} : overwriteAt dst o [] = dst := by simp [overwriteAt]

theorem readable_after {N : Nat} (hN : 0 < N) {L : StreamLog} {k : Nat} (hk : k ≤ L.avail N) :
    StreamLog.readable N { L with nread := L.nread + k } = (L.readable N).drop k := by
  have := avail_le (N := N) L
  unfold StreamLog.readable
  rw [avail_after_read hN hk, List.drop_drop]
  congr 1; dsimp only; omega

/-- Shape of one iteration of the read loop. -/
theorem read_chunk_size {N : Nat} (hN : 0 < N) {rb : RingBuffer} {L : StreamLog} (h : RingInv N rb L) {m k : Nat}
    (hm : 1 ≤ m) (hpp : rb.wp ≠ rb.rp)
    (hk : (if rb.wp > rb.rp then min (rb.wp - rb.rp) m else min (rb.size - rb.rp) m) = k) :
    k ≤ L.avail N ∧ rb.rp + k ≤ N ∧ 1 ≤ k ∧ k ≤ m := by
  have hs := h.size
  have hrl : rb.rp < N := by rw [h.rp]; exact Nat.mod_lt _ hN
  have hwl : rb.wp < N := by rw [h.wp]; exact Nat.mod_lt _ hN
  have hwp := wp_of_avail hN h.le
  rw [← h.wp, ← h.rp] at hwp
  have ha := avail_lt hN L
  split_ifs at hk hwp <;> omega

/-- Equal pointers mean nothing is readable. -/
theorem avail_zero_of_eq {N : Nat} (hN : 0 < N) {rb : RingBuffer} {L : StreamLog} (h : RingInv N rb L)
    (hpp : rb.wp = rb.rp) : L.avail N = 0 := by
  have hrl : rb.rp < N := by rw [h.rp]; exact Nat.mod_lt _ hN
  have hwp := wp_of_avail hN h.le
  rw [← h.wp, ← h.rp] at hwp
  have ha := avail_lt hN L
  split_ifs at hwp <;> omega

theorem readLoop_ok {N : Nat} (hN : 0 < N) (offset len : Nat) :
    ∀ (fuel count : Nat) (rb : RingBuffer) (dst : List Byte) (L : StreamLog),
      offset + count + min (len - count) (L.avail N) ≤ dst.length →
      RingInv N rb L → count ≤ len → len - count ≤ fuel →
      ∃ rb', readLoop fuel rb dst offset len count =
          .ok (rb', overwriteAt dst (offset + count) ((L.readable N).take (len - count)),
            count + ((L.readable N).take (len - count)).length) ∧
        RingInv N rb' { L with nread := L.nread + ((L.readable N).take (len - count)).length } := by
  intro fuel
  induction fuel with
  | zero =>
    intro count rb dst L hdst h hc hf
    have : count = len := by omega
    subst this
    exact ⟨rb, by unfold readLoop; simp [overwriteAt_nil], by simpa using h⟩
  | succ fuel ih =>
    intro count rb dst L hdst h hc hf
    by_cases hcl : count = len
    · subst hcl
      exact ⟨rb, by unfold readLoop; simp [overwriteAt_nil], by simpa using h⟩
    have hrlen := readable_length (N := N) L
    by_cases hpp : rb.wp = rb.rp
    · have ha0 := avail_zero_of_eq hN h hpp
      have hnil : L.readable N = [] := by
        apply List.eq_nil_of_length_eq_zero; omega
      refine ⟨rb, ?_, ?_⟩
      · unfold readLoop; simp [hpp, hnil, overwriteAt_nil]
      · rw [hnil]; simpa using h
    · unfold readLoop
      simp only [ne_eq, hcl, not_false_eq_true, hpp, and_self, if_true]
      generalize hk : (if rb.wp > rb.rp then min (rb.wp - rb.rp) (len - count)
        else min (rb.size - rb.rp) (len - count)) = k
      obtain ⟨hka, hkN, hk0, hkl⟩ := read_chunk_size hN h (by omega) hpp hk
      obtain ⟨hm, hinv⟩ := inv_read_chunk hN h (dst := dst) (o := offset + count) (n := k) (by omega) hkN hka
      rw [hm]
      simp only [Res.bind_ok]
      have htl : ((L.readable N).take k).length = k := by rw [List.length_take]; omega
      obtain ⟨rb', h1, h2⟩ := ih (count + k) _ (overwriteAt dst (offset + count) ((L.readable N).take k)) _
        (by rw [overwriteAt_length (by omega), avail_after_read hN hka]; omega) hinv (by omega) (by omega)
      rw [readable_after hN hka] at h1 h2
      have hsplit : (L.readable N).take (len - count) =
          (L.readable N).take k ++ ((L.readable N).drop k).take (len - (count + k)) := by
        have e : len - count = k + (len - (count + k)) := by omega
        rw [e, List.take_add]
      refine ⟨rb', ?_, ?_⟩
      · rw [h1]
        have e1 := @overwriteAt_append dst (offset + count) ((L.readable N).take k)
          (((L.readable N).drop k).take (len - (count + k)))
          (by rw [htl, List.length_take, List.length_drop]; omega)
        rw [htl] at e1
        rw [hsplit, ← e1, List.length_append, htl]
        simp only [Nat.add_assoc]
      · rw [hsplit, List.length_append, htl]
        simpa [Nat.add_assoc] using h2

/-- If the bytes that are about to be delivered do not fit the caller's buffer, the read is out of range. -/
theorem readLoop_ub {N : Nat} (hN : 0 < N) (offset len : Nat) :
    ∀ (fuel count : Nat) (rb : RingBuffer) (dst : List Byte) (L : StreamLog),
      dst.length < offset + count + min (len - count) (L.avail N) → 1 ≤ min (len - count) (L.avail N) →
      RingInv N rb L → count ≤ len → len - count ≤ fuel → readLoop fuel rb dst offset len count = .ub := by
  intro fuel
  induction fuel with
  | zero => intro count rb dst L _ h1 _ hc hf; omega
  | succ fuel ih =>
    intro count rb dst L hdst h1 h hc hf
    have hcl : count ≠ len := by omega
    have hrlen := readable_length (N := N) L
    have hpp : rb.wp ≠ rb.rp := by
      intro hpp; have := avail_zero_of_eq hN h hpp; omega
    unfold readLoop
    simp only [ne_eq, hcl, not_false_eq_true, hpp, and_self, if_true]
    generalize hk : (if rb.wp > rb.rp then min (rb.wp - rb.rp) (len - count)
        else min (rb.size - rb.rp) (len - count)) = k
    obtain ⟨hka, hkN, hk0, hkl⟩ := read_chunk_size hN h (by omega) hpp hk
    by_cases hfit : offset + count + k ≤ dst.length
    · obtain ⟨hm, hinv⟩ := inv_read_chunk hN h (dst := dst) (o := offset + count) (n := k) hfit hkN hka
      rw [hm]
      simp only [Res.bind_ok]
      have htl : ((L.readable N).take k).length = k := by rw [List.length_take]; omega
      apply ih _ _ _ _ _ _ hinv (by omega) (by omega)
      · rw [overwriteAt_length (by omega), avail_after_read hN hka]; omega
      · rw [avail_after_read hN hka]; omega
    · have : memcpy dst (offset + count) rb.buf rb.rp k = .ub := by
        unfold memcpy; rw [if_neg (by omega)]
      rw [this]; rfl

/-- The read loop on a buffer of at least one byte. -/
theorem readFuel_ok {N : Nat} (hN : 0 < N) {dst : List Byte} {offset len fuel : Nat}
    (hdst : offset + len ≤ dst.length) (hf : len ≤ fuel) {rb : RingBuffer} {L : StreamLog} (h : RingInv N rb L) :
    ∃ rb', readFuel fuel rb dst offset len =
        .ok (rb', overwriteAt dst offset ((L.readable N).take len), ((L.readable N).take len).length) ∧
      RingInv N rb' { L with nread := L.nread + ((L.readable N).take len).length } := by
  simpa [readFuel] using readLoop_ok hN offset len fuel 0 rb dst L (by omega) h (by omega) (by omega)

end RingBuffer
end S2E
