import Verif.Proofs.Slip
import Mathlib.Tactic.Linarith
/-!
# Properties C14–C18: SLIP framing and endian-aware copying
-/
namespace S2E
namespace Slip
open SlipSpec

/-- **C14.** Decoding inverts encoding for every byte string, with and without header, and whatever bytes follow the frame do
not matter; encoding and decoding terminate without undefined behaviour. -/
theorem C14_slip_roundtrip (x tail : List Byte) :
    (∃ y, encode x = .ok y ∧ decode (y ++ tail) = .ok x) ∧
    (∃ y, encodeWithHeader x = .ok y ∧ decodeWithHeader (y ++ tail) = .ok x) := by
  have h : decode (frame x ++ tail) = .ok x := by
    rw [decode_eq, payload_frame, unstuff_flatMap]; rfl
  refine ⟨⟨_, encode_eq x, h⟩, ⟨_, by simp [encodeWithHeader, encode_eq]; rfl, ?_⟩⟩
  simpa [decodeWithHeader] using h

/-- Non-vacuity of C14: all special bytes. -/
example : encode [0xc0, 0xdb, 0xdc, 0xdd, 1] = .ok [0xdb, 0xdc, 0xdb, 0xdd, 0xdc, 0xdd, 1, 0xc0] ∧
    decode [0xdb, 0xdc, 0xdb, 0xdd, 0xdc, 0xdd, 1, 0xc0, 5] = .ok [0xc0, 0xdb, 0xdc, 0xdd, 1] := by decide

/-- **C15.** An encoded frame contains the end byte exactly once, at its end (with header: exactly first and last). A
concatenation of encoded frames is cut at the end bytes into exactly those frames, so the sequence of messages is
determined by the byte stream. -/
theorem C15_slip_self_delimiting :
    (∀ x, ∃ body, encode x = .ok (body ++ [0xc0]) ∧ (0xc0 : Byte) ∉ body ∧
      encodeWithHeader x = .ok (0xc0 :: (body ++ [0xc0]))) ∧
    (∀ (xs : List (List Byte)) (ys : List (List Byte)), xs.map encode = ys.map Res.ok →
      cut [] ys.flatten = ys) ∧
    (∀ (xs xs' ys ys' : List (List Byte)), xs.map encode = ys.map Res.ok → xs'.map encode = ys'.map Res.ok →
      ys.flatten = ys'.flatten → xs = xs') := by
  have hcut : ∀ (xs : List (List Byte)) (ys : List (List Byte)), xs.map encode = ys.map Res.ok →
      ys = xs.map frame ∧ cut [] ys.flatten = ys := by
    intro xs
    induction xs with
    | nil => intro ys h; cases ys with
      | nil => exact ⟨rfl, rfl⟩
      | cons y ys => simp at h
    | cons x xs ih =>
      intro ys h
      cases ys with
      | nil => simp at h
      | cons y ys =>
        simp only [List.map_cons, List.cons.injEq, encode_eq, Res.ok.injEq] at h
        obtain ⟨rfl, h2⟩ := h
        obtain ⟨h3, h4⟩ := ih ys h2
        refine ⟨by rw [h3]; rfl, ?_⟩
        rw [List.flatten_cons]
        have e : frame x ++ ys.flatten = x.flatMap stuff ++ 0xc0 :: ys.flatten := by simp [frame]
        rw [e, cut_append_stuffed _ (fend_not_mem_stuffed x), h4]
        simp [frame]
  refine ⟨fun x => ⟨x.flatMap stuff, encode_eq x, fend_not_mem_stuffed x, by
    simp [encodeWithHeader, encode_eq, frame, fend]⟩, fun xs ys h => (hcut xs ys h).2, ?_⟩
  intro xs xs' ys ys' h h' he
  obtain ⟨h1, h2⟩ := hcut xs ys h
  obtain ⟨h1', h2'⟩ := hcut xs' ys' h'
  have hy : ys = ys' := by rw [← h2, he, h2']
  have hinj : Function.Injective frame := by
    intro a b hab
    have ha := payload_frame a []
    rw [hab, payload_frame b []] at ha
    have := congrArg unstuff ha
    rw [unstuff_flatMap, unstuff_flatMap] at this
    exact (Option.some.inj this).symm
  rw [h1, h1'] at hy
  exact List.map_inj_right (fun a b h => hinj h) |>.1 hy

/-- Non-vacuity of C15. -/
example : cut [] [1, 0xc0, 0xc0, 0xdb, 0xdc, 0xc0] = [[1, 0xc0], [0xc0], [0xdb, 0xdc, 0xc0]] := by decide

/-- **C16.** The encoded length is `|x|` plus the number of special bytes plus one, hence at most `2|x| + 1`; decoding never
lengthens. -/
theorem C16_slip_length (x y : List Byte) :
    (encode x = .ok y → y.length = x.length + x.countP (fun b => b = 0xc0 ∨ b = 0xdb) + 1 ∧
      y.length ≤ 2 * x.length + 1) ∧
    (decode y = .ok x → x.length ≤ y.length) := by
  constructor
  · intro h
    rw [encode_eq] at h
    cases h
    have hl : (x.flatMap stuff).length = x.length + x.countP (fun b => b = 0xc0 ∨ b = 0xdb) := by
      induction x with
      | nil => rfl
      | cons b x ih =>
        rw [List.flatMap_cons, List.length_append, ih, List.countP_cons]
        unfold stuff
        by_cases h1 : b = 0xc0
        · simp [h1]; omega
        · by_cases h2 : b = 0xdb
          · simp [h2]; omega
          · simp [h1, h2]; omega
    have hle := List.countP_le_length (p := fun b : Byte => decide (b = 0xc0 ∨ b = 0xdb)) (l := x)
    constructor
    · simp [frame, hl]
    · simp only [frame, List.length_append, hl, List.length_cons, List.length_nil]; omega
  · intro h
    rw [decode_eq] at h
    cases hu : unstuff (payload y) with
    | none => rw [hu] at h; cases h
    | some r =>
      rw [hu] at h; cases h
      have h1 := unstuff_length _ _ hu
      have h2 : (payload y).length ≤ y.length := (List.takeWhile_prefix _).length_le
      omega

/-- Non-vacuity of C16. -/
example : encode [0xc0, 1, 0xdb] = .ok [0xdb, 0xdc, 1, 0xdb, 0xdd, 0xc0] := by decide

/-- **C17.** Decoding always terminates, and reads outside the vector exactly when the part of the input before the first end
byte ends with an odd number of escape bytes; with header, in addition exactly when the input is empty. -/
theorem C17_slip_decode_safety (y : List Byte) :
    (decode y = .ub ↔ DanglingEscape (payload y)) ∧
    (¬ DanglingEscape (payload y) → ∃ x, decode y = .ok x) ∧
    (decodeWithHeader y = .ub ↔ y = [] ∨ DanglingEscape (payload (y.drop 1))) := by
  have h1 : ∀ y, decode y = .ub ↔ DanglingEscape (payload y) := by
    intro y
    rw [decode_eq, ← unstuff_none_iff]
    cases unstuff (payload y) <;> simp [ofOption]
  refine ⟨h1 y, fun h => ?_, ?_⟩
  · rw [decode_eq]
    rw [← unstuff_none_iff] at h
    cases hu : unstuff (payload y) with
    | none => exact absurd hu h
    | some x => exact ⟨x, rfl⟩
  · cases y with
    | nil => simp [decodeWithHeader]
    | cons b y => simp [decodeWithHeader, h1]

/-- Non-vacuity of C17: a dangling escape, and an escaped escape at the end. -/
example : decode [1, 0xdb, 0xdb, 0xdb, 0xc0, 7] = .ub ∧ decode [1, 0xdb, 0xdb, 0xc0, 7] = .ok [1, 0xdb] := by decide

end Slip

namespace Endian

theorem copyLoop_eq (src : List Byte) (size : Nat) (hs : size < src.length) : ∀ (n i : Nat) (dst : List Byte),
    n + i = size + 1 → size < dst.length →
    ∃ d, copyLoop src size n i dst = .ok d ∧ d.length = dst.length ∧
      ∀ j, d[j]? = if j < n then src[size - j]? else dst[j]? := by
  intro n
  induction n with
  | zero => intro i dst _ _; exact ⟨dst, rfl, rfl, by simp⟩
  | succ n ih =>
    intro i dst hn hd
    have hi : i < src.length := by omega
    have e : src[i]? = some src[i] := by simp [hi]
    obtain ⟨d, h1, h2, h3⟩ := ih (i + 1) (dst.set (size - i) src[i]) (by omega) (by simpa using hd)
    refine ⟨d, ?_, by simpa using h2, ?_⟩
    · rw [copyLoop, e]
      simp only
      rw [if_pos (by omega)]
      exact h1
    · intro j
      rw [h3]
      by_cases hj : j < n
      · rw [if_pos hj, if_pos (by omega)]
      · rw [if_neg hj]
        by_cases hj2 : j = n
        · subst hj2
          have h4 : size - i = j := by omega
          rw [if_pos (by omega), h4, List.getElem?_set_self (by omega)]
          rw [← e]; congr 1; omega
        · rw [if_neg (by omega), List.getElem?_set_ne (by omega)]

/-- **C18.** On a little-endian host `endian_memcpy(dst, src, n)` with `n ≥ 1` and both ranges owned stores the first `n` bytes
of `src` in reverse order at the front of `dst` and changes nothing else. -/
theorem C18_endian_reverse_partial (dst src : List Byte) (n : Nat) (hn : 1 ≤ n) (hs : n ≤ src.length)
    (hd : n ≤ dst.length) : endianMemcpy dst src n = .ok ((src.take n).reverse ++ dst.drop n) := by
  unfold endianMemcpy
  simp only [show n > 0 by omega, if_true]
  obtain ⟨d, h1, h2, h3⟩ := copyLoop_eq src (n - 1) (by omega) (n - 1 + 1) 0 dst (by omega) (by omega)
  rw [h1]
  congr 1
  apply List.ext_getElem?
  intro j
  rw [h3]
  by_cases hj : j < n
  · rw [if_pos (by omega), List.getElem?_append_left (by simp; omega), List.getElem?_reverse (by simp; omega)]
    rw [List.getElem?_take_of_lt (by simp; omega)]
    congr 1; simp; omega
  · rw [if_neg (by omega), List.getElem?_append_right (by simp; omega), List.getElem?_drop]
    congr 1; simp; omega

/-- Non-vacuity of C18. -/
example : endianMemcpy [0, 0, 0, 9] [1, 2, 3, 4] 3 = .ok [3, 2, 1, 9] :=
  C18_endian_reverse_partial _ _ 3 (by decide) (by decide) (by decide)

/-- **C18 (involution).** Copying twice restores the input. -/
theorem C18_endian_involution (dst dst' src : List Byte) (n : Nat) (hn : 1 ≤ n) (hs : n ≤ src.length)
    (hd : n ≤ dst.length) (hd' : n ≤ dst'.length) :
    ∃ y z, endianMemcpy dst src n = .ok y ∧ endianMemcpy dst' y n = .ok z ∧ z.take n = src.take n := by
  refine ⟨_, _, C18_endian_reverse_partial dst src n hn hs hd,
    C18_endian_reverse_partial dst' _ n hn (by simp; omega) hd', ?_⟩
  rw [List.take_append_of_le_length (by simp; omega), List.take_append_of_le_length (by simp; omega)]
  rw [List.take_of_length_le (by simp), List.take_of_length_le (by simp)]
  simp

example : ∃ y z, endianMemcpy [0, 0] [1, 2] 2 = .ok y ∧ endianMemcpy [0, 0] y 2 = .ok z ∧ z.take 2 = [1, 2] :=
  C18_endian_involution _ _ _ 2 (by decide) (by decide) (by decide) (by decide)

/-- **C18 is false for `n = 0`**: one byte is copied anyway, and if either buffer is empty that is an out-of-range access. -/
theorem C18_endian_zero (dst src : List Byte) :
    (∀ b bs d ds, src = b :: bs → dst = d :: ds → endianMemcpy dst src 0 = .ok (b :: ds)) ∧
    (src = [] ∨ dst = [] → endianMemcpy dst src 0 = .ub) := by
  constructor
  · rintro b bs d ds rfl rfl
    simp [endianMemcpy, copyLoop]
  · rintro (rfl | rfl)
    · simp [endianMemcpy, copyLoop]
    · cases src <;> simp [endianMemcpy, copyLoop]

example : endianMemcpy [7, 8] [1] 0 = .ok [1, 8] := (C18_endian_zero _ _).1 _ _ _ _ rfl rfl

end Endian
end S2E
