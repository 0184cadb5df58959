import Verif.Model.C2a
import Verif.Props.Slip
import Verif.Props.Log
import Mathlib.Algebra.Order.Floor.Ring
import Mathlib.Algebra.Order.Floor.Semiring
import Mathlib.Data.Rat.Floor
import Mathlib.Tactic.Ring
import Mathlib.Tactic.Linarith
import Mathlib.Tactic.LinearCombination
import Mathlib.Tactic.FieldSimp
/-! # C54 (argument encoding), C55 (operation file), C75 (command lines) and C76 (command database) -/
namespace S2E.C2a
open S2E.Log S2E.Ini S2E.Csv S2E.LogProps

/-! ## Specification -/

/-- The decimal text of an integer. -/
def intText (v : Int) : Str := if v < 0 then '-' :: dec v.natAbs else dec v.natAbs

/-- The number a byte string stands for, most significant byte first. -/
def beValue (bytes : List Byte) : Int := bytes.foldl (fun acc b => acc * 256 + (b.toNat : Int)) 0

/-- The two's complement number. -/
def beSigned (bytes : List Byte) : Int :=
  if 2 * beValue bytes < 256 ^ bytes.length then beValue bytes else beValue bytes - 256 ^ bytes.length

/-! ## Reading integers -/

theorem isDigit_dec (n : Nat) : ∀ c ∈ dec n, c.isDigit = true := fun _ hc => Nat.isDigit_of_mem_toDigits (by norm_num) (by norm_num) hc

theorem dec_ne_nil (n : Nat) : dec n ≠ [] := by
  intro h
  have := congrArg (fun l => l.length) h
  simp only [dec, List.length_nil] at this
  exact absurd this (by have := Nat.length_toDigits_pos (b := 10) (n := n); omega)

theorem scan_dec (n : Nat) (rest : Str) (hr : ∀ c, rest.head? = some c → c.isDigit = false) :
    (dec n ++ rest).takeWhile Char.isDigit = dec n := by
  rw [List.takeWhile_append_of_pos (isDigit_dec n)]
  cases rest with
  | nil => simp
  | cons c cs => simp [hr c rfl]

theorem not_space_of_digit (c : Char) (h : c.isDigit = true) : isSpace c = false ∧ c ≠ '-' ∧ c ≠ '+' := by
  have h' : 48 ≤ c.toNat ∧ c.toNat ≤ 57 := by
    simp only [Char.isDigit, ge_iff_le, Bool.and_eq_true, decide_eq_true_eq] at h
    exact ⟨by exact_mod_cast UInt32.le_iff_toNat_le.1 h.1, by exact_mod_cast UInt32.le_iff_toNat_le.1 h.2⟩
  have key : ∀ d : Char, d.toNat < 48 → c ≠ d := by rintro d hd rfl; omega
  refine ⟨?_, key '-' (by decide), key '+' (by decide)⟩
  simp only [isSpace, Bool.or_eq_false_iff, decide_eq_false_iff_not]
  refine ⟨⟨⟨⟨⟨key ' ' (by decide), key '\t' (by decide)⟩, key '\n' (by decide)⟩, key '\r' (by decide)⟩, by omega⟩, by omega⟩

theorem scanInt_text (v : Int) (rest : Str) (hr : ∀ c, rest.head? = some c → c.isDigit = false) :
    scanInt (intText v ++ rest) = some (decide (v < 0), v.natAbs) := by
  obtain ⟨c, cs, hc⟩ : ∃ c cs, dec v.natAbs = c :: cs := by
    rcases h : dec v.natAbs with _ | ⟨c, cs⟩
    · exact absurd h (dec_ne_nil _)
    · exact ⟨c, cs, rfl⟩
  have hd : c.isDigit = true := isDigit_dec v.natAbs c (by rw [hc]; simp)
  obtain ⟨h1, h2, h3⟩ := not_space_of_digit c hd
  have ht := scan_dec v.natAbs rest hr
  have hv : Nat.ofDigitChars 10 (dec v.natAbs) 0 = v.natAbs := by simp [dec, Nat.ofDigitChars_ten_toDigits]
  by_cases hneg : v < 0
  · simp only [scanInt, intText, if_pos hneg, List.cons_append]
    rw [List.dropWhile_cons_of_neg (by decide)]
    simp only [splitSign, ht, hv, if_neg (dec_ne_nil v.natAbs), hneg, decide_true]
  · simp only [scanInt, intText, if_neg hneg]
    have : (dec v.natAbs ++ rest).dropWhile isSpace = dec v.natAbs ++ rest := by
      rw [hc, List.cons_append, List.dropWhile_cons_of_neg (by simp [h1])]
    rw [this]
    have : splitSign (dec v.natAbs ++ rest) = (false, dec v.natAbs ++ rest) := by
      rw [hc, List.cons_append, splitSign]
      · rintro r e; simp only [List.cons.injEq] at e; exact absurd e.1 h2
      · rintro r e; simp only [List.cons.injEq] at e; exact absurd e.1 h3
    rw [this]
    simp only [ht, hv, if_neg (dec_ne_nil v.natAbs), hneg, decide_false]

theorem val_eq (v : Int) : (if decide (v < 0) = true then -(v.natAbs : Int) else (v.natAbs : Int)) = v := by
  by_cases h : v < 0
  · simp only [h, decide_true, if_true]; omega
  · simp only [h, decide_false, Bool.false_eq_true, if_false]; omega

theorem stoul_text (v : Int) (rest : Str) (hr : ∀ c, rest.head? = some c → c.isDigit = false) :
    stoul (intText v ++ rest) = if -2 ^ 64 < v ∧ v < 2 ^ 64 then .ok (v % 2 ^ 64) else .throws := by
  simp only [stoul, scanInt_text v rest hr, val_eq]
  by_cases h : v.natAbs < 2 ^ 64
  · rw [if_pos h, if_pos (by omega)]
  · rw [if_neg h, if_neg (by omega)]

theorem stoi_text (v : Int) (rest : Str) (hr : ∀ c, rest.head? = some c → c.isDigit = false) :
    stoi (intText v ++ rest) = if -2 ^ 31 ≤ v ∧ v < 2 ^ 31 then .ok v else .throws := by
  simp only [stoi, scanInt_text v rest hr, val_eq]

theorem stol_text (v : Int) (rest : Str) (hr : ∀ c, rest.head? = some c → c.isDigit = false) :
    stol (intText v ++ rest) = if -2 ^ 63 ≤ v ∧ v < 2 ^ 63 then .ok v else .throws := by
  simp only [stol, scanInt_text v rest hr, val_eq]

/-! ## Bytes -/

@[simp] theorem leBytes_length (n : Nat) (v : Int) : (leBytes n v).length = n := by
  induction n generalizing v with
  | zero => rfl
  | succ n ih => simp [leBytes, ih]

theorem beValue_append (a : List Byte) (b : Byte) : beValue (a ++ [b]) = beValue a * 256 + (b.toNat : Int) := by simp [beValue]

theorem beValue_leBytes (n : Nat) (v : Int) : beValue (leBytes n v).reverse = v % 256 ^ n := by
  induction n generalizing v with
  | zero => simp [leBytes, beValue, Int.emod_one]
  | succ n ih =>
    rw [leBytes, List.reverse_cons, beValue_append, ih]
    have hb : ((UInt8.ofNat (v % 256).toNat).toNat : Int) = v % 256 := by
      have h0 : 0 ≤ v % 256 := Int.emod_nonneg _ (by norm_num)
      have h1 : v % 256 < 256 := Int.emod_lt_of_pos _ (by norm_num)
      rw [UInt8.toNat_ofNat', Nat.mod_eq_of_lt (by omega)]
      omega
    rw [hb]
    have hp : (0 : Int) < 256 ^ n := by positivity
    have e : v = (v / 256 / 256 ^ n) * 256 ^ (n + 1) + (v / 256 % 256 ^ n * 256 + v % 256) := by
      have h2 := Int.mul_ediv_add_emod (v / 256) (256 ^ n)
      have h3 := Int.mul_ediv_add_emod v 256
      rw [pow_succ]; linear_combination -256 * h2 - h3
    have h0 : 0 ≤ v / 256 % 256 ^ n * 256 + v % 256 := by
      have := Int.emod_nonneg (v / 256) hp.ne'
      have := Int.emod_nonneg v (show (256 : Int) ≠ 0 by norm_num)
      omega
    have h1 : v / 256 % 256 ^ n * 256 + v % 256 < 256 ^ (n + 1) := by
      have := Int.emod_lt_of_pos (v / 256) hp
      have := Int.emod_lt_of_pos v (show (0 : Int) < 256 by norm_num)
      rw [pow_succ]; omega
    conv_rhs => rw [e]
    rw [Int.add_comm (_ * 256 ^ (n + 1)) _, Int.add_mul_emod_self_right, Int.emod_eq_of_lt h0 h1]

theorem beValue_bounds (bytes : List Byte) : 0 ≤ beValue bytes ∧ beValue bytes < 256 ^ bytes.length := by
  induction bytes using List.reverseRecOn with
  | nil => simp [beValue]
  | append_singleton a b ih =>
    rw [beValue_append, List.length_append, List.length_singleton, pow_succ]
    have := b.toNat_lt
    constructor <;> omega

/-- `bytes` is the `n`-byte big-endian (two's complement) form of `v`. -/
def IsBigEndian (n : Nat) (v : Int) (bytes : List Byte) : Prop := bytes.length = n ∧ beValue bytes = v % 256 ^ n

theorem endian_le (n : Nat) (hn : 1 ≤ n) (v : Int) (param : List Byte) (hp : n ≤ param.length) :
    Endian.endianMemcpy param (leBytes n v) n = .ok ((leBytes n v).reverse ++ param.drop n) := by
  rw [Endian.C18_endian_reverse_partial param (leBytes n v) n hn (by simp) hp, List.take_of_length_le (by simp)]

theorem isBe (n : Nat) (v : Int) : IsBigEndian n v (leBytes n v).reverse := ⟨by simp, beValue_leBytes n v⟩

theorem isBe_mod (n : Nat) (v : Int) (h : (256 : Int) ^ n ∣ 2 ^ 64) : IsBigEndian n v (leBytes n (v % 2 ^ 64)).reverse :=
  ⟨by simp, by rw [beValue_leBytes, Int.emod_emod_of_dvd _ h]⟩

/-- The unsigned types with their sizes in bytes. -/
def unsignedTypes : List (ArgType × Nat) := [(.uint8, 1), (.uint16, 2), (.uint32, 4), (.uint64, 8)]
/-- The signed types with their sizes in bytes and the number of bits of the C++ function that reads them. -/
def signedTypes : List (ArgType × Nat × Nat) := [(.int8, 1, 32), (.int16, 2, 32), (.int32, 4, 32), (.int64, 8, 64)]

/-- **C54.** An unsigned argument: any number whose magnitude fits into 64 bits is written as the big-endian bytes of its value modulo `2^N`
(so itself when in range), nothing beyond is touched and the size is `N/8`; a larger magnitude throws. Text after the digits is ignored. -/
theorem C54_unsigned (io : FloatIo) (t : ArgType) (n : Nat) (ht : (t, n) ∈ unsignedTypes) (v : Int) (rest : Str)
    (hr : ∀ c, rest.head? = some c → c.isDigit = false) (param : List Byte) (hp : n ≤ param.length) (s : Nat) :
    (-2 ^ 64 < v ∧ v < 2 ^ 64 →
      ∃ bytes, IsBigEndian n v bytes ∧ decodeArgument io t (intText v ++ rest) param s = .ok (bytes ++ param.drop n, n)) ∧
    (¬ (-2 ^ 64 < v ∧ v < 2 ^ 64) → decodeArgument io t (intText v ++ rest) param s = .throws) := by
  simp only [unsignedTypes, List.mem_cons, Prod.mk.injEq, List.not_mem_nil, or_false] at ht
  have hs := stoul_text v rest hr
  rcases ht with ⟨rfl, rfl⟩ | ⟨rfl, rfl⟩ | ⟨rfl, rfl⟩ | ⟨rfl, rfl⟩
  all_goals
    refine ⟨fun h => ⟨_, isBe_mod _ v (by norm_num), ?_⟩, fun h => ?_⟩
    · rw [if_pos h] at hs
      simp only [decodeArgument, hs, Res.bind_ok, endian_le _ (by norm_num) _ param hp]
    · rw [if_neg h] at hs
      simp only [decodeArgument, hs, Res.bind_throws]

/-- **C54.** A signed argument: any number in the range of the function that reads it (32 bits for `int8_t`, `int16_t`, `int32_t`, 64 bits for
`int64_t`) is written as the big-endian two's complement bytes modulo `2^N`; a number beyond throws. -/
theorem C54_signed (io : FloatIo) (t : ArgType) (n b : Nat) (ht : (t, n, b) ∈ signedTypes) (v : Int) (rest : Str)
    (hr : ∀ c, rest.head? = some c → c.isDigit = false) (param : List Byte) (hp : n ≤ param.length) (s : Nat) :
    (-2 ^ (b - 1) ≤ v ∧ v < 2 ^ (b - 1) →
      ∃ bytes, IsBigEndian n v bytes ∧ decodeArgument io t (intText v ++ rest) param s = .ok (bytes ++ param.drop n, n)) ∧
    (¬ (-2 ^ (b - 1) ≤ v ∧ v < 2 ^ (b - 1)) → decodeArgument io t (intText v ++ rest) param s = .throws) := by
  simp only [signedTypes, List.mem_cons, Prod.mk.injEq, List.not_mem_nil, or_false] at ht
  have hs := stoi_text v rest hr
  have hl := stol_text v rest hr
  rcases ht with ⟨rfl, rfl, rfl⟩ | ⟨rfl, rfl, rfl⟩ | ⟨rfl, rfl, rfl⟩ | ⟨rfl, rfl, rfl⟩
  case inr.inr.inr =>
    refine ⟨fun h => ⟨_, isBe _ v, ?_⟩, fun h => ?_⟩
    · rw [if_pos h] at hl
      simp only [decodeArgument, hl, Res.bind_ok, endian_le _ (by norm_num) _ param hp]
    · rw [if_neg h] at hl
      simp only [decodeArgument, hl, Res.bind_throws]
  all_goals
    refine ⟨fun h => ⟨_, isBe _ v, ?_⟩, fun h => ?_⟩
    · rw [if_pos h] at hs
      simp only [decodeArgument, hs, Res.bind_ok, endian_le _ (by norm_num) _ param hp]
    · rw [if_neg h] at hs
      simp only [decodeArgument, hs, Res.bind_throws]

/-- **C54.** The bytes decode back: an unsigned value in range is the number of the bytes, a signed value in range their two's complement number. -/
theorem C54_decode (n : Nat) (hn : 1 ≤ n) (v : Int) (bytes : List Byte) (h : IsBigEndian n v bytes) :
    (0 ≤ v ∧ v < 2 ^ (8 * n) → beValue bytes = v) ∧ (-2 ^ (8 * n - 1) ≤ v ∧ v < 2 ^ (8 * n - 1) → beSigned bytes = v) := by
  have hp : (2 : Int) ^ (8 * n) = 256 ^ n := by rw [pow_mul]; norm_num
  have hh : (2 : Int) ^ (8 * n) = 2 * 2 ^ (8 * n - 1) := by rw [← pow_succ']; congr 1; omega
  obtain ⟨h1, h2⟩ := h
  constructor
  · rintro ⟨h3, h4⟩
    rw [h2, Int.emod_eq_of_lt h3 (by rw [← hp]; exact h4)]
  · rintro ⟨h3, h4⟩
    unfold beSigned
    rw [h1, h2]
    rw [hp] at hh
    by_cases hv : 0 ≤ v
    · rw [Int.emod_eq_of_lt hv (by omega), if_pos (by omega)]
    · have : v % 256 ^ n = v + 256 ^ n := by
        rw [← Int.add_emod_right, Int.emod_eq_of_lt (by omega) (by omega)]
      rw [this, if_neg (by omega)]; omega

/-- **C54.** `raw` and unknown types write nothing and leave the size as it was. -/
theorem C54_raw (io : FloatIo) (text : Str) (param : List Byte) (s : Nat) :
    decodeArgument io .raw text param s = .ok (param, s) ∧ decodeArgument io .error text param s = .ok (param, s) := ⟨rfl, rfl⟩

/-- **C54.** Floating point arguments are the bytes of the number read, most significant first. -/
theorem C54_float (io : FloatIo) (text : Str) (param b : List Byte) (s : Nat) :
    (io.stof text = .ok b → 4 ≤ param.length → decodeArgument io .float text param s = .ok (b.reverse ++ param.drop 4, 4)) ∧
    (io.stod text = .ok b → 8 ≤ param.length → decodeArgument io .double text param s = .ok (b.reverse ++ param.drop 8, 8)) := by
  constructor
  · intro h hp
    have hl := io.stof_len _ _ h
    simp only [decodeArgument, h, Res.bind_ok, Endian.C18_endian_reverse_partial param b 4 (by norm_num) (by omega) hp,
      List.take_of_length_le (show b.length ≤ 4 by omega)]
  · intro h hp
    have hl := io.stod_len _ _ h
    simp only [decodeArgument, h, Res.bind_ok, Endian.C18_endian_reverse_partial param b 8 (by norm_num) (by omega) hp,
      List.take_of_length_le (show b.length ≤ 8 by omega)]

/-- **C54.** A hexadecimal argument `0x...` is silently encoded as zero: the reader stops at the `x`. -/
theorem C54_hex_is_zero (io : FloatIo) (t : ArgType) (n : Nat) (ht : (t, n) ∈ unsignedTypes) (digits : Str) (param : List Byte) (hp : n ≤ param.length) (s : Nat) :
    ∃ bytes, IsBigEndian n 0 bytes ∧ decodeArgument io t ("0x".toList ++ digits) param s = .ok (bytes ++ param.drop n, n) := by
  have := (C54_unsigned io t n ht 0 ('x' :: digits) (by simp) param hp s).1 (by norm_num)
  exact this

/-- A reader of floating point numbers that always fails. -/
def noFloat : FloatIo := ⟨fun _ => .throws, fun _ => .throws, by simp, by simp⟩

example : decodeArgument noFloat .uint16 "258".toList [9, 9, 9] 0 = .ok ([1, 2, 9], 2) := by decide +kernel
example : decodeArgument noFloat .int16 "-2".toList [9, 9, 9] 0 = .ok ([255, 254, 9], 2) := by decide +kernel
example : ∃ bytes, IsBigEndian 2 (-2) bytes ∧ decodeArgument noFloat .int16 (intText (-2)) [9, 9, 9] 0 = .ok (bytes ++ [9], 2) := by
  have := (C54_signed noFloat .int16 2 32 (by simp [signedTypes]) (-2) [] (by simp) [9, 9, 9] (by simp) 0).1 (by norm_num)
  simpa using this
/-- Out of range for the type but not for the reader: 300 as `int8_t` becomes 44. -/
example : decodeArgument noFloat .int8 "300".toList [9] 0 = .ok ([44], 1) := by decide +kernel
example : decodeArgument noFloat .uint32 "0xff".toList [9, 9, 9, 9] 0 = .ok ([0, 0, 0, 0], 4) := by decide +kernel

end S2E.C2a
