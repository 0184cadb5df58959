import Verif.Spec.SpaceWeather
import Verif.Proofs.TextLines
import Mathlib.Algebra.Order.Floor.Semiring
import Mathlib.Tactic
/-!
# Lemmas on the dates of `Model/SpaceWeather`
-/
namespace S2E.SpaceWeather
open S2E.Log S2E.Sp3 S2E.Calendar

theorem leapYear_eq (y : ℤ) : leapYear y = isLeap y.natAbs := by
  rw [Bool.eq_iff_iff]
  simp only [leapYear, isLeap, Bool.or_eq_true, Bool.and_eq_true, beq_iff_eq, bne_iff_ne, ne_eq]
  rcases Int.natAbs_eq y with h | h <;> generalize y.natAbs = n at h <;> subst h
  · have e : ∀ k : ℕ, ((n : ℤ).tmod k = 0 ↔ n % k = 0) := fun k => by
      rw [← Int.ofNat_tmod]; norm_cast
    have e4 := e 4; have e100 := e 100; have e400 := e 400
    push_cast at e4 e100 e400
    rw [e4, e100, e400]; omega
  · have e : ∀ k : ℕ, ((-(n : ℤ)).tmod k = 0 ↔ n % k = 0) := fun k => by
      rw [Int.neg_tmod, neg_eq_zero, ← Int.ofNat_tmod]; norm_cast
    have e4 := e 4; have e100 := e 100; have e400 := e 400
    push_cast at e4 e100 e400
    rw [e4, e100, e400]; omega

theorem daysPerYear_eq (y : ℤ) : daysPerYear y = yearLen (isLeap y.natAbs) := by
  rw [daysPerYear, leapYear_eq, yearLen]; split_ifs <;> rfl

/-- Days before month `m`. -/
def before (b : Bool) (m : ℕ) : ℕ := ∑ k ∈ Finset.Ico 1 m, monthLen b k

theorem before_succ (b : Bool) {m : ℕ} (h : 1 ≤ m) : before b (m + 1) = before b m + monthLen b m := by
  rw [before, before, Finset.sum_Ico_succ_top h]

theorem before_vals (b : Bool) : before b 1 = 0 ∧ before b 2 = 31 ∧ before b 3 = (if b then 60 else 59) ∧ before b 4 = (if b then 91 else 90) ∧
    before b 5 = (if b then 121 else 120) ∧ before b 6 = (if b then 152 else 151) ∧ before b 7 = (if b then 182 else 181) ∧
    before b 8 = (if b then 213 else 212) ∧ before b 9 = (if b then 244 else 243) ∧ before b 10 = (if b then 274 else 273) ∧
    before b 11 = (if b then 305 else 304) ∧ before b 12 = (if b then 335 else 334) ∧ before b 13 = (if b then 366 else 365) := by
  cases b <;> decide

theorem acc_eq (b : Bool) (k : ℕ) (hk : k ≤ 12) : acc b k = before b (k + 1) := by
  have := before_vals b
  obtain ⟨h1, h2, h3, h4, h5, h6, h7, h8, h9, h10, h11, h12, h13⟩ := this
  rcases k with _ | _ | _ | _ | _ | _ | _ | _ | _ | _ | _ | _ | _ | k <;> first | omega | skip
  all_goals simp only [Nat.reduceAdd, zero_add, h1, h2, h3, h4, h5, h6, h7, h8, h9, h10, h11, h12, h13]
  all_goals cases b <;> rfl

/-- The outcome names day `N` of the year. -/
def Names (b : Bool) (N : ℕ) (o : Option (ℤ × ℤ)) : Prop :=
  ∃ m d : ℕ, o = some ((m : ℤ), (d : ℤ)) ∧ 1 ≤ m ∧ m ≤ 12 ∧ 1 ≤ d ∧ d ≤ monthLen b m ∧ before b m + d = N

theorem names_ite {b : Bool} {N : ℕ} {c : Prop} [Decidable c] {x y : Option (ℤ × ℤ)} (hx : c → Names b N x) (hy : ¬c → Names b N y) : Names b N (if c then x else y) := by
  split_ifs with h
  · exact hx h
  · exact hy h

theorem names_some {b : Bool} {N m : ℕ} {k : ℤ} (h1 : 1 ≤ m) (h2 : m ≤ 12) (hk : k = before b m) (h3 : k < N) (h4 : (N : ℤ) ≤ k + monthLen b m) :
    Names b N (some ((m : ℤ), (N : ℤ) - k)) := by
  subst hk
  exact ⟨m, N - before b m, by rw [Nat.cast_sub (by omega)], h1, h2, by omega, by omega, by omega⟩

theorem daysToMonthDay_spec (b : Bool) (N : ℕ) (h1 : 1 ≤ N) (h2 : N ≤ yearLen b) : Names b N (daysToMonthDay N b) := by
  obtain ⟨v1, v2, v3, v4, v5, v6, v7, v8, v9, v10, v11, v12, v13⟩ := before_vals b
  have s : ∀ m, 1 ≤ m → m ≤ 12 → acc b m = acc b (m - 1) + monthLen b m := by
    intro m hm hm'
    rw [acc_eq b m hm', acc_eq b (m - 1) (by omega), before_succ b hm, Nat.sub_add_cancel hm]; push_cast; rfl
  have a0 : acc b 0 = 0 := rfl
  have z := acc_eq b 12 (by norm_num)
  simp only [Nat.reduceAdd, v13] at z
  have a : ∀ k, k ≤ 11 → acc b k = before b (k + 1) := fun k hk => acc_eq b k (by omega)
  have top : (N : ℤ) ≤ acc b 12 := by rw [z]; rw [yearLen] at h2; exact_mod_cast h2
  have s1 := s 1 (by norm_num) (by norm_num); have s2 := s 2 (by norm_num) (by norm_num); have s3 := s 3 (by norm_num) (by norm_num)
  have s4 := s 4 (by norm_num) (by norm_num); have s5 := s 5 (by norm_num) (by norm_num); have s6 := s 6 (by norm_num) (by norm_num)
  have s7 := s 7 (by norm_num) (by norm_num); have s8 := s 8 (by norm_num) (by norm_num); have s9 := s 9 (by norm_num) (by norm_num)
  have s10 := s 10 (by norm_num) (by norm_num); have s11 := s 11 (by norm_num) (by norm_num); have s12 := s 12 (by norm_num) (by norm_num)
  simp only [Nat.reduceSub] at s1 s2 s3 s4 s5 s6 s7 s8 s9 s10 s11 s12
  have b0 := a 0 (by norm_num)
  clear v1 v2 v3 v4 v5 v6 v7 v8 v9 v10 v11 v12 v13 s z h2
  unfold daysToMonthDay
  refine names_ite (fun h => ?_) fun n1 => ?_
  · have := names_some (b := b) (N := N) (m := 1) (k := 0) (by norm_num) (by norm_num) (by rw [← a0]; exact b0) (by omega) (by omega)
    rwa [sub_zero] at this
  refine names_ite (fun h => names_some (m := 2) (by norm_num) (by norm_num) (a 1 (by norm_num)) h.1 (by rw [← s2]; exact h.2)) fun n2 => ?_
  refine names_ite (fun h => names_some (m := 3) (by norm_num) (by norm_num) (a 2 (by norm_num)) h.1 (by rw [← s3]; exact h.2)) fun n3 => ?_
  refine names_ite (fun h => names_some (m := 4) (by norm_num) (by norm_num) (a 3 (by norm_num)) h.1 (by rw [← s4]; exact h.2)) fun n4 => ?_
  refine names_ite (fun h => names_some (m := 5) (by norm_num) (by norm_num) (a 4 (by norm_num)) h.1 (by rw [← s5]; exact h.2)) fun n5 => ?_
  refine names_ite (fun h => names_some (m := 6) (by norm_num) (by norm_num) (a 5 (by norm_num)) h.1 (by rw [← s6]; exact h.2)) fun n6 => ?_
  refine names_ite (fun h => names_some (m := 7) (by norm_num) (by norm_num) (a 6 (by norm_num)) h.1 (by rw [← s7]; exact h.2)) fun n7 => ?_
  refine names_ite (fun h => names_some (m := 8) (by norm_num) (by norm_num) (a 7 (by norm_num)) h.1 (by rw [← s8]; exact h.2)) fun n8 => ?_
  refine names_ite (fun h => names_some (m := 9) (by norm_num) (by norm_num) (a 8 (by norm_num)) h.1 (by rw [← s9]; exact h.2)) fun n9 => ?_
  refine names_ite (fun h => names_some (m := 10) (by norm_num) (by norm_num) (a 9 (by norm_num)) h.1 (by rw [← s10]; exact h.2)) fun n10 => ?_
  refine names_ite (fun h => names_some (m := 11) (by norm_num) (by norm_num) (a 10 (by norm_num)) h.1 (by rw [← s11]; exact h.2)) fun n11 => ?_
  refine names_ite (fun h => names_some (m := 12) (by norm_num) (by norm_num) (a 11 (by norm_num)) h.1 (by rw [← s12]; exact h.2)) fun n12 => ?_
  omega

theorem before_mono (b : Bool) {m n : ℕ} (h : m ≤ n) : before b m ≤ before b n := by
  rw [before, before]
  exact Finset.sum_le_sum_of_subset (Finset.Ico_subset_Ico_right h)

/-- Two days of a year with the same number are the same. -/
theorem day_unique {b : Bool} {m d m' d' : ℕ} (h1 : 1 ≤ m) (h2 : 1 ≤ d) (h3 : d ≤ monthLen b m) (h1' : 1 ≤ m') (h2' : 1 ≤ d') (h3' : d' ≤ monthLen b m')
    (h : before b m + d = before b m' + d') : m = m' ∧ d = d' := by
  rcases lt_trichotomy m m' with hl | rfl | hl
  · have := before_mono b (Nat.succ_le_of_lt hl); rw [Nat.succ_eq_add_one, before_succ b h1] at this; omega
  · exact ⟨rfl, by omega⟩
  · have := before_mono b (Nat.succ_le_of_lt hl); rw [Nat.succ_eq_add_one, before_succ b h1'] at this; omega

theorem before_top (b : Bool) {m d : ℕ} (h1 : 1 ≤ m) (h2 : m ≤ 12) (h3 : d ≤ monthLen b m) : before b m + d ≤ yearLen b := by
  have h := before_mono b (show m + 1 ≤ 13 by omega)
  rw [before_succ b h1, (before_vals b).2.2.2.2.2.2.2.2.2.2.2.2] at h
  rw [yearLen]; omega

theorem toInt32_floor {x : ℝ} (h0 : 0 ≤ x) (h1 : x < 2 ^ 31) : toInt32 x = .ok ⌊x⌋ := by
  have ht : truncZ x = ⌊x⌋ := if_pos h0
  have hf : (0 : ℤ) ≤ ⌊x⌋ := Int.floor_nonneg.mpr h0
  have hg : ⌊x⌋ < 2 ^ 31 := Int.floor_lt.mpr (by norm_num at h1 ⊢; exact h1)
  rw [toInt32, ht]
  exact if_pos ⟨by omega, by omega⟩

theorem decyearToDate_spec {x : ℝ} (h0 : 0 ≤ x) (h1 : x < 2 ^ 31) : ∃ d, decyearToDate x = .ok d ∧ Stands x d := by
  have hy0 : (0 : ℤ) ≤ ⌊x⌋ := Int.floor_nonneg.mpr h0
  have habs : (⌊x⌋ : ℤ).natAbs = (⌊x⌋).toNat := by omega
  set b := isLeap (⌊x⌋).toNat with hb
  set t := (x - ⌊x⌋) * (yearLen b : ℝ) with ht
  have hlen : (0 : ℝ) < yearLen b ∧ (yearLen b : ℝ) ≤ 366 := by rw [yearLen]; split_ifs <;> norm_num
  have hfr := Int.floor_le x
  have hfr' := Int.lt_floor_add_one x
  have ht0 : 0 ≤ t := mul_nonneg (by linarith) hlen.1.le
  have ht1 : t < yearLen b := by rw [ht]; nlinarith
  have p31 : (2 : ℝ) ^ 31 = 2147483648 := by norm_num
  have c1 := toInt32_floor h0 h1
  have c2 := toInt32_floor ht0 (by rw [p31]; linarith)
  have g0 : 0 ≤ Int.fract t := Int.fract_nonneg t
  have g1 : Int.fract t < 1 := Int.fract_lt_one t
  have e2 : t - ⌊t⌋ = Int.fract t := rfl
  set hd := Int.fract t * 24 with hhd
  have hd0 : 0 ≤ hd := by rw [hhd]; linarith
  have hd1 : hd < 24 := by rw [hhd]; linarith
  have c3 := toInt32_floor hd0 (by rw [p31]; linarith)
  have k0 : 0 ≤ Int.fract hd := Int.fract_nonneg hd
  have k1 : Int.fract hd < 1 := Int.fract_lt_one hd
  have e3 : hd - ⌊hd⌋ = Int.fract hd := rfl
  set md := Int.fract hd * 60 with hmd
  have md0 : 0 ≤ md := by rw [hmd]; linarith
  have md1 : md < 60 := by rw [hmd]; linarith
  have c4 := toInt32_floor md0 (by rw [p31]; linarith)
  have l0 : 0 ≤ Int.fract md := Int.fract_nonneg md
  have l1 : Int.fract md < 1 := Int.fract_lt_one md
  have e4 : md - ⌊md⌋ = Int.fract md := rfl
  set sd := Int.fract md * 60 with hsd
  have sd0 : 0 ≤ sd := by rw [hsd]; linarith
  have sd1 : sd < 60 := by rw [hsd]; linarith
  have c5 := toInt32_floor sd0 (by rw [p31]; linarith)
  have hN : ⌊t⌋ = (⌊t⌋₊ : ℤ) := (Int.natCast_floor_eq_floor ht0).symm
  have hNlt : ⌊t⌋₊ < yearLen b := (Nat.floor_lt ht0).mpr ht1
  have hyl : 1 ≤ yearLen b := by rw [yearLen]; split_ifs <;> norm_num
  obtain ⟨m, d, hmd1, hm1, hm12, hd1', hd2', hsum⟩ := daysToMonthDay_spec b (max 1 ⌊t⌋₊) (le_max_left _ _) (max_le hyl hNlt.le)
  have hdays : (if (⌊t⌋ : ℤ) = 0 then (1 : ℤ) else ⌊t⌋) = ((max 1 ⌊t⌋₊ : ℕ) : ℤ) := by
    rw [hN]; split_ifs with hz
    · have : ⌊t⌋₊ = 0 := by exact_mod_cast hz
      rw [this]; rfl
    · have : ⌊t⌋₊ ≠ 0 := fun h => hz (by exact_mod_cast h)
      rw [max_eq_right (by omega)]
  have hdd : (x - (⌊x⌋ : ℝ)) * (daysPerYear ⌊x⌋ : ℝ) = t := by rw [daysPerYear_eq, habs]; rfl
  refine ⟨⟨⌊x⌋, m, d, ⌊hd⌋, ⌊md⌋, ⌊sd⌋⟩, ?_, ⟨⟨hfr, hfr'⟩, ⟨m, d, rfl, rfl, ⟨hm1, hm12, hd1', hd2'⟩, hsum⟩, ?_, ?_⟩⟩
  · unfold decyearToDate
    rw [c1]; simp only [Res.bind, hdd, c2, e2, ← hhd, c3, e3, ← hmd, c4, e4, ← hsd, c5, hdays, leapYear_eq, habs, ← hb, hmd1]
  · exact ⟨Int.floor_nonneg.mpr hd0, Int.floor_lt.mpr (by exact_mod_cast hd1), Int.floor_nonneg.mpr md0, Int.floor_lt.mpr (by exact_mod_cast md1),
      Int.floor_nonneg.mpr sd0, Int.floor_lt.mpr (by exact_mod_cast sd1)⟩
  · show _ = ⌊Int.fract t * 86400⌋
    have : Int.fract t * 86400 = ((⌊hd⌋ * 3600 + ⌊md⌋ * 60 : ℤ) : ℝ) + sd := by
      push_cast
      have a1 : hd = ⌊hd⌋ + Int.fract hd := (Int.floor_add_fract hd).symm
      have a2 : md = ⌊md⌋ + Int.fract md := (Int.floor_add_fract md).symm
      rw [hsd]
      linarith
    rw [this, Int.floor_intCast_add]

theorem stands_unique {x : ℝ} {d d' : Date} (h : Stands x d) (h' : Stands x d') : d = d' := by
  have hy : d.year = d'.year := by
    have a1 := h.year; have a2 := h'.year
    have : d.year < d'.year + 1 := by exact_mod_cast (lt_of_le_of_lt a1.1 a2.2)
    have : d'.year < d.year + 1 := by exact_mod_cast (lt_of_le_of_lt a2.1 a1.2)
    omega
  obtain ⟨m, n, e1, e2, ⟨i1, i2, i3, i4⟩, e3⟩ := h.day
  obtain ⟨m', n', e1', e2', ⟨i1', i2', i3', i4'⟩, e3'⟩ := h'.day
  rw [← hy] at e3' i4'
  obtain ⟨rfl, rfl⟩ := day_unique i1 i3 i4 i1' i3' i4' (e3.trans e3'.symm)
  have t1 := h.time; have t2 := h'.time
  have s1 := h.seconds; have s2 := h'.seconds
  rw [← hy] at s2
  have s3 := s1.trans s2.symm
  rcases d with ⟨y, mo, da, ho, mi, se⟩
  rcases d' with ⟨y', mo', da', ho', mi', se'⟩
  simp only at *
  subst hy e1 e2 e1' e2'
  obtain ⟨rfl, rfl, rfl⟩ : ho = ho' ∧ mi = mi' ∧ se = se' := by omega
  rfl

theorem dateToDecyear_ok {y m d : ℤ} (h1 : 1 ≤ m) (h2 : m ≤ 12) : dateToDecyear y m d = .ok (decimalOf y m d) := by
  unfold dateToDecyear
  rw [if_pos ⟨h1, h2⟩, decimalOf, leapYear_eq, daysPerYear_eq, acc_eq _ _ (by omega), show (m - 1).toNat + 1 = m.toNat by omega, before]
  push_cast; rfl

theorem decimalOf_nat (y m d : ℕ) : decimalOf y m d = decimal y m d := by
  rw [decimalOf, decimal, dayOfYear]; simp

theorem decimal_bounds {y m d : ℕ} (h : IsDay y m d) : (y : ℝ) < decimal y m d ∧ decimal y m d ≤ y + 1 := by
  obtain ⟨h1, h2, h3, h4⟩ := h
  have hl : (0 : ℝ) < yearLen (isLeap y) := by rw [yearLen]; split_ifs <;> norm_num
  have ht : dayOfYear y m d ≤ yearLen (isLeap y) := before_top _ h1 h2 h4
  have hp : 0 < dayOfYear y m d := by rw [dayOfYear]; omega
  rw [decimal]
  constructor
  · have : (0 : ℝ) < dayOfYear y m d := by exact_mod_cast hp
    have := div_pos this hl; linarith
  · have : (dayOfYear y m d : ℝ) ≤ yearLen (isLeap y) := by exact_mod_cast ht
    have := (div_le_one hl).mpr this; linarith

theorem dayOfYear_lt {y m d m' d' : ℕ} (h : IsDay y m d) (h' : IsDay y m' d') (he : m < m' ∨ m = m' ∧ d < d') : dayOfYear y m d < dayOfYear y m' d' := by
  rw [dayOfYear, dayOfYear]
  rcases he with he | ⟨rfl, he⟩
  · have := before_mono (isLeap y) (Nat.succ_le_of_lt he)
    rw [Nat.succ_eq_add_one, before_succ _ h.1, before, before] at this
    have a := h.2.2.2; have b := h'.2.2.1; omega
  · omega

theorem decimal_lt {a b : ℕ × ℕ × ℕ} (ha : IsDay a.1 a.2.1 a.2.2) (hb : IsDay b.1 b.2.1 b.2.2) (h : Earlier a b) :
    decimal a.1 a.2.1 a.2.2 < decimal b.1 b.2.1 b.2.2 := by
  rcases h with h | ⟨h, h'⟩
  · have h1 := (decimal_bounds ha).2
    have h2 := (decimal_bounds hb).1
    have : (a.1 : ℝ) + 1 ≤ b.1 := by exact_mod_cast h
    linarith
  · obtain ⟨y, m, d⟩ := a
    obtain ⟨y', m', d'⟩ := b
    simp only at *
    subst h
    have := dayOfYear_lt ha hb h'
    rw [decimal, decimal]
    have hl : (0 : ℝ) < yearLen (isLeap y) := by rw [yearLen]; split_ifs <;> norm_num
    have h3 : (dayOfYear y m d : ℝ) < dayOfYear y m' d' := by exact_mod_cast this
    have := div_lt_div_of_pos_right h3 hl
    linarith

end S2E.SpaceWeather
