import Verif.Model.TimeSystem
import Verif.Spec.Calendar
import Mathlib.Algebra.Order.BigOperators.Group.Finset
import Mathlib.Data.Rat.Floor
import Mathlib.Tactic.Linarith
import Mathlib.Tactic.Ring
import Mathlib.Tactic.NormNum
import Mathlib.Tactic.IntervalCases
/-!
# C37–C42: epoch time, calendar time, GPS time
-/
namespace S2E.Time
open S2E.Calendar

variable {K : Type} [Field K] [LinearOrder K] [IsStrictOrderedRing K] [FloorRing K]

/-! ## The day count -/

theorem sum_months (leap : Bool) (m : Nat) (h1 : 1 ≤ m) (h2 : m ≤ 12) :
    ∑ k ∈ Finset.Ico 1 m, monthLen leap k + 1 = doyTable.getD (m - 1) 0 + (if leap = true ∧ m ≥ 3 then 1 else 0) := by
  interval_cases m <;> cases leap <;> decide

theorem sum_julian_years (n : Nat) : ∑ k ∈ Finset.Ico 1970 (1970 + n), yearLen (isJulianLeap k) = n * 365 + (n + 1) / 4 := by
  induction n with
  | zero => simp
  | succ n ih =>
    rw [show 1970 + (n + 1) = (1970 + n) + 1 by omega, Finset.sum_Ico_succ_top (by omega), ih]
    unfold yearLen isJulianLeap
    by_cases h : (1970 + n) % 4 = 0
    · simp only [h, BEq.rfl, if_true]; omega
    · simp only [beq_iff_eq, h, if_false]; omega

/-- The code's day count is the number of days elapsed in the calendar where every fourth year is a leap year. -/
theorem epochDays_eq (y m d : Nat) (hy : 1970 ≤ y) (h1 : 1 ≤ m) (h2 : m ≤ 12) (hd : 1 ≤ d) :
    epochDays y m d = daysSince1970 isJulianLeap y m d := by
  obtain ⟨n, rfl⟩ : ∃ n, y = 1970 + n := ⟨y - 1970, by omega⟩
  have hs := sum_months (isJulianLeap (1970 + n)) m h1 h2
  unfold epochDays daysSince1970
  rw [sum_julian_years]
  have hb : isJulianLeap (1970 + n) = true ↔ (1970 + n) % 4 = 0 := by unfold isJulianLeap; exact beq_iff_eq
  have hc : (if isJulianLeap (1970 + n) = true ∧ m ≥ 3 then 1 else 0) = (if (1970 + n) % 4 = 0 ∧ m ≥ 3 then 1 else 0) := by
    simp only [hb]
  rw [hc] at hs
  have e2 : 1970 + n - 1969 = n + 1 := by omega
  rw [Nat.add_sub_cancel_left, e2]
  have hd1 : 1 ≤ doyTable.getD (m - 1) 0 := by interval_cases m <;> decide
  omega

/-! ## C38 agreement with the Gregorian calendar -/

theorem sum_gregorian_years (n : Nat) (h : n ≤ 130) : ∑ k ∈ Finset.Ico 1970 (1970 + n), yearLen (isLeap k) = n * 365 + (n + 1) / 4 := by
  rw [← sum_julian_years]
  apply Finset.sum_congr rfl
  intro k hk
  rw [Finset.mem_Ico] at hk
  have : isLeap k = isJulianLeap k := by
    unfold isLeap isJulianLeap
    by_cases h0 : k % 100 = 0
    · have : k = 2000 := by omega
      subst this; rfl
    · simp [h0]
  rw [this]

theorem julian_eq_gregorian (y m d : Nat) (hy : 1970 ≤ y) (hy2 : y ≤ 2099) : daysSince1970 isJulianLeap y m d = daysSince1970 isLeap y m d := by
  obtain ⟨n, rfl⟩ : ∃ n, y = 1970 + n := ⟨y - 1970, by omega⟩
  unfold daysSince1970
  have : isLeap (1970 + n) = isJulianLeap (1970 + n) := by
    unfold isLeap isJulianLeap
    by_cases h0 : (1970 + n) % 100 = 0
    · have : n = 30 := by omega
      subst this; rfl
    · simp [h0]
  rw [sum_gregorian_years n (by omega), sum_julian_years, this]

theorem isLeap_le (k : Nat) : isLeap k = true → isJulianLeap k = true := by
  unfold isLeap isJulianLeap; simp only [Bool.and_eq_true]; exact fun h => h.1

theorem yearLen_le (k : Nat) : yearLen (isLeap k) ≤ yearLen (isJulianLeap k) := by
  unfold yearLen
  by_cases h : isLeap k = true
  · rw [if_pos h, if_pos (isLeap_le k h)]
  · rw [if_neg h]; split <;> omega

theorem monthLen_le (y m : Nat) : monthLen (isLeap y) m ≤ monthLen (isJulianLeap y) m := by
  by_cases h : isLeap y = true
  · rw [h, isLeap_le y h]
  · have : isLeap y = false := by simpa using h
    rw [this]
    by_cases hm : m = 2
    · subst hm; unfold monthLen; simp only [Bool.false_eq_true, if_false]; split <;> omega
    · apply le_of_eq; unfold monthLen; split <;> first | rfl | exact absurd rfl hm

theorem floor_parts (s : K) (h0 : 0 ≤ s) (h1 : s < 60) :
    ∃ n : Nat, ⌊s⌋ = n ∧ n < 60 ∧ ⌊s⌋.toNat = n ∧ 0 ≤ s - (n : K) ∧ s - (n : K) < 1 := by
  obtain ⟨n, hn⟩ := Int.eq_ofNat_of_zero_le (Int.floor_nonneg.2 h0)
  have hn' : ⌊s⌋ = (n : Int) := hn
  have hl := Int.floor_le s
  have hu := Int.lt_floor_add_one s
  rw [hn', Int.cast_natCast] at hl hu
  refine ⟨n, hn', ?_, by rw [hn']; rfl, by linarith, by linarith⟩
  have : ((n : Int) : K) < ((60 : Int) : K) := by push_cast; linarith
  have := Int.cast_lt.1 this
  omega

/-- What the constructor computes for a date and time of day whose fields are in range. -/
theorem ofDateTime_valid (d : DateTime K) (hy : 1970 ≤ d.year) (hy2 : d.year ≤ 6000000) (hm1 : 1 ≤ d.month) (hm2 : d.month ≤ 12) (hd1 : 1 ≤ d.day)
    (hd2 : d.day ≤ 31) (hh : d.hour < 24) (hmin : d.minute < 60) (hs0 : 0 ≤ d.second) (hs1 : d.second < 60) :
    ∃ n : Nat, ⌊d.second⌋ = n ∧ n < 60 ∧ (d.year ≤ 5881000 → epochDays d.year d.month d.day < 2 ^ 31) ∧
      EpochTime.ofDateTime d =
        .ok (some ⟨daysSince1970 isJulianLeap d.year d.month d.day * 86400 + d.hour * 3600 + d.minute * 60 + n, d.second - n⟩) ∧
      0 ≤ d.second - (n : K) ∧ d.second - (n : K) < 1 := by
  obtain ⟨n, hn, hn60, hnt, hf0, hf1⟩ := floor_parts d.second hs0 hs1
  have hdoy : doyTable.getD (d.month - 1) 0 ≤ 335 := by
    generalize d.month = m at *
    interval_cases m <;> decide
  have hdays : d.year ≤ 5881000 → epochDays d.year d.month d.day < 2 ^ 31 := by intro hb; unfold epochDays; split <;> omega
  have hdays' : epochDays d.year d.month d.day < 2 ^ 32 := by unfold epochDays; split <;> omega
  refine ⟨n, hn, hn60, hdays, ?_, hf0, hf1⟩
  rw [← epochDays_eq _ _ _ hy hm1 hm2 hd1]
  unfold EpochTime.ofDateTime
  rw [if_neg (by rw [hn]; omega)]
  simp only [hnt]
  rw [if_neg (by omega), if_neg (by omega), if_neg (by omega), if_neg (by omega), Nat.mod_eq_of_lt (by omega)]

/-- **C38.** For every Gregorian date from 1970 through 2099 and every time of day, the epoch time is 86400 times the number of days elapsed
since 1970-01-01 plus the seconds of the day. -/
theorem C38_gregorian (d : DateTime K) (hv : ValidDate isLeap d.year d.month d.day) (hy2 : d.year ≤ 2099)
    (hh : d.hour < 24) (hmin : d.minute < 60) (hs0 : 0 ≤ d.second) (hs1 : d.second < 60) :
    ∃ e, EpochTime.ofDateTime d = .ok (some e) ∧
      (e.time : K) + e.fraction = (daysSince1970 isLeap d.year d.month d.day : K) * 86400 + (d.hour : K) * 3600 + (d.minute : K) * 60 + d.second ∧
      0 ≤ e.fraction ∧ e.fraction < 1 := by
  obtain ⟨hy, hm1, hm2, hd1, hd2⟩ := hv
  have h31 : d.day ≤ 31 := hd2.trans (by
    generalize isLeap d.year = b; generalize d.month = m at *; interval_cases m <;> cases b <;> decide)
  obtain ⟨n, _, _, _, h, hf0, hf1⟩ := ofDateTime_valid d hy (by omega) hm1 hm2 hd1 h31 hh hmin hs0 hs1
  refine ⟨_, h, ?_, hf0, hf1⟩
  rw [julian_eq_gregorian _ _ _ hy hy2]
  push_cast
  ring

/-- **C38 (limit).** From 2100-03-01 on the result is wrong for every date: the code counts at least one day too many; and exactly one too
many up to the end of February 2200. -/
theorem C38_wrong_from_2100 (d : DateTime K) (hv : ValidDate isLeap d.year d.month d.day) (hlate : 2101 ≤ d.year ∨ d.year = 2100 ∧ 3 ≤ d.month)
    (hy2 : d.year ≤ 5881000) (hh : d.hour < 24) (hmin : d.minute < 60) (hs0 : 0 ≤ d.second) (hs1 : d.second < 60) :
    ∃ e, EpochTime.ofDateTime d = .ok (some e) ∧
      (e.time : K) + e.fraction ≥ ((daysSince1970 isLeap d.year d.month d.day + 1 : Nat) : K) * 86400 + (d.hour : K) * 3600 + (d.minute : K) * 60 + d.second ∧
      (d.year < 2200 ∨ d.year = 2200 ∧ d.month ≤ 2 →
        (e.time : K) + e.fraction = ((daysSince1970 isLeap d.year d.month d.day + 1 : Nat) : K) * 86400 + (d.hour : K) * 3600 + (d.minute : K) * 60 + d.second) := by
  obtain ⟨hy, hm1, hm2, hd1, hd2⟩ := hv
  have h31 : d.day ≤ 31 := hd2.trans (by
    generalize isLeap d.year = b; generalize d.month = m at *; interval_cases m <;> cases b <;> decide)
  obtain ⟨n, _, _, _, h, hf0, hf1⟩ := ofDateTime_valid d hy (by omega) hm1 hm2 hd1 h31 hh hmin hs0 hs1
  have key : daysSince1970 isLeap d.year d.month d.day + 1 ≤ daysSince1970 isJulianLeap d.year d.month d.day ∧
      (d.year < 2200 ∨ d.year = 2200 ∧ d.month ≤ 2 →
        daysSince1970 isJulianLeap d.year d.month d.day = daysSince1970 isLeap d.year d.month d.day + 1) := by
    generalize d.year = y at *
    generalize d.month = m at *
    generalize d.day = dd at *
    have hmonths : ∑ k ∈ Finset.Ico 1 m, monthLen (isLeap y) k ≤ ∑ k ∈ Finset.Ico 1 m, monthLen (isJulianLeap y) k :=
      Finset.sum_le_sum fun k _ => monthLen_le y k
    have same : ∀ k, k % 100 ≠ 0 → isLeap k = isJulianLeap k := by
      intro k hk; unfold isLeap isJulianLeap; simp [hk]
    rcases Nat.lt_or_ge 2100 y with hgt | hle
    · -- a whole 2100 has passed
      have hsplit : ∀ f : Nat → Nat, ∑ k ∈ Finset.Ico 1970 y, f k = ∑ k ∈ Finset.Ico 1970 2100, f k + (f 2100 + ∑ k ∈ Finset.Ico 2101 y, f k) := by
        intro f
        rw [← Finset.sum_Ico_consecutive f (show 1970 ≤ 2100 by omega) (show 2100 ≤ y by omega), Finset.sum_eq_sum_Ico_succ_bot (a := 2100) (by omega)]
      have e1 := sum_gregorian_years 130 (by omega)
      have e2 := sum_julian_years 130
      have hrest : ∑ k ∈ Finset.Ico 2101 y, yearLen (isLeap k) ≤ ∑ k ∈ Finset.Ico 2101 y, yearLen (isJulianLeap k) :=
        Finset.sum_le_sum fun k _ => yearLen_le k
      have f1 : yearLen (isLeap 2100) = 365 := rfl
      have f2 : yearLen (isJulianLeap 2100) = 366 := rfl
      unfold daysSince1970
      rw [hsplit fun k => yearLen (isLeap k), hsplit fun k => yearLen (isJulianLeap k)]
      simp only [f1, f2]
      norm_num at e1 e2
      rw [e1, e2]
      refine ⟨by omega, fun hlt => ?_⟩
      have hrest' : ∑ k ∈ Finset.Ico 2101 y, yearLen (isLeap k) = ∑ k ∈ Finset.Ico 2101 y, yearLen (isJulianLeap k) := by
        refine Finset.sum_congr rfl fun k hk => ?_
        rw [Finset.mem_Ico] at hk
        rw [same k (by omega)]
      have hmonths' : ∑ k ∈ Finset.Ico 1 m, monthLen (isLeap y) k = ∑ k ∈ Finset.Ico 1 m, monthLen (isJulianLeap y) k := by
        rcases hlt with h2 | ⟨rfl, h2⟩
        · rw [same y (by omega)]
        · interval_cases m <;> decide
      rw [hrest', hmonths']
      omega
    · -- in 2100 itself, from March on
      have hy0 : y = 2100 ∧ 3 ≤ m := by omega
      obtain ⟨rfl, hm3⟩ := hy0
      have e1 := sum_gregorian_years 130 (by omega)
      have e2 := sum_julian_years 130
      norm_num at e1 e2
      have hmm : ∑ k ∈ Finset.Ico 1 m, monthLen (isLeap 2100) k + 1 = ∑ k ∈ Finset.Ico 1 m, monthLen (isJulianLeap 2100) k := by
        interval_cases m <;> decide
      unfold daysSince1970
      rw [e1, e2]
      exact ⟨by omega, fun _ => by omega⟩
  refine ⟨_, h, ?_, fun hlt => ?_⟩
  · have : ((daysSince1970 isLeap d.year d.month d.day + 1 : Nat) : K) ≤ (daysSince1970 isJulianLeap d.year d.month d.day : K) := by exact_mod_cast key.1
    push_cast at this ⊢
    linarith
  · simp only [key.2 hlt]
    push_cast
    ring

-- Non-vacuity and agreement with well-known values: 2000-02-29 is day 11016, 2099-12-31 is day 47481.
example : daysSince1970 isLeap 2000 2 29 = 11016 ∧ daysSince1970 isLeap 2099 12 31 = 47481 := by decide +kernel
example : EpochTime.ofDateTime (⟨2000, 2, 29, 12, 30, 59 + 1 / 2⟩ : DateTime ℚ) = .ok (some ⟨951827459, 1 / 2⟩) := by decide +kernel
example : EpochTime.ofDateTime (⟨2100, 3, 1, 0, 0, 0⟩ : DateTime ℚ) = .ok (some ⟨4107542400 + 86400, 0⟩) := by decide +kernel
example : ValidDate isLeap 2000 2 29 ∧ ¬ ValidDate isLeap 2100 2 29 ∧ ValidDate isJulianLeap 2100 2 29 := by unfold ValidDate; decide

/-! ## C37 epoch to calendar and back -/

/-- Exhaustive check over the whole four-year cycle: the month loop finds the month and day of every one of the 1461 days. -/
theorem monthLoop_cycle : ∀ r : Fin 1461, ∃ mon : Fin 48, ∃ day : Fin 31,
    monthLoop mdayTable 0 ((r.val : Nat) : Int) = ((mon.val : Int), (day.val : Int)) ∧
    day.val < monthLen (decide (mon.val / 12 = 2)) (mon.val % 12 + 1) ∧
    (mon.val / 12) * 365 + (mon.val / 12 + 1) / 4 + doyTable.getD (mon.val % 12) 0 + (day.val + 1) - 2 +
      (if mon.val / 12 = 2 ∧ mon.val % 12 + 1 ≥ 3 then 1 else 0) = r.val := by
  have h : ∀ r : Fin 1461, (let md := monthLoop mdayTable 0 ((r.val : Nat) : Int)
      decide (0 ≤ md.1 ∧ md.1 < 48 ∧ 0 ≤ md.2 ∧ md.2 < 31 ∧ md.2.toNat < monthLen (decide (md.1.toNat / 12 = 2)) (md.1.toNat % 12 + 1) ∧
        (md.1.toNat / 12) * 365 + (md.1.toNat / 12 + 1) / 4 + doyTable.getD (md.1.toNat % 12) 0 + (md.2.toNat + 1) - 2 +
      (if md.1.toNat / 12 = 2 ∧ md.1.toNat % 12 + 1 ≥ 3 then 1 else 0) = r.val)) = true := by decide +kernel
  intro r
  have hr := of_decide_eq_true (h r)
  generalize monthLoop mdayTable 0 ((r.val : Nat) : Int) = md at hr ⊢
  obtain ⟨a, b⟩ := md
  obtain ⟨h1, h2, h3, h4, h5, h6⟩ := hr
  simp only at h1 h2 h3 h4 h5 h6
  exact ⟨⟨a.toNat, by omega⟩, ⟨b.toNat, by omega⟩, by simp only [Prod.mk.injEq]; omega, h5, h6⟩

/-- Exhaustive check in the other direction: every month and day of the cycle is found from its day number. -/
theorem monthLoop_inverse : ∀ (y : Fin 4) (m : Fin 12) (d : Fin 31), d.val < monthLen (decide (y.val = 2)) (m.val + 1) →
    (y.val * 365 + (y.val + 1) / 4 + doyTable.getD m.val 0 + (d.val + 1) - 2 + (if y.val = 2 ∧ m.val + 1 ≥ 3 then 1 else 0) < 1461) ∧
    monthLoop mdayTable 0 ((y.val * 365 + (y.val + 1) / 4 + doyTable.getD m.val 0 + (d.val + 1) - 2 +
      (if y.val = 2 ∧ m.val + 1 ≥ 3 then 1 else 0) : Nat) : Int) = (((12 * y.val + m.val : Nat) : Int), (d.val : Int)) := by
  decide +kernel

theorem toU64_nat (z : Int) (n : Nat) (h : z = n) (hn : n < 2 ^ 64) : toU64 z = n := by
  unfold toU64; subst h; omega

theorem toI32_nat (n : Nat) (hn : n < 2 ^ 31) : toI32 (n : Int) = n := by
  unfold toI32; rw [Int.bmod_def]; omega

set_option maxRecDepth 20000 in
theorem cycle_arith (Y q y v day w r : Nat) (hY : Y = 1970 + q * 4 + y) (hy : y < 4) (hv : 1 ≤ v)
    (h : y * 365 + (y + 1) / 4 + v + (day + 1) - 2 + w = r) :
    (Y - 1970) * 365 + (Y - 1969) / 4 + v + (day + 1) - 2 + w = 1461 * q + r := by
  have e2 : Y - 1969 = q * 4 + y + 1 := by omega
  have e1 : Y - 1970 = q * 4 + y := Nat.sub_eq_of_eq_add (by rw [hY]; ring)
  rw [e1, e2]
  clear hY e1 e2
  have : (q * 4 + y + 1) / 4 = q + (y + 1) / 4 := by omega
  rw [this]
  generalize (y + 1) / 4 = z at *
  omega

/-- The calendar fields of an epoch time whose day number fits an `int`. -/
theorem ofEpoch_eq (q r s : Nat) (f : K) (mon day : Nat) (hr : r < 1461) (hs : s < 86400) (hD : 1461 * q + r < 2 ^ 31)
    (hm : monthLoop mdayTable 0 (r : Int) = ((mon : Int), (day : Int))) (hmon : mon < 48) (hday : day < 31) :
    DateTime.ofEpoch (⟨(1461 * q + r) * 86400 + s, f⟩ : EpochTime K) =
      ⟨1970 + q * 4 + mon / 12, mon % 12 + 1, day + 1, s / 3600, s % 3600 / 60, ((s % 60 : Nat) : K) + f⟩ := by
  have hdiv : ((1461 * q + r) * 86400 + s) / 86400 = 1461 * q + r := by omega
  have hdays : toI32 ((((1461 * q + r) * 86400 + s) / 86400 : Nat) : Int) = ((1461 * q + r : Nat) : Int) := by rw [hdiv]; exact toI32_nat _ hD
  have hsec : toI32 (toU64 ((((1461 * q + r) * 86400 + s : Nat) : Int) - ((1461 * q + r : Nat) : Int) * 86400) : Int) = (s : Int) := by
    rw [toU64_nat _ s (by push_cast; ring) (by omega)]; exact toI32_nat _ (by omega)
  unfold DateTime.ofEpoch
  simp only [hdays, hsec]
  have hmod : ((1461 * q + r : Nat) : Int).tmod 1461 = (r : Int) := by
    rw [Int.tmod_eq_emod_of_nonneg (by omega)]; omega
  have hdv : ((1461 * q + r : Nat) : Int).tdiv 1461 = (q : Int) := by
    rw [Int.tdiv_eq_ediv_of_nonneg (by omega)]; omega
  rw [hmod, hdv, hm]
  have h12 : (mon : Int).tdiv 12 = ((mon / 12 : Nat) : Int) := by rw [Int.tdiv_eq_ediv_of_nonneg (by omega)]; omega
  have h12' : (mon : Int).tmod 12 = ((mon % 12 : Nat) : Int) := by rw [Int.tmod_eq_emod_of_nonneg (by omega)]; omega
  have hs1 : (s : Int).tdiv 3600 = ((s / 3600 : Nat) : Int) := by rw [Int.tdiv_eq_ediv_of_nonneg (by omega)]; omega
  have hs2 : ((s : Int).tmod 3600).tdiv 60 = ((s % 3600 / 60 : Nat) : Int) := by
    rw [Int.tmod_eq_emod_of_nonneg (by omega), Int.tdiv_eq_ediv_of_nonneg (by omega)]; omega
  have hs3 : (s : Int).tmod 60 = ((s % 60 : Nat) : Int) := by rw [Int.tmod_eq_emod_of_nonneg (by omega)]; omega
  simp only [h12, h12', hs1, hs2, hs3]
  rw [toU64_nat (1970 + (q : Int) * 4 + ((mon / 12 : Nat) : Int)) (1970 + q * 4 + mon / 12) (by push_cast; ring) (by omega),
    toU64_nat (((mon % 12 : Nat) : Int) + 1) (mon % 12 + 1) (by push_cast; ring) (by omega),
    toU64_nat ((day : Int) + 1) (day + 1) (by push_cast; ring) (by omega),
    toU64_nat _ (s / 3600) rfl (by omega), toU64_nat _ (s % 3600 / 60) rfl (by omega)]
  simp only [Int.cast_natCast]

/-- **C37.** Every epoch time whose day number fits an `int` converts to a date that exists (under the every-fourth-year rule) with a valid
time of day, and converting that back gives the same epoch time. -/
theorem C37_epoch_roundtrip (e : EpochTime K) (ht : e.time < 2 ^ 31 * 86400) (hf0 : 0 ≤ e.fraction) (hf1 : e.fraction < 1) :
    EpochTime.ofDateTime (DateTime.ofEpoch e) = .ok (some e) ∧
    (let d := DateTime.ofEpoch e
     ValidDate isJulianLeap d.year d.month d.day ∧ d.hour < 24 ∧ d.minute < 60 ∧ 0 ≤ d.second ∧ d.second < 60 ∧
     (e.time : K) + e.fraction = (daysSince1970 isJulianLeap d.year d.month d.day : K) * 86400 + (d.hour : K) * 3600 + (d.minute : K) * 60 + d.second) := by
  obtain ⟨t, f⟩ := e
  simp only at ht hf0 hf1
  obtain ⟨q, r, s, hr, hs, rfl⟩ : ∃ q r s : Nat, r < 1461 ∧ s < 86400 ∧ t = (1461 * q + r) * 86400 + s :=
    ⟨t / 86400 / 1461, t / 86400 % 1461, t % 86400, by omega, by omega, by omega⟩
  obtain ⟨⟨mon, hmon⟩, ⟨day, hday⟩, hm, hml, heq⟩ := monthLoop_cycle ⟨r, hr⟩
  simp only at hm hml heq
  rw [ofEpoch_eq q r s f mon day hr hs (by omega) hm hmon hday]
  have hleap : isJulianLeap (1970 + q * 4 + mon / 12) = decide (mon / 12 = 2) := by
    unfold isJulianLeap
    rw [Bool.eq_iff_iff, beq_iff_eq, decide_eq_true_iff]
    omega
  have hvalid : ValidDate isJulianLeap (1970 + q * 4 + mon / 12) (mon % 12 + 1) (day + 1) := by
    unfold ValidDate; rw [hleap]; omega
  have hdays : daysSince1970 isJulianLeap (1970 + q * 4 + mon / 12) (mon % 12 + 1) (day + 1) = 1461 * q + r := by
    rw [← epochDays_eq _ _ _ (by omega) (by omega) (by omega) (by omega)]
    unfold epochDays
    have hd1 : 1 ≤ doyTable.getD (mon % 12) 0 := by
      have : mon % 12 < 12 := Nat.mod_lt _ (by omega)
      generalize mon % 12 = m at *
      interval_cases m <;> decide
    obtain ⟨Y, hY⟩ : ∃ Y, Y = 1970 + q * 4 + mon / 12 := ⟨_, rfl⟩
    rw [← hY]
    have hc : (if Y % 4 = 0 ∧ mon % 12 + 1 ≥ 3 then 1 else 0) = (if mon / 12 = 2 ∧ mon % 12 + 1 ≥ 3 then 1 else 0) := by
      have : Y % 4 = 0 ↔ mon / 12 = 2 := by omega
      simp only [this]
    simp only [hc, Nat.add_sub_cancel]
    generalize (if mon / 12 = 2 ∧ mon % 12 + 1 ≥ 3 then 1 else 0) = w at *
    generalize doyTable.getD (mon % 12) 0 = v at *
    exact cycle_arith Y q (mon / 12) v day w r hY (by omega) hd1 heq
  have hs60 : ((s % 60 : Nat) : K) ≤ 59 := by
    have : s % 60 ≤ 59 := by omega
    exact_mod_cast this
  have hs0 : (0 : K) ≤ ((s % 60 : Nat) : K) := Nat.cast_nonneg _
  obtain ⟨n, hn, hn60, _, h, _, _⟩ := ofDateTime_valid (⟨1970 + q * 4 + mon / 12, mon % 12 + 1, day + 1, s / 3600, s % 3600 / 60, ((s % 60 : Nat) : K) + f⟩ : DateTime K)
    hvalid.1 (by clear hdays hvalid heq hml; simp only; omega) hvalid.2.1 hvalid.2.2.1 (by simp) (by clear hdays hvalid heq hml; simp only; omega) (by clear hdays hvalid heq hml; simp only; omega) (by clear hdays hvalid heq hml; simp only; omega)
    (by simp only; linarith) (by simp only; linarith)
  simp only at h hn
  have hns : n = s % 60 := by
    have : ⌊((s % 60 : Nat) : K) + f⌋ = ((s % 60 : Nat) : Int) := by
      rw [Int.floor_eq_iff]
      exact ⟨by rw [Int.cast_natCast]; linarith, by rw [Int.cast_natCast]; linarith⟩
    rw [this] at hn; exact (Int.ofNat.inj hn).symm
  subst hns
  have hsplit : (1461 * q + r) * 86400 + s / 3600 * 3600 + s % 3600 / 60 * 60 + s % 60 = (1461 * q + r) * 86400 + s := by omega
  refine ⟨?_, hvalid, ?_, ?_, by simp only; linarith, by simp only; linarith, ?_⟩
  · rw [h, hdays, hsplit, add_sub_cancel_left]
  · show s / 3600 < 24
    omega
  · show s % 3600 / 60 < 60
    omega
  · simp only
    rw [hdays]
    have : s = s / 3600 * 3600 + s % 3600 / 60 * 60 + s % 60 := by omega
    have hcast : (s : K) = ((s / 3600 : Nat) : K) * 3600 + ((s % 3600 / 60 : Nat) : K) * 60 + ((s % 60 : Nat) : K) := by
      exact_mod_cast congrArg (Nat.cast : Nat → K) this
    push_cast at hcast ⊢
    linarith

/-- **C37.** Every date that exists (under the every-fourth-year rule) from 1970 through the year 5 881 000 with a valid time of day converts
to an epoch time that converts back to the same date and time. -/
theorem C37_calendar_roundtrip (d : DateTime K) (hv : ValidDate isJulianLeap d.year d.month d.day) (hy2 : d.year ≤ 5881000)
    (hh : d.hour < 24) (hmin : d.minute < 60) (hs0 : 0 ≤ d.second) (hs1 : d.second < 60) :
    ∃ e, EpochTime.ofDateTime d = .ok (some e) ∧ DateTime.ofEpoch e = d := by
  obtain ⟨hy, hm1, hm2, hd1, hd2⟩ := hv
  have h31 : d.day ≤ 31 := hd2.trans (by
    generalize isJulianLeap d.year = b; generalize d.month = m at *; interval_cases m <;> cases b <;> decide)
  obtain ⟨n, _, hn60, hlt, h, _, _⟩ := ofDateTime_valid d hy (by omega) hm1 hm2 hd1 h31 hh hmin hs0 hs1
  replace hlt := hlt hy2
  refine ⟨_, h, ?_⟩
  obtain ⟨year, month, day, hour, minute, second⟩ := d
  simp only at *
  obtain ⟨q, y, hyq, hy4⟩ : ∃ q y : Nat, year = 1970 + q * 4 + y ∧ y < 4 := ⟨(year - 1970) / 4, (year - 1970) % 4, by omega, by omega⟩
  have hleap : isJulianLeap year = decide (y = 2) := by
    unfold isJulianLeap
    rw [Bool.eq_iff_iff, beq_iff_eq, decide_eq_true_iff]
    omega
  rw [hleap] at hd2
  obtain ⟨hr, hl⟩ := monthLoop_inverse ⟨y, hy4⟩ ⟨month - 1, by omega⟩ ⟨day - 1, by omega⟩
    (by simp only; rw [show month - 1 + 1 = month by omega]; omega)
  simp only at hr hl
  rw [← epochDays_eq _ _ _ hy hm1 hm2 hd1]
  obtain ⟨r, hrdef⟩ : ∃ r, r = y * 365 + (y + 1) / 4 + doyTable.getD (month - 1) 0 + (day - 1 + 1) - 2 + (if y = 2 ∧ month - 1 + 1 ≥ 3 then 1 else 0) := ⟨_, rfl⟩
  rw [← hrdef] at hr hl
  have hE : epochDays year month day = 1461 * q + r := by
    have hd1' : 1 ≤ doyTable.getD (month - 1) 0 := by
      have : month - 1 < 12 := by omega
      generalize month - 1 = m at *
      interval_cases m <;> decide
    unfold epochDays
    have hc : (if year % 4 = 0 ∧ month ≥ 3 then 1 else 0) = (if y = 2 ∧ month - 1 + 1 ≥ 3 then 1 else 0) := by
      have : year % 4 = 0 ↔ y = 2 := by omega
      have h2 : month - 1 + 1 = month := by omega
      simp only [this, h2]
    rw [hc, hrdef]
    omega
  rw [hE] at hlt ⊢
  rw [show (1461 * q + r) * 86400 + hour * 3600 + minute * 60 + n = (1461 * q + r) * 86400 + (hour * 3600 + minute * 60 + n) by omega,
    ofEpoch_eq q r (hour * 3600 + minute * 60 + n) _ (12 * y + (month - 1)) (day - 1) hr (by omega) hlt hl (by omega) (by omega)]
  have a1 : (hour * 3600 + minute * 60 + n) % 60 = n := by omega
  have a2 : (hour * 3600 + minute * 60 + n) / 3600 = hour := by omega
  have a3 : (hour * 3600 + minute * 60 + n) % 3600 / 60 = minute := by omega
  rw [a1, a2, a3]
  ext <;> simp only
  · omega
  · omega
  · omega
  · ring

-- Non-vacuity: a leap day and the last second of a four-year cycle; and why the day number must fit an `int`.
example : DateTime.ofEpoch (⟨951827459, 1 / 2⟩ : EpochTime ℚ) = ⟨2000, 2, 29, 12, 30, 59 + 1 / 2⟩ := by decide +kernel
example : DateTime.ofEpoch (⟨1461 * 86400 - 1, 0⟩ : EpochTime ℚ) = ⟨1973, 12, 31, 23, 59, 59⟩ := by decide +kernel

/-- **C37 (limit).** At day 2^31 the day number no longer fits the `int` used by the code: the year and day come out near 2^64 and converting
back does not give the time one started from. -/
theorem C37_beyond_int_range :
    DateTime.ofEpoch (⟨2 ^ 31 * 86400, 0⟩ : EpochTime ℚ) = ⟨18446744073703674098, 1, 18446744073709550961, 0, 0, 0⟩ ∧
    EpochTime.ofDateTime (DateTime.ofEpoch (⟨2 ^ 31 * 86400, 0⟩ : EpochTime ℚ)) ≠ .ok (some ⟨2 ^ 31 * 86400, 0⟩) := by
  decide +kernel

/-! ## C39 ordering -/

/-- The instant an epoch time denotes. -/
def EpochTime.instant (e : EpochTime K) : K := (e.time : K) + e.fraction

/-- The documented range of the fraction. -/
def EpochTime.Normal (e : EpochTime K) : Prop := 0 ≤ e.fraction ∧ e.fraction < 1

theorem instant_lt_of_time_lt {a b : EpochTime K} (ha : a.Normal) (hb : b.Normal) (h : a.time < b.time) : a.instant < b.instant := by
  unfold EpochTime.instant
  have : (a.time : K) + 1 ≤ b.time := by exact_mod_cast h
  linarith [ha.2, hb.1]

/-- **C39.** For normalised epoch times all six comparison operators agree with the order of the instants they denote. -/
theorem C39_order (a b : EpochTime K) (ha : a.Normal) (hb : b.Normal) :
    (a.lt b = true ↔ a.instant < b.instant) ∧ (a.gt b = true ↔ a.instant > b.instant) ∧ (a.eq b = true ↔ a.instant = b.instant) ∧
    (a.le b = true ↔ a.instant ≤ b.instant) ∧ (a.ge b = true ↔ a.instant ≥ b.instant) ∧ (a.ne b = true ↔ a.instant ≠ b.instant) := by
  have hlt : a.lt b = true ↔ a.instant < b.instant := by
    unfold EpochTime.lt EpochTime.eq
    rcases lt_trichotomy a.time b.time with h | h | h
    · have := instant_lt_of_time_lt ha hb h
      simp [this, ne_of_lt h, not_lt.2 (le_of_lt h), h]
    · simp only [EpochTime.instant, h, ne_eq, not_true_eq_false, if_false, lt_irrefl, gt_iff_lt, add_lt_add_iff_left]
      rcases lt_trichotomy a.fraction b.fraction with h' | h' | h'
      · simp [h', ne_of_lt h', le_of_lt h']
      · simp [h']
      · simp [h', (ne_of_lt h').symm, not_lt.2 (le_of_lt h')]
    · have := instant_lt_of_time_lt hb ha h
      simp [not_lt.2 (le_of_lt this), (ne_of_lt h).symm, h]
  have hgt : a.gt b = true ↔ a.instant > b.instant := by
    unfold EpochTime.gt EpochTime.eq
    rcases lt_trichotomy a.time b.time with h | h | h
    · have := instant_lt_of_time_lt ha hb h
      simp [not_lt.2 (le_of_lt this), ne_of_lt h, h]
    · simp only [EpochTime.instant, h, ne_eq, not_true_eq_false, if_false, lt_irrefl, gt_iff_lt, add_lt_add_iff_left]
      rcases lt_trichotomy a.fraction b.fraction with h' | h' | h'
      · simp [h', ne_of_lt h', not_lt.2 (le_of_lt h')]
      · simp [h']
      · simp [h', (ne_of_lt h').symm, le_of_lt h']
    · have := instant_lt_of_time_lt hb ha h
      simp [this, (ne_of_lt h).symm, h, not_lt.2 (le_of_lt h)]
  have heq : a.eq b = true ↔ a.instant = b.instant := by
    unfold EpochTime.eq
    rcases lt_trichotomy a.time b.time with h | h | h
    · have := instant_lt_of_time_lt ha hb h
      simp [ne_of_lt h, ne_of_lt this]
    · simp [EpochTime.instant, h]
    · have := instant_lt_of_time_lt hb ha h
      simp [(ne_of_lt h).symm, (ne_of_lt this).symm]
  refine ⟨hlt, hgt, heq, ?_, ?_, ?_⟩
  · unfold EpochTime.le
    rw [Bool.not_eq_true', ← Bool.not_eq_true, hgt]; exact not_lt
  · unfold EpochTime.ge
    rw [Bool.not_eq_true', ← Bool.not_eq_true, hlt]; exact not_lt
  · unfold EpochTime.ne
    rw [Bool.not_eq_true', ← Bool.not_eq_true, heq]

/-- **C39.** Hence exactly one of `<`, `==`, `>` holds, `==` means that both members agree, and the order is transitive and total. -/
theorem C39_total_order (a b c : EpochTime K) (ha : a.Normal) (hb : b.Normal) (hc : c.Normal) :
    (a.lt b = true ∧ a.eq b = false ∧ a.gt b = false ∨ a.lt b = false ∧ a.eq b = true ∧ a.gt b = false ∨
      a.lt b = false ∧ a.eq b = false ∧ a.gt b = true) ∧
    (a.eq b = true ↔ a = b) ∧ (a.lt b = true → b.lt c = true → a.lt c = true) ∧ (a.le b = true → b.le c = true → a.le c = true) ∧
    (a.le b = true ∨ b.le a = true) ∧ (a.gt b = b.lt a) := by
  have hab := C39_order a b ha hb
  have hba := C39_order b a hb ha
  have hbc := C39_order b c hb hc
  have hac := C39_order a c ha hc
  refine ⟨?_, ?_, ?_, ?_, ?_, ?_⟩
  · rw [← Bool.not_eq_true, ← Bool.not_eq_true, ← Bool.not_eq_true, hab.1, hab.2.1, hab.2.2.1]
    rcases lt_trichotomy a.instant b.instant with h | h | h
    · exact Or.inl ⟨h, ne_of_lt h, not_lt.2 (le_of_lt h)⟩
    · exact Or.inr (Or.inl ⟨by rw [h]; exact lt_irrefl _, h, by rw [h]; exact lt_irrefl _⟩)
    · exact Or.inr (Or.inr ⟨not_lt.2 (le_of_lt h), (ne_of_lt h).symm, h⟩)
  · obtain ⟨t, f⟩ := a
    obtain ⟨t', f'⟩ := b
    unfold EpochTime.eq
    by_cases h : t = t' <;> by_cases h' : f = f' <;> simp [h, h']
  · rw [hab.1, hbc.1, hac.1]; exact lt_trans
  · rw [hab.2.2.2.1, hbc.2.2.2.1, hac.2.2.2.1]; exact le_trans
  · rw [hab.2.2.2.1, hba.2.2.2.1]; exact le_total _ _
  · rw [Bool.eq_iff_iff, hab.2.1, hba.1]

example : EpochTime.Normal (⟨5, 1 / 2⟩ : EpochTime ℚ) ∧ EpochTime.Normal (⟨6, 1 / 4⟩ : EpochTime ℚ) ∧
    EpochTime.lt (⟨5, 1 / 2⟩ : EpochTime ℚ) ⟨6, 1 / 4⟩ = true := by
  refine ⟨⟨by norm_num, by norm_num⟩, ⟨by norm_num, by norm_num⟩, by decide +kernel⟩

/-- **C39 (limit).** Without normalised fractions the order is not that of the instants (and 5 + 1.0, which addition can produce, is below
6 + 0.0 although both denote the same instant). -/
theorem C39_needs_normal : EpochTime.lt (⟨5, 1⟩ : EpochTime ℚ) ⟨6, 0⟩ = true ∧ EpochTime.instant (⟨5, 1⟩ : EpochTime ℚ) = EpochTime.instant (⟨6, 0⟩ : EpochTime ℚ) := by
  decide +kernel

/-! ## C40 arithmetic -/

/-- **C40.** Addition of normalised epoch times, without 64-bit overflow, denotes the exact sum; the result is normalised unless the two
fractions sum to exactly 1, in which case its fraction is 1. -/
theorem C40_add (a b : EpochTime K) (ha : a.Normal) (hb : b.Normal) (hov : a.time + b.time + 1 < 2 ^ 63) :
    ∃ c, a.add b = .ok c ∧ c.instant = a.instant + b.instant ∧ (a.fraction + b.fraction ≠ 1 → c.Normal) ∧
      (a.fraction + b.fraction = 1 → c.fraction = 1) := by
  have hm : (a.time + b.time) % 2 ^ 64 = a.time + b.time := Nat.mod_eq_of_lt (by omega)
  unfold EpochTime.add EpochTime.instant EpochTime.Normal
  simp only [hm]
  by_cases h : a.fraction + b.fraction > 1
  · rw [if_pos h, if_neg (by omega)]
    refine ⟨_, rfl, ?_, fun _ => ⟨by simp only; linarith, by simp only; linarith [ha.2, hb.2]⟩, fun h1 => by rw [h1] at h; exact absurd h (lt_irrefl _)⟩
    simp only [Nat.mod_eq_of_lt (show a.time + b.time + 1 < 2 ^ 64 by omega)]
    push_cast; ring
  · rw [if_neg h]
    refine ⟨_, rfl, by push_cast; ring, fun h1 => ⟨by simp only; linarith [ha.1, hb.1], lt_of_le_of_ne (not_lt.1 h) h1⟩, fun h1 => h1⟩

/-- **C40 (limit).** The documented range [0, 1) of the fraction is not preserved by addition: 0.5 + 0.5 gives fraction 1.0. -/
theorem C40_add_not_normalised :
    ∃ a b c : EpochTime ℚ, a.Normal ∧ b.Normal ∧ a.add b = .ok c ∧ ¬ c.Normal := by
  refine ⟨⟨3, 1 / 2⟩, ⟨4, 1 / 2⟩, ⟨7, 1⟩, ⟨by norm_num, by norm_num⟩, ⟨by norm_num, by norm_num⟩, by decide +kernel, ?_⟩
  intro h; exact absurd h.2 (by norm_num)

/-- **C40.** Subtraction `a - b` for `a ≥ b` denotes the exact difference and is normalised. -/
theorem C40_sub (a b : EpochTime K) (ha : a.Normal) (hb : b.Normal) (hge : b.instant ≤ a.instant) (hr : a.time < 2 ^ 63) :
    ∃ c, a.sub b = .ok c ∧ c.instant = a.instant - b.instant ∧ c.Normal := by
  have hle : b.time ≤ a.time := by
    by_contra h
    exact absurd (instant_lt_of_time_lt ha hb (not_le.1 h)) (not_lt.2 hge)
  have hm : (a.time + (2 ^ 64 - b.time)) % 2 ^ 64 = a.time - b.time := by omega
  unfold EpochTime.sub EpochTime.instant EpochTime.Normal
  simp only [hm]
  by_cases h : a.fraction - b.fraction < 0
  · have hlt : b.time < a.time := by
      rcases Nat.lt_or_ge b.time a.time with h' | h'
      · exact h'
      · have he : a.time = b.time := le_antisymm h' hle
        unfold EpochTime.instant at hge
        rw [he] at hge
        linarith
    rw [if_pos h, if_neg (by omega)]
    refine ⟨_, rfl, ?_, by simp only; linarith [ha.1, hb.2], by simp only; linarith⟩
    have : (a.time - b.time + (2 ^ 64 - 1)) % 2 ^ 64 = a.time - b.time - 1 := by omega
    simp only [this]
    rw [Nat.cast_sub (by omega), Nat.cast_sub hle]
    push_cast; ring
  · rw [if_neg h]
    refine ⟨_, rfl, ?_, not_lt.1 h, by simp only; linarith [ha.2, hb.1]⟩
    rw [Nat.cast_sub hle]; ring

/-- **C40.** `(a + b) - b` denotes `a` again, also when the sum has fraction 1 (subtracting then yields a result with fraction below 1). -/
theorem C40_add_sub (a b : EpochTime K) (ha : a.Normal) (hb : b.Normal) (hov : a.time + b.time + 1 < 2 ^ 63) :
    ∃ c d, a.add b = .ok c ∧ c.sub b = .ok d ∧ d.instant = a.instant ∧ (a.fraction + b.fraction ≠ 1 → d = a) := by
  obtain ⟨c, h1, h2, h3, h4⟩ := C40_add a b ha hb hov
  by_cases hf : a.fraction + b.fraction = 1
  · have hc : c = ⟨a.time + b.time, 1⟩ := by
      unfold EpochTime.add at h1
      simp only [hf] at h1
      rw [if_neg (lt_irrefl _), Nat.mod_eq_of_lt (by omega)] at h1
      exact (Res.ok.inj h1).symm
    subst hc
    have hm : (a.time + b.time + (2 ^ 64 - b.time)) % 2 ^ 64 = a.time := by omega
    refine ⟨_, ⟨a.time, 1 - b.fraction⟩, h1, ?_, ?_, fun h => absurd hf h⟩
    · unfold EpochTime.sub
      simp only [hm]
      rw [if_neg (by linarith [hb.2])]
    · unfold EpochTime.instant; simp only; linarith
  · have hcn := h3 hf
    have hge : b.instant ≤ c.instant := by
      rw [h2]; unfold EpochTime.instant
      have : (0 : K) ≤ a.time := Nat.cast_nonneg _
      linarith [ha.1]
    have hct : c.time < 2 ^ 63 := by
      unfold EpochTime.add at h1
      simp only [Nat.mod_eq_of_lt (show a.time + b.time < 2 ^ 64 by omega)] at h1
      split at h1
      · rw [if_neg (by omega)] at h1
        obtain rfl := Res.ok.inj h1
        simp only; omega
      · obtain rfl := Res.ok.inj h1
        simp only; omega
    obtain ⟨d, h5, h6, h7⟩ := C40_sub c b hcn hb hge hct
    have hi : d.instant = a.instant := by rw [h6, h2]; ring
    refine ⟨c, d, h1, h5, hi, fun _ => ?_⟩
    have := (C39_order d a h7 ha).2.2.1.2 hi
    exact ((C39_total_order d a a h7 ha ha).2.1).1 this

example : EpochTime.sub (⟨7, 1 / 4⟩ : EpochTime ℚ) ⟨2, 1 / 2⟩ = .ok ⟨4, 3 / 4⟩ := by decide +kernel

/-- **C40 (limit).** Subtracting a later time wraps to a time near 2^64. -/
theorem C40_sub_wraps : EpochTime.sub (⟨2, 0⟩ : EpochTime ℚ) ⟨3, 0⟩ = .ok ⟨2 ^ 64 - 1, 0⟩ := by decide +kernel

/-! ## C41 invalid dates -/

/-- **C41.** With a field outside its checked range the constructor leaves the value unset; with all checked fields in range it always
converts, whatever the hour is and even if the day does not exist in the month — the day number is then simply counted on from the first
of that month. (Seconds that are negative, where the conversion itself is undefined, are excluded.) -/
theorem C41_invalid (d : DateTime K) (hs : 0 ≤ d.second) (hs' : d.second < 2 ^ 64) :
    (d.year < 1970 ∨ d.month < 1 ∨ 12 < d.month ∨ d.day < 1 ∨ 31 < d.day ∨ 60 ≤ d.minute ∨ 60 ≤ d.second →
      EpochTime.ofDateTime d = .ok none) ∧
    (1970 ≤ d.year → 1 ≤ d.month → d.month ≤ 12 → 1 ≤ d.day → d.day ≤ 31 → d.minute < 60 → d.second < 60 →
      ∃ e, EpochTime.ofDateTime d = .ok (some e) ∧ 0 ≤ e.fraction ∧ e.fraction < 1 ∧
        (d.year ≤ 6000000 → d.hour < 2 ^ 32 → (e.time : K) + e.fraction =
          (daysSince1970 isJulianLeap d.year d.month 1 + (d.day - 1) : Nat) * 86400 + (d.hour : K) * 3600 + (d.minute : K) * 60 + d.second)) := by
  have hfl : ¬ (⌊d.second⌋ < 0 ∨ 2 ^ 64 ≤ ⌊d.second⌋) := by
    have h1 := Int.floor_nonneg.2 hs
    have h2 : ⌊d.second⌋ < 2 ^ 64 := Int.floor_lt.2 (by exact_mod_cast hs')
    omega
  have h60 : 60 ≤ d.second ↔ 60 ≤ ⌊d.second⌋.toNat := by
    have : (60 : Int) ≤ ⌊d.second⌋ ↔ ((60 : Int) : K) ≤ d.second := Int.le_floor
    push_cast at this
    rw [← this]; omega
  constructor
  · intro h
    unfold EpochTime.ofDateTime
    rw [if_neg hfl]
    simp only
    rw [h60] at h
    by_cases h1 : d.year < 1970 ∨ d.month < 1 ∨ 12 < d.month
    · rw [if_pos h1]
    · rw [if_neg h1]
      by_cases h2 : d.day < 1 ∨ 32 ≤ d.day
      · rw [if_pos h2]
      · rw [if_neg h2]
        by_cases h3 : 60 ≤ d.minute
        · rw [if_pos h3]
        · rw [if_neg h3, if_pos (by omega)]
  · intro hy hm1 hm2 hd1 hd2 hmin hsec
    obtain ⟨n, hn, hn60, hnt, hf0, hf1⟩ := floor_parts d.second hs hsec
    have hdoy : doyTable.getD (d.month - 1) 0 ≤ 335 ∧ 1 ≤ doyTable.getD (d.month - 1) 0 := by
      generalize d.month = m at *
      interval_cases m <;> decide
    refine ⟨⟨(epochDays d.year d.month d.day * 86400 + d.hour * 3600 + d.minute * 60 + n) % 2 ^ 64, d.second - n⟩, ?_, hf0, hf1, ?_⟩
    · unfold EpochTime.ofDateTime
      rw [if_neg hfl]
      simp only [hnt]
      rw [if_neg (by omega), if_neg (by omega), if_neg (by omega), if_neg (by omega)]
    · intro hyb hhb
      have hb : epochDays d.year d.month d.day < 2 ^ 32 := by unfold epochDays; split <;> omega
      have hd' : daysSince1970 isJulianLeap d.year d.month 1 + (d.day - 1) = epochDays d.year d.month d.day := by
        rw [epochDays_eq _ _ _ hy hm1 hm2 hd1]; unfold daysSince1970; omega
      rw [hd', Nat.mod_eq_of_lt (by omega)]
      push_cast; ring

/-- **C41.** In particular a day beyond the end of its month is silently taken as a day of the following month: 30 February 2001 is
2 March, and hour 25 is 1 o'clock of the next day. -/
theorem C41_spill (h mi : Nat) (s : K) :
    EpochTime.ofDateTime (⟨2001, 2, 30, h, mi, s⟩ : DateTime K) = EpochTime.ofDateTime ⟨2001, 3, 2, h, mi, s⟩ ∧
    EpochTime.ofDateTime (⟨2001, 2, 28, h + 24, mi, s⟩ : DateTime K) = EpochTime.ofDateTime ⟨2001, 3, 1, h, mi, s⟩ := by
  constructor
  · have e1 : epochDays 2001 2 30 = 11383 := rfl
    have e2 : epochDays 2001 3 2 = 11383 := rfl
    unfold EpochTime.ofDateTime
    simp only [e1, e2, Nat.reduceLT, Nat.reduceLeDiff, or_self, if_false]
  · unfold EpochTime.ofDateTime
    have e1 : epochDays 2001 2 28 = 11381 := rfl
    have e2 : epochDays 2001 3 1 = 11382 := rfl
    simp only [e1, e2]
    have : 11381 * 86400 + (h + 24) * 3600 = 11382 * 86400 + h * 3600 := by omega
    rw [this]
    rfl

example : EpochTime.ofDateTime (⟨2023, 13, 1, 0, 0, 0⟩ : DateTime ℚ) = .ok none ∧ EpochTime.ofDateTime (⟨1969, 12, 31, 0, 0, 0⟩ : DateTime ℚ) = .ok none ∧
    EpochTime.ofDateTime (⟨2023, 1, 1, 0, 0, 60⟩ : DateTime ℚ) = .ok none ∧
    EpochTime.ofDateTime (⟨2023, 1, 1, 99, 0, 0⟩ : DateTime ℚ) = .ok (some ⟨1672531200 + 99 * 3600, 0⟩) := by decide +kernel

/-! ## C42 GPS time -/

/-- The constant used by the model is the epoch time of 1980-01-06 00:00:00. -/
theorem gpsEpoch_eq : EpochTime.ofDateTime (⟨1980, 1, 6, 0, 0, 0⟩ : DateTime K) = .ok (some gpsEpoch) := by
  obtain ⟨n, hn, _, _, h, _, _⟩ := ofDateTime_valid (⟨1980, 1, 6, 0, 0, 0⟩ : DateTime K) (by norm_num) (by norm_num) (by norm_num) (by norm_num)
    (by norm_num) (by norm_num) (by norm_num) (by norm_num) (by norm_num) (by norm_num)
  simp only [Int.floor_zero] at hn
  have : n = 0 := by omega
  subst this
  rw [h, ← epochDays_eq _ _ _ (by norm_num) (by norm_num) (by norm_num) (by norm_num)]
  simp [gpsEpoch, epochDays, doyTable]

theorem gpsEpoch_normal : (gpsEpoch : EpochTime K).Normal := ⟨le_refl _, zero_lt_one⟩

/-- **C42.** For a normalised epoch time at or after the GPS epoch, the time of week is in [0, 604800) and week and time of week add up to
the time since 1980-01-06; the epoch time and calendar date are kept. -/
theorem C42_week (e : EpochTime K) (he : e.Normal) (hge : 315964800 ≤ e.time) (hr : e.time < 2 ^ 63) :
    ∃ g, GpsTime.ofEpoch e = .ok g ∧ 0 ≤ g.tow ∧ g.tow < 604800 ∧ (g.week : K) * 604800 + g.tow = e.instant - 315964800 ∧
      g.epoch = e ∧ g.dateTime = DateTime.ofEpoch e := by
  have hinst : (gpsEpoch : EpochTime K).instant ≤ e.instant := by
    unfold EpochTime.instant gpsEpoch
    have : ((315964800 : Nat) : K) ≤ e.time := by exact_mod_cast hge
    simp only
    linarith [he.1]
  obtain ⟨c, h1, h2, h3⟩ := C40_sub e gpsEpoch he gpsEpoch_normal hinst hr
  unfold GpsTime.ofEpoch calcGpsWeekTime
  simp only [h1, Res.bind_ok]
  have hlt : c.time - c.time / 604800 * 604800 < 604800 := by omega
  have hlt' : ((c.time - c.time / 604800 * 604800 : Nat) : K) ≤ 604799 := by
    have : c.time - c.time / 604800 * 604800 ≤ 604799 := by omega
    exact_mod_cast this
  refine ⟨_, rfl, ?_, ?_, ?_, rfl, rfl⟩
  · have : (0 : K) ≤ ((c.time - c.time / 604800 * 604800 : Nat) : K) := Nat.cast_nonneg _
    simp only; linarith [h3.1]
  · simp only; linarith [h3.2]
  · simp only
    have hle : c.time / 604800 * 604800 ≤ c.time := Nat.div_mul_le_self _ _
    rw [Nat.cast_sub hle]
    unfold EpochTime.instant at h2
    have hg : ((gpsEpoch : EpochTime K).time : K) + (gpsEpoch : EpochTime K).fraction = 315964800 := by simp [gpsEpoch]
    rw [hg] at h2
    unfold EpochTime.instant
    push_cast
    linarith

/-- **C42.** Building a GPS time from week and time of week and from the resulting epoch time gives the same GPS time. -/
theorem C42_roundtrip (e : EpochTime K) (he : e.Normal) (hge : 315964800 ≤ e.time) (hr : e.time < 2 ^ 62) :
    ∃ g, GpsTime.ofEpoch e = .ok g ∧ GpsTime.ofWeek g.week g.tow = .ok g := by
  obtain ⟨g, h1, h2, h3, h4, h5, h6⟩ := C42_week e he hge (by omega)
  refine ⟨g, h1, ?_⟩
  obtain ⟨n, f, hn, hf0, hf1, htow⟩ : ∃ (n : Nat) (f : K), ⌊g.tow⌋ = n ∧ 0 ≤ f ∧ f < 1 ∧ g.tow = n + f := by
    obtain ⟨n, hn⟩ := Int.eq_ofNat_of_zero_le (Int.floor_nonneg.2 h2)
    have hn' : ⌊g.tow⌋ = (n : Int) := hn
    have hl := Int.floor_le g.tow
    have hu := Int.lt_floor_add_one g.tow
    rw [hn', Int.cast_natCast] at hl hu
    exact ⟨n, g.tow - n, hn', by linarith, by linarith, by ring⟩
  have hinst : ((g.week * 604800 + n + 315964800 : Nat) : K) + f = (e.time : K) + e.fraction := by
    unfold EpochTime.instant at h4
    push_cast; linarith
  have hN : EpochTime.Normal (⟨g.week * 604800 + n + 315964800, f⟩ : EpochTime K) := ⟨hf0, hf1⟩
  have heq : (⟨g.week * 604800 + n + 315964800, f⟩ : EpochTime K) = e :=
    ((C39_total_order _ e e hN he he).2.1).1 ((C39_order _ e hN he).2.2.1.2 hinst)
  have hn7 : n < 604800 := by
    have : ((n : Nat) : K) < ((604800 : Nat) : K) := by push_cast; linarith
    exact_mod_cast this
  have htime : g.week * 604800 + n + 315964800 = e.time := congrArg EpochTime.time heq
  have hfrac : f = e.fraction := congrArg EpochTime.fraction heq
  have hcalc : calcEpochTime g.week g.tow = .ok e := by
    unfold calcEpochTime
    rw [if_neg (by
      rintro (h | h)
      · linarith
      · have : (604800 : K) < 2 ^ 64 := by norm_num
        linarith)]
    simp only [hn, Int.toNat_natCast]
    rw [show g.tow - (n : K) = f by rw [htow]; ring, Nat.mod_eq_of_lt (by omega)]
    unfold EpochTime.add gpsEpoch
    simp only [zero_add]
    rw [if_neg (by linarith), Nat.mod_eq_of_lt (by omega), show 315964800 + (g.week * 604800 + n) = e.time by omega, hfrac]
  unfold GpsTime.ofWeek
  rw [hcalc]
  obtain ⟨w, t, dt, ep⟩ := g
  simp only at h5 h6
  simp only [Res.bind_ok, h5, h6]

/-- **C42.** Conversely, from any week and any time of week in [0, 604800), the epoch time is 1980-01-06 plus that, and reading week and time
of week from that epoch time gives them back. -/
theorem C42_from_week (week : Nat) (tow : K) (h0 : 0 ≤ tow) (h1 : tow < 604800) (hw : week < 2 ^ 40) :
    ∃ g, GpsTime.ofWeek week tow = .ok g ∧ g.week = week ∧ g.tow = tow ∧ g.epoch.Normal ∧
      g.epoch.instant = 315964800 + (week : K) * 604800 + tow ∧ GpsTime.ofEpoch g.epoch = .ok g := by
  obtain ⟨n, hn, hf0, hf1, hn7⟩ : ∃ n : Nat, ⌊tow⌋ = n ∧ 0 ≤ tow - n ∧ tow - n < 1 ∧ n < 604800 := by
    obtain ⟨n, hn⟩ := Int.eq_ofNat_of_zero_le (Int.floor_nonneg.2 h0)
    have hn' : ⌊tow⌋ = (n : Int) := hn
    have hl := Int.floor_le tow
    have hu := Int.lt_floor_add_one tow
    rw [hn', Int.cast_natCast] at hl hu
    refine ⟨n, hn', by linarith, by linarith, ?_⟩
    have : ((n : Nat) : K) < ((604800 : Nat) : K) := by push_cast; linarith
    exact_mod_cast this
  have hcalc : calcEpochTime week tow = .ok ⟨315964800 + (week * 604800 + n), tow - n⟩ := by
    unfold calcEpochTime
    rw [if_neg (by
      rintro (h | h)
      · linarith
      · have : (604800 : K) < 2 ^ 64 := by norm_num
        linarith)]
    simp only [hn, Int.toNat_natCast]
    rw [Nat.mod_eq_of_lt (by omega)]
    unfold EpochTime.add gpsEpoch
    simp only [zero_add]
    rw [if_neg (by linarith), Nat.mod_eq_of_lt (by omega)]
  have hsub : EpochTime.sub (⟨315964800 + (week * 604800 + n), tow - n⟩ : EpochTime K) gpsEpoch = .ok ⟨week * 604800 + n, tow - n⟩ := by
    unfold EpochTime.sub gpsEpoch
    simp only [sub_zero]
    rw [if_neg (by linarith), show (315964800 + (week * 604800 + n) + (2 ^ 64 - 315964800)) % 2 ^ 64 = week * 604800 + n by omega]
  refine ⟨⟨week, tow, DateTime.ofEpoch ⟨315964800 + (week * 604800 + n), tow - n⟩, ⟨315964800 + (week * 604800 + n), tow - n⟩⟩, ?_, rfl, rfl, ⟨hf0, hf1⟩, ?_, ?_⟩
  · unfold GpsTime.ofWeek; rw [hcalc]; rfl
  · unfold EpochTime.instant; push_cast; ring
  · unfold GpsTime.ofEpoch calcGpsWeekTime
    simp only [hsub, Res.bind_ok]
    rw [show (week * 604800 + n) / 604800 = week by omega, show week * 604800 + n - week * 604800 = n by omega, add_sub_cancel]

/-- **C42.** UTC is 18 s behind GPS time: the UTC date is the calendar date of the epoch time 18 s earlier. -/
theorem C42_utc (e : EpochTime K) (he : e.Normal) (hge : 315964800 ≤ e.time) (hr : e.time < 2 ^ 63) :
    ∃ g u, GpsTime.ofEpoch e = .ok g ∧ g.dateTimeAsUtc = .ok (DateTime.ofEpoch u) ∧ u.Normal ∧ u.instant = e.instant - 18 := by
  obtain ⟨g, h1, _, _, _, h5, _⟩ := C42_week e he hge hr
  obtain ⟨u, h2, h3, h4⟩ := C40_sub e ⟨18, 0⟩ he ⟨le_refl _, zero_lt_one⟩ (by
    unfold EpochTime.instant
    have : ((18 : Nat) : K) ≤ e.time := by exact_mod_cast (show 18 ≤ e.time by omega)
    simp only
    linarith [he.1]) hr
  refine ⟨g, u, h1, ?_, h4, by rw [h3]; unfold EpochTime.instant; simp⟩
  unfold GpsTime.dateTimeAsUtc
  rw [h5, h2]; rfl

/-- **C42 (limit).** Before the GPS epoch the week number wraps around 64 bits. -/
theorem C42_before_epoch : calcGpsWeekTime (⟨0, 0⟩ : EpochTime ℚ) = .ok (30500568904420, 370816) := by decide +kernel

example : GpsTime.ofEpoch (⟨1684108818, 1 / 2⟩ : EpochTime ℚ) = .ok ⟨2262, 86418 + 1 / 2, ⟨2023, 5, 15, 0, 0, 18 + 1 / 2⟩, ⟨1684108818, 1 / 2⟩⟩ := by decide +kernel

end S2E.Time
