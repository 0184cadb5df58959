import Verif.Spec.Julian
import Mathlib.Tactic.Linarith
import Mathlib.Tactic.NormNum
import Mathlib.Tactic.IntervalCases
import Mathlib.Algebra.Order.Floor.Ring
/-!
# C151: Julian date, calendar date and decimal year
-/
namespace S2E.Julian
open S2E.Calendar

theorem floor_quarter (n : ℤ) : ⌊(n : ℝ) * (1 / 4 : ℝ)⌋ = n / 4 := by
  rw [Int.floor_eq_iff]
  have h1 : n = 4 * (n / 4) + n % 4 := by omega
  have h2 : 0 ≤ n % 4 ∧ n % 4 < 4 := by omega
  have h3 : (n : ℝ) = 4 * ((n / 4 : ℤ) : ℝ) + ((n % 4 : ℤ) : ℝ) := by exact_mod_cast h1
  have h4 : (0 : ℝ) ≤ ((n % 4 : ℤ) : ℝ) := by exact_mod_cast h2.1
  have h5 : ((n % 4 : ℤ) : ℝ) < 4 := by exact_mod_cast h2.2
  constructor <;> linarith

theorem leapyrs_eq (y : ℤ) : leapyrs y = (y - 1901) / 4 := by
  rw [leapyrs, ← floor_quarter]
  push_cast
  rfl

theorem isLeap_iff {k : ℕ} (h1 : 1900 < k) (h2 : k < 2100) : isLeap k = decide (k % 4 = 0) := by
  rw [isLeap]
  by_cases h4 : k % 4 = 0
  · by_cases h100 : k % 100 = 0
    · have : k = 2000 := by omega
      subst this
      rfl
    · simp [h4, h100]
  · simp [h4]

theorem yearSum {y : ℕ} (h1 : 1900 < y) (h2 : y ≤ 2100) : ∑ k ∈ Finset.Ico 1900 y, yearLen (isLeap k) = 365 * (y - 1900) + (y - 1901) / 4 := by
  induction y, h1 using Nat.le_induction with
  | base => decide
  | succ y hy ih =>
    rw [Finset.sum_Ico_succ_top (by omega), ih (by omega), isLeap_iff hy (by omega), yearLen]
    by_cases h4 : y % 4 = 0
    · simp only [h4, decide_true, if_true]; omega
    · simp only [h4, decide_false, Bool.false_eq_true, if_false]; omega

theorem sum_Ico_one (f : ℕ → ℕ) (m : ℕ) : ∑ k ∈ Finset.Ico 1 m, f k = ∑ k ∈ Finset.range (m - 1), f (k + 1) := by
  rw [Finset.sum_Ico_eq_sum_range]
  exact Finset.sum_congr rfl fun k _ => by rw [add_comm]

/-- Days before a month. -/
def before (leap : Bool) (m : ℕ) : ℕ := ∑ k ∈ Finset.Ico 1 m, monthLen leap k

theorem before_eq (leap : Bool) (m : ℕ) (h1 : 1 ≤ m) (h2 : m ≤ 12) :
    (before leap m : ℤ) = ⌊(275 * (m : ℝ)) / 9⌋ - 30 - (if 3 ≤ m then (if leap then 1 else 2) else 0) := by
  have hf : ∀ (a : ℤ), (a : ℝ) ≤ (275 * (m : ℝ)) / 9 → (275 * (m : ℝ)) / 9 < a + 1 → ⌊(275 * (m : ℝ)) / 9⌋ = a := fun a h3 h4 => Int.floor_eq_iff.mpr ⟨h3, h4⟩
  rcases leap <;> interval_cases m
  all_goals
    first
    | rw [hf 30 (by norm_num) (by norm_num)]; rfl
    | rw [hf 61 (by norm_num) (by norm_num)]; rfl
    | rw [hf 91 (by norm_num) (by norm_num)]; rfl
    | rw [hf 122 (by norm_num) (by norm_num)]; rfl
    | rw [hf 152 (by norm_num) (by norm_num)]; rfl
    | rw [hf 183 (by norm_num) (by norm_num)]; rfl
    | rw [hf 213 (by norm_num) (by norm_num)]; rfl
    | rw [hf 244 (by norm_num) (by norm_num)]; rfl
    | rw [hf 275 (by norm_num) (by norm_num)]; rfl
    | rw [hf 305 (by norm_num) (by norm_num)]; rfl
    | rw [hf 336 (by norm_num) (by norm_num)]; rfl
    | rw [hf 366 (by norm_num) (by norm_num)]; rfl

/-- Days since 1900-01-01 in closed form. -/
theorem dayNumber_eq {y m d : ℕ} (h : Valid y m d) :
    (dayNumber y m d : ℤ) = 365 * ((y : ℤ) - 1900) + ((y : ℤ) - 1901) / 4 + (if y = 1900 then 1 else 0) + before (isLeap y) m + d - 1 := by
  obtain ⟨h1, h2, h3, h4, h5, h6⟩ := h
  rw [dayNumber, ← before]
  rcases h5 with h5 | ⟨rfl, h5⟩
  · rw [yearSum h5 (by omega)]
    rw [if_neg (by omega)]
    push_cast
    omega
  · simp
    omega

theorem month_floor (m : ℕ) (h1 : 1 ≤ m) (h2 : m ≤ 12) : ⌊((m : ℝ) + 9) / 12⌋ = if 3 ≤ m then 1 else 0 := by
  split_ifs with h3
  · rw [Int.floor_eq_iff]
    have : (3 : ℝ) ≤ m := by exact_mod_cast h3
    have : (m : ℝ) ≤ 12 := by exact_mod_cast h2
    constructor <;> push_cast <;> linarith
  · rw [Int.floor_eq_iff]
    have : (m : ℝ) ≤ 2 := by exact_mod_cast (show m ≤ 2 by omega)
    have : (1 : ℝ) ≤ m := by exact_mod_cast h1
    constructor <;> push_cast <;> linarith

theorem jday_aux (y m d : ℕ) (F : ℤ) (h5 : 1900 < y ∨ y = 1900 ∧ 3 ≤ m) (h6 : y < 2100 ∨ y = 2100 ∧ m < 3) :
    (367 * (y : ℤ) - (7 * ((y : ℤ) + if 3 ≤ m then 1 else 0)) / 4 + F + d : ℤ) =
      365 * ((y : ℤ) - 1900) + ((y : ℤ) - 1901) / 4 + (if y = 1900 then 1 else 0) +
        (F - 30 - if 3 ≤ m then if y % 4 = 0 ∧ y ≠ 1900 ∧ y ≠ 2100 then 1 else 2 else 0) + d - 1 + 694007 := by
  by_cases hm : 3 ≤ m
  · simp only [hm, if_true]
    by_cases hy : y = 1900
    · subst hy; norm_num; omega
    · rw [if_neg hy]
      by_cases h4 : y % 4 = 0
      · rw [if_pos (by omega)]; omega
      · rw [if_neg (by omega)]
        obtain ⟨q, hq⟩ : ∃ q, y = 4 * q + y % 4 := ⟨y / 4, by omega⟩
        have : y % 4 = 1 ∨ y % 4 = 2 ∨ y % 4 = 3 := by omega
        rcases this with e | e | e <;> rw [e] at hq <;> subst hq <;> push_cast <;> omega
  · simp only [hm, if_false]
    rw [if_neg (by omega)]
    omega

/-- **C151 (Julian date).** From 1900-03-01 to 2100-02-28 the Julian date of a date and time is the Gregorian one. -/
theorem C151_jday (y m d : ℕ) (hv : Valid y m d) (h mi : ℤ) (s : ℝ) : jday ⟨y, m, d, h, mi, s⟩ = julianDate (instant y m d h mi s) := by
  have hd := dayNumber_eq hv
  obtain ⟨h1, h2, h3, h4, h5, h6⟩ := hv
  have hb := before_eq (isLeap y) m h1 h2
  have hlp : (if isLeap y = true then (1 : ℤ) else 2) = if y % 4 = 0 ∧ y ≠ 1900 ∧ y ≠ 2100 then 1 else 2 := by
    by_cases hy : y = 1900 ∨ y = 2100
    · rcases hy with rfl | rfl <;> decide
    · rw [isLeap_iff (by omega) (by omega)]
      by_cases h0 : y % 4 = 0
      · rw [if_pos (by simp [h0]), if_pos (by omega)]
      · rw [if_neg (by simp [h0]), if_neg (by omega)]
  rw [hlp] at hb
  have hcast : (7 * (((y : ℤ) : ℝ) + ((if 3 ≤ m then 1 else 0 : ℤ) : ℝ))) = (((7 * ((y : ℤ) + if 3 ≤ m then 1 else 0) : ℤ)) : ℝ) := by push_cast; ring
  have key : (367 * (y : ℤ) - (7 * ((y : ℤ) + if 3 ≤ m then 1 else 0)) / 4 + ⌊(275 * (m : ℝ)) / 9⌋ + d : ℤ) = dayNumber y m d + 694007 := by
    rw [hd, hb]
    generalize ⌊(275 * (m : ℝ)) / 9⌋ = F
    exact jday_aux y m d F h5 h6
  rw [jday]
  dsimp only
  rw [show (((m : ℕ) : ℤ) : ℝ) = (m : ℝ) from Int.cast_natCast m, month_floor m h1 h2, hcast, floor_quarter, julianDate, instant]
  have key' : (367 * (y : ℝ) - ((7 * ((y : ℤ) + if 3 ≤ m then 1 else 0)) / 4 : ℤ) + (⌊(275 * (m : ℝ)) / 9⌋ : ℤ) + (d : ℝ)) = (dayNumber y m d : ℝ) + 694007 := by
    exact_mod_cast key
  have e1 : ((y : ℤ) : ℝ) = (y : ℝ) := Int.cast_natCast y
  have e2 : ((d : ℤ) : ℝ) = (d : ℝ) := Int.cast_natCast d
  rw [e1, e2]
  linarith

/-! ## Calendar -/

theorem lmonth_eq (y : ℤ) (m : ℕ) (h1 : 1 ≤ m) (h2 : m ≤ 12) : lmonth y m = monthLen (decide (y % 4 = 0)) m := by
  by_cases h : y % 4 = 0 <;> interval_cases m <;> simp [lmonth, h, monthLen]

theorem before_succ (l : Bool) (m : ℕ) (h : 1 ≤ m) : before l (m + 1) = before l m + monthLen l m := by
  rw [before, Finset.sum_Ico_succ_top h, before]

/-- The loop finds the month. -/
theorem monthLoop_spec (y D : ℤ) (m : ℕ) (h2 : m ≤ 12) (hlo : (before (decide (y % 4 = 0)) m : ℤ) < D)
    (hhi : D ≤ before (decide (y % 4 = 0)) m + monthLen (decide (y % 4 = 0)) m ∨ m = 12) :
    ∀ i, 1 ≤ i → i ≤ m → monthLoop y D i (before (decide (y % 4 = 0)) i) = (m, (before (decide (y % 4 = 0)) m : ℤ)) := by
  set L := decide (y % 4 = 0) with hL
  have hmono : ∀ i j, 1 ≤ i → i ≤ j → before L i ≤ before L j := by
    intro i j hi hij
    induction j, hij using Nat.le_induction with
    | base => exact le_refl _
    | succ j hj ih => rw [before_succ L j (by omega)]; omega
  intro i
  induction hk : m - i generalizing i with
  | zero =>
    intro h1 hi
    have : i = m := by omega
    subst this
    rw [monthLoop, lmonth_eq y i h1 h2, if_neg (by rw [← hL]; omega)]
  | succ k ih =>
    intro h1 hi
    have hm := hmono (i + 1) m (by omega) (by omega)
    rw [before_succ L i h1] at hm
    rw [monthLoop, lmonth_eq y i h1 (by omega), if_pos (by rw [← hL]; omega), ← hL]
    have := ih (i + 1) (by omega) (by omega) (by omega)
    rw [before_succ L i h1] at this
    push_cast at this
    exact this

/-- A day of the year and a time of the day. -/
theorem days2mdhms_spec (y : ℤ) (m d : ℕ) (h mi : ℤ) (s : ℝ) (h1 : 1 ≤ m) (h2 : m ≤ 12) (hd : 1 ≤ d) (hd2 : d ≤ monthLen (decide (y % 4 = 0)) m ∨ m = 12)
    (hh : 0 ≤ h ∧ h < 24) (hm : 0 ≤ mi ∧ mi < 60) (hs : 0 ≤ s ∧ s < 60) :
    days2mdhms y ((before (decide (y % 4 = 0)) m : ℝ) + d + ((h : ℝ) * 3600 + mi * 60 + s) / 86400) = ⟨y, m, d, h, mi, s⟩ := by
  have c1 : (0 : ℝ) ≤ h := by exact_mod_cast hh.1
  have c2 : (h : ℝ) ≤ 23 := by exact_mod_cast (show h ≤ 23 by omega)
  have c3 : (0 : ℝ) ≤ mi := by exact_mod_cast hm.1
  have c4 : (mi : ℝ) ≤ 59 := by exact_mod_cast (show mi ≤ 59 by omega)
  have hD : ⌊(before (decide (y % 4 = 0)) m : ℝ) + d + ((h : ℝ) * 3600 + mi * 60 + s) / 86400⌋ = (before (decide (y % 4 = 0)) m : ℤ) + d := by
    rw [Int.floor_eq_iff]
    push_cast
    constructor <;> linarith
  have hloop := monthLoop_spec y ((before (decide (y % 4 = 0)) m : ℤ) + d) m h2 (by omega) (by omega) 1 (by omega) h1
  have hb1 : before (decide (y % 4 = 0)) 1 = 0 := by simp [before]
  rw [hb1, Nat.cast_zero] at hloop
  have hH : ⌊((before (decide (y % 4 = 0)) m : ℝ) + d + ((h : ℝ) * 3600 + mi * 60 + s) / 86400 - ((before (decide (y % 4 = 0)) m : ℤ) + d : ℤ)) * 24⌋ = h := by
    rw [Int.floor_eq_iff]
    push_cast
    constructor <;> linarith
  have hM : ⌊(((before (decide (y % 4 = 0)) m : ℝ) + d + ((h : ℝ) * 3600 + mi * 60 + s) / 86400 - ((before (decide (y % 4 = 0)) m : ℤ) + d : ℤ)) * 24 - h) * 60⌋ = mi := by
    rw [Int.floor_eq_iff]
    push_cast
    constructor <;> linarith
  rw [days2mdhms]
  simp only [hD, hloop, hH, hM]
  refine Date.mk.injEq .. ▸ ⟨rfl, rfl, by ring, rfl, rfl, ?_⟩
  push_cast
  ring

/-- Days from 1899-12-31 to the last day of the year before `y`. -/
noncomputable def start (y : ℤ) : ℝ := 365 * ((y : ℝ) - 1900) + ((y - 1901) / 4 : ℤ)

/-- Quarters of a day in the four years' cycle. -/
noncomputable def lag (y : ℤ) : ℝ := if y % 4 = 0 then 1 else ((y % 4 : ℤ) : ℝ) / 4

theorem start_lag (y : ℤ) : start y + lag y = 365.25 * ((y : ℝ) - 1900) := by
  have h4 : (y : ℝ) = 4 * ((y / 4 : ℤ) : ℝ) + ((y % 4 : ℤ) : ℝ) := by exact_mod_cast (show y = 4 * (y / 4) + y % 4 by omega)
  rw [start, lag]
  split_ifs with h
  · have : (y - 1901) / 4 = y / 4 - 476 := by omega
    rw [this, h4, h]
    push_cast
    ring
  · have : (y - 1901) / 4 = y / 4 - 475 := by omega
    rw [this]
    push_cast
    linarith

theorem start_succ (y : ℤ) : start (y + 1) = start y + (if y % 4 = 0 then 366 else 365) := by
  rw [start, start]
  split_ifs with h
  · have : (y + 1 - 1901) / 4 = (y - 1901) / 4 + 1 := by omega
    rw [this]
    push_cast
    ring
  · have : (y + 1 - 1901) / 4 = (y - 1901) / 4 := by omega
    rw [this]
    push_cast
    ring

theorem yearDays_normal (y : ℤ) (u : ℝ) (h1 : lag y ≤ u) (h2 : u < 365.25 + lag y) (h3 : 1 ≤ u + 0.00000000001) : yearDays (2415019.5 + start y + u) = (y, u + 0.00000000001) := by
  have hs := start_lag y
  have hf : ⌊(2415019.5 + start y + u - 2415019.5) / 365.25⌋ = y - 1900 := by
    rw [Int.floor_eq_iff, le_div_iff₀ (by norm_num), div_lt_iff₀ (by norm_num)]
    push_cast
    constructor <;> linarith
  have hy : (1900 : ℤ) + (y - 1900) = y := by ring
  have hu : 2415019.5 + start y + u - 2415019.5 - (((y : ℝ) - 1900) * 365 + (leapyrs y : ℝ)) = u := by
    rw [leapyrs_eq, start]; ring
  rw [yearDays]
  simp only [hf, hy, hu]
  rw [if_neg (by linarith)]

theorem yearDays_late (y : ℤ) (u : ℝ) (h2 : 365.25 + lag y ≤ u) (h3 : u + 0.00000000001 < if y % 4 = 0 then 367 else 366) : yearDays (2415019.5 + start y + u) = (y, u) := by
  have hs := start_lag y
  have hs1 := start_succ y
  have hl : 0 ≤ lag y := by
    rw [lag]; split_ifs
    · norm_num
    · have : (0 : ℝ) ≤ ((y % 4 : ℤ) : ℝ) := by exact_mod_cast (show 0 ≤ y % 4 by omega)
      positivity
  have hu1 : u < 367 := by split_ifs at h3 <;> linarith
  have hf : ⌊(2415019.5 + start y + u - 2415019.5) / 365.25⌋ = y + 1 - 1900 := by
    rw [Int.floor_eq_iff, le_div_iff₀ (by norm_num), div_lt_iff₀ (by norm_num)]
    push_cast
    constructor <;> linarith
  have hy : (1900 : ℤ) + (y + 1 - 1900) = y + 1 := by ring
  have hu : 2415019.5 + start y + u - 2415019.5 - ((((y + 1 : ℤ) : ℝ) - 1900) * 365 + (leapyrs (y + 1) : ℝ)) = u - (if y % 4 = 0 then 366 else 365) := by
    have : ((((y + 1 : ℤ) : ℝ) - 1900) * 365 + (leapyrs (y + 1) : ℝ)) = start (y + 1) := by rw [leapyrs_eq, start]; ring
    rw [this, hs1]; ring
  have hu0 : 2415019.5 + start y + u - 2415019.5 - (((y : ℝ) - 1900) * 365 + (leapyrs y : ℝ)) = u := by
    rw [leapyrs_eq, start]; ring
  have hy1 : y + 1 - 1 = y := by ring
  rw [yearDays]
  simp only [hf, hy, hu, hy1, hu0]
  rw [if_pos (by split_ifs at h3 ⊢ <;> linarith)]

/-- The Julian date by year and day of the year. -/
theorem julianDate_eq {y m d : ℕ} (hv : Valid y m d) (h mi : ℤ) (s : ℝ) :
    julianDate (instant y m d h mi s) = 2415019.5 + start y + ((before (decide ((y : ℤ) % 4 = 0)) m : ℝ) + d + ((h : ℝ) * 3600 + mi * 60 + s) / 86400) := by
  have hd := dayNumber_eq hv
  obtain ⟨h1, h2, h3, h4, h5, h6⟩ := hv
  have hb : (before (isLeap y) m : ℤ) + (if y = 1900 then 1 else 0) = before (decide ((y : ℤ) % 4 = 0)) m := by
    by_cases hy : y = 1900
    · subst hy
      rw [if_pos rfl]
      have e1 := before_eq (isLeap 1900) m h1 h2
      have e2 := before_eq (decide (((1900 : ℕ) : ℤ) % 4 = 0)) m h1 h2
      rw [show isLeap 1900 = false from by decide] at *
      simp only [show (((1900 : ℕ) : ℤ) % 4 = 0) from by decide, decide_true] at *
      rw [if_pos (by omega)] at e1 e2
      simp at e1 e2
      omega
    · rw [if_neg hy]
      by_cases hy2 : y = 2100
      · subst hy2
        have : m = 1 ∨ m = 2 := by omega
        rcases this with rfl | rfl <;> decide
      · rw [isLeap_iff (by omega) (by omega)]
        have : ((y : ℤ) % 4 = 0) ↔ (y % 4 = 0) := by omega
        simp only [this]
        simp
  have hz : (dayNumber y m d : ℤ) = 365 * ((y : ℤ) - 1900) + ((y : ℤ) - 1901) / 4 + before (decide ((y : ℤ) % 4 = 0)) m + d - 1 := by
    rw [hd, ← hb]; ring
  have hr : (dayNumber y m d : ℝ) = 365 * ((y : ℝ) - 1900) + (((y : ℤ) - 1901) / 4 : ℤ) + before (decide ((y : ℤ) % 4 = 0)) m + d - 1 := by exact_mod_cast hz
  rw [julianDate, instant, hr, start, Int.cast_natCast]
  ring

theorem valid_len {y m d : ℕ} (hv : Valid y m d) : d ≤ monthLen (decide ((y : ℤ) % 4 = 0)) m := by
  obtain ⟨h1, h2, h3, h4, h5, h6⟩ := hv
  refine h4.trans ?_
  by_cases h : y % 4 = 0
  · have : decide ((y : ℤ) % 4 = 0) = true := by simp; omega
    rw [this]
    rcases isLeap y <;> interval_cases m <;> decide
  · have : isLeap y = false := by simp [isLeap, h]
    have h2 : decide ((y : ℤ) % 4 = 0) = false := by simp; omega
    rw [this, h2]

theorem before_12 (l : Bool) : before l 12 = if l then 335 else 334 := by rcases l <;> decide

theorem before_le (l : Bool) (m : ℕ) (h1 : 1 ≤ m) (h : m < 12) : before l m + monthLen l m ≤ before l 12 := by
  rcases l <;> interval_cases m <;> decide

theorem lag_eq (y : ℕ) : lag y = if y % 4 = 0 then 1 else ((y % 4 : ℕ) : ℝ) / 4 := by
  rw [lag]
  have : ((y : ℤ) % 4 = 0) ↔ (y % 4 = 0) := by omega
  simp only [this]
  have h2 : (((y : ℤ) % 4 : ℤ) : ℝ) = ((y % 4 : ℕ) : ℝ) := by exact_mod_cast rfl
  rw [h2]

/-- Year and day of the year of a date, outside the exceptional cases. -/
theorem yearDays_date (y m d : ℕ) (hv : Valid y m d) (h mi : ℤ) (s : ℝ) (hh : 0 ≤ h ∧ h < 24) (hm : 0 ≤ mi ∧ mi < 60) (hs : -8.64e-7 ≤ s ∧ s < 60 - 8.64e-7)
    (hl : ¬Late y m d h mi s) (hj : ¬(y % 4 = 0 ∧ m = 1 ∧ d = 1 ∧ h = 0 ∧ mi = 0 ∧ s < 0)) :
    yearDays (julianDate (instant y m d h mi s)) = ((y : ℤ), (before (decide ((y : ℤ) % 4 = 0)) m : ℝ) + d + ((h : ℝ) * 3600 + mi * 60 + s) / 86400 + 0.00000000001) := by
  have hlen := valid_len hv
  have hjd := julianDate_eq hv h mi s
  obtain ⟨h1, h2, h3, -, h5, h6⟩ := hv
  have c1 : (0 : ℝ) ≤ h := by exact_mod_cast hh.1
  have c2 : (h : ℝ) ≤ 23 := by exact_mod_cast (show h ≤ 23 by omega)
  have c3 : (0 : ℝ) ≤ mi := by exact_mod_cast hm.1
  have c4 : (mi : ℝ) ≤ 59 := by exact_mod_cast (show mi ≤ 59 by omega)
  set L := decide ((y : ℤ) % 4 = 0) with hL
  set u := ((before L m : ℝ) + d + ((h : ℝ) * 3600 + mi * 60 + s) / 86400) with hu
  have hlag : 0 < lag y ∧ lag y ≤ 1 := by
    rw [lag_eq]
    split_ifs with h0
    · norm_num
    · have h1 : (1 : ℝ) ≤ ((y % 4 : ℕ) : ℝ) := by exact_mod_cast (show 1 ≤ y % 4 by omega)
      have h2 : ((y % 4 : ℕ) : ℝ) ≤ 3 := by exact_mod_cast (show y % 4 ≤ 3 by omega)
      constructor <;> linarith
  have hd1 : (1 : ℝ) ≤ d := by exact_mod_cast h3
  have hb0 : (0 : ℝ) ≤ before L m := Nat.cast_nonneg _
  have hlo : lag y ≤ u := by
    by_cases h0 : y % 4 = 0
    · have e : lag y = 1 := by rw [lag_eq, if_pos h0]
      rw [e, hu]
      by_cases hJ : m = 1 ∧ d = 1
      · by_cases hneg : h = 0 ∧ mi = 0
        · have : 0 ≤ s := by
            by_contra hcon
            exact hj ⟨h0, hJ.1, hJ.2, hneg.1, hneg.2, not_le.mp hcon⟩
          have : 0 ≤ ((h : ℝ) * 3600 + mi * 60 + s) / 86400 := by positivity
          linarith
        · have : (1 : ℝ) ≤ h * 60 + mi := by exact_mod_cast (show 1 ≤ h * 60 + mi by omega)
          linarith
      · have : (2 : ℝ) ≤ (before L m : ℝ) + d := by
          have : 2 ≤ before L m + d := by
            by_cases hm1 : m = 1
            · omega
            · have : before L 2 ≤ before L m := Finset.sum_le_sum_of_subset (Finset.Ico_subset_Ico_right (by omega))
              have h31 : before L 2 = 31 := by rcases L <;> decide
              omega
          exact_mod_cast this
        linarith
    · have e : lag y ≤ 3 / 4 := by
        rw [lag_eq, if_neg h0]
        have h2 : ((y % 4 : ℕ) : ℝ) ≤ 3 := by exact_mod_cast (show y % 4 ≤ 3 by omega)
        linarith
      linarith
  have hhi : u < 365.25 + lag y := by
    by_cases h12 : m = 12
    · subst h12
      have hd31 : d ≤ 31 := hlen.trans (by rcases L <;> decide)
      have hbb : (before L 12 : ℝ) = if y % 4 = 0 then 335 else 334 := by
        have : L = decide (y % 4 = 0) := by
          rw [hL]
          have : ((y : ℤ) % 4 = 0) ↔ (y % 4 = 0) := by omega
          simp only [this]
        rw [this, before_12]
        by_cases h0 : y % 4 = 0 <;> simp [h0]
      by_cases h31 : d = 31
      · have hnl : (h : ℝ) * 3600 + mi * 60 + s < ((y % 4 : ℕ) + 1 : ℝ) * 21600 := by
          by_contra hcon
          exact hl ⟨rfl, h31, not_lt.mp hcon⟩
        rw [hu, hbb, lag_eq, h31]
        split_ifs with h0
        · rw [h0] at hnl
          push_cast at hnl ⊢
          linarith
        · push_cast at hnl ⊢
          linarith
      · have : (d : ℝ) ≤ 30 := by exact_mod_cast (show d ≤ 30 by omega)
        rw [hu, hbb, lag_eq]
        split_ifs with h0
        · linarith
        · have h1 : (1 : ℝ) ≤ ((y % 4 : ℕ) : ℝ) := by exact_mod_cast (show 1 ≤ y % 4 by omega)
          linarith
    · have hb := before_le L m h1 (by omega)
      have hb2 : before L 12 ≤ 335 := by rcases L <;> decide
      have : (before L m : ℝ) + d ≤ 335 := by exact_mod_cast (show before L m + d ≤ 335 by omega)
      linarith
  rw [hjd]
  exact yearDays_normal (y : ℤ) u hlo hhi (by linarith)

/-- **C151 (calendar).** Every Julian date from 1900-03-01 to 2100-02-28 is turned into the date and time it belongs to, with the seconds between -0.864 and 59 999 999.136 microseconds (the last 0.864
microseconds of a minute are shown as negative seconds of the next one), except in the two cases below. -/
theorem C151_calendar (y m d : ℕ) (hv : Valid y m d) (h mi : ℤ) (s : ℝ) (hh : 0 ≤ h ∧ h < 24) (hm : 0 ≤ mi ∧ mi < 60) (hs : -8.64e-7 ≤ s ∧ s < 60 - 8.64e-7)
    (hl : ¬Late y m d h mi s) (hj : ¬(y % 4 = 0 ∧ m = 1 ∧ d = 1 ∧ h = 0 ∧ mi = 0 ∧ s < 0)) :
    invjday (julianDate (instant y m d h mi s)) = ⟨y, m, d, h, mi, s⟩ := by
  have hlen := valid_len hv
  have hyd := yearDays_date y m d hv h mi s hh hm hs hl hj
  obtain ⟨h1, h2, h3, -, h5, h6⟩ := hv
  have hsplit : (before (decide ((y : ℤ) % 4 = 0)) m : ℝ) + d + ((h : ℝ) * 3600 + mi * 60 + s) / 86400 + 0.00000000001 =
      (before (decide ((y : ℤ) % 4 = 0)) m : ℝ) + d + ((h : ℝ) * 3600 + mi * 60 + (s + 8.64e-7)) / 86400 := by norm_num; ring
  rw [hsplit] at hyd
  rw [invjday]
  simp only [hyd]
  rw [days2mdhms_spec y m d h mi (s + 8.64e-7) h1 h2 h3 (Or.inl hlen) hh hm ⟨by linarith, by linarith⟩]
  refine Date.mk.injEq .. ▸ ⟨rfl, rfl, rfl, rfl, rfl, ?_⟩
  norm_num

/-- **C151 (decimal year, value).** Except in the cases below the decimal year is the year plus the 365.25th part of the days since the last day of the year before (so 1 January is day 1). -/
theorem C151_decimal_value (y m d : ℕ) (hv : Valid y m d) (hy : 1900 < y) (hy' : y < 2100) (h mi : ℤ) (s : ℝ) (hh : 0 ≤ h ∧ h < 24) (hm : 0 ≤ mi ∧ mi < 60) (hs : 0 ≤ s ∧ s < 60 - 8.64e-7) (hl : ¬Late y m d h mi s) :
    jdToDecyear (julianDate (instant y m d h mi s)) =
      y + ((dayNumber y m d : ℝ) - dayNumber y 1 1 + 1 + ((h : ℝ) * 3600 + mi * 60 + s) / 86400 + 1e-11) / 365.25 := by
  have hyd := yearDays_date y m d hv h mi s hh hm ⟨by linarith, hs.2⟩ hl (by rintro ⟨-, -, -, -, -, h0⟩; linarith)
  rw [jdToDecyear, hyd]
  have hL : decide ((y : ℤ) % 4 = 0) = isLeap y := by
    rw [isLeap_iff (by omega) (by omega)]
    simp only [decide_eq_decide]; omega
  have hd := hv.2.2.1
  have hn : dayNumber y m d + 1 = dayNumber y 1 1 + before (isLeap y) m + d := by
    rw [dayNumber, dayNumber, before]; simp; omega
  have hn' : (dayNumber y m d : ℝ) + 1 = dayNumber y 1 1 + before (isLeap y) m + d := by exact_mod_cast hn
  rw [hL]
  push_cast
  have : (before (isLeap y) m : ℝ) + d = dayNumber y m d - dayNumber y 1 1 + 1 := by linarith
  rw [this]

/-- **C151 (end of the year).** In the last 18, 12 or 6 hours of the first, second and third year of each cycle of four years (counted from leap years; but for their last 0.864 microseconds) the seconds are too
small by 0.864 microseconds: at a full minute they are negative, and the log, which rounds down to milliseconds, shows -0.001. -/
theorem C151_end_of_year (y : ℕ) (hv : Valid y 12 31) (h mi : ℤ) (s : ℝ) (hh : 0 ≤ h ∧ h < 24) (hm : 0 ≤ mi ∧ mi < 60) (hs : 0 ≤ s ∧ s < 60)
    (hl : Late y 12 31 h mi s) (hb : (h : ℝ) * 3600 + mi * 60 + s < 86400 - 8.64e-7) :
    invjday (julianDate (instant y 12 31 h mi s)) = ⟨y, 12, 31, h, mi, s - 8.64e-7⟩ ∧ (s = 0 → ⌊(s - 8.64e-7) * 1000⌋ = -1) := by
  have hlen := valid_len hv
  have hjd := julianDate_eq hv h mi s
  obtain ⟨-, -, hl⟩ := hl
  refine ⟨?_, ?_⟩
  · set L := decide ((y : ℤ) % 4 = 0) with hL
    have hL2 : L = decide (y % 4 = 0) := by
      rw [hL]
      have : ((y : ℤ) % 4 = 0) ↔ (y % 4 = 0) := by omega
      simp only [this]
    have hbb : (before L 12 : ℝ) = if y % 4 = 0 then 335 else 334 := by
      rw [hL2, before_12]
      by_cases h0 : y % 4 = 0 <;> simp [h0]
    have hyd := yearDays_late (y : ℤ) ((before L 12 : ℝ) + (31 : ℕ) + ((h : ℝ) * 3600 + mi * 60 + s) / 86400)
      (by
        rw [hbb, lag_eq]
        split_ifs with h0
        · rw [h0] at hl; push_cast at hl ⊢; linarith
        · push_cast at hl ⊢; linarith)
      (by
        have : ((y : ℤ) % 4 = 0) ↔ (y % 4 = 0) := by omega
        simp only [this]
        rw [hbb]
        split_ifs <;> push_cast <;> linarith)
    rw [hjd, invjday]
    simp only [hyd]
    rw [hL, days2mdhms_spec y 12 31 h mi s (by norm_num) (by norm_num) (by norm_num) (Or.inr rfl) hh hm hs]
    norm_num
  · rintro rfl
    rw [Int.floor_eq_iff]
    norm_num

/-- **C151 (32 December).** The last 0.864 microseconds before a leap year are shown as 32 December. -/
theorem C151_day32 (y : ℕ) (hv : Valid y 1 1) (hy : y % 4 = 0) (s : ℝ) (hs : -8.64e-7 ≤ s ∧ s < 0) :
    invjday (julianDate (instant y 1 1 0 0 s)) = ⟨y - 1, 12, 32, 0, 0, s⟩ := by
  have hjd := julianDate_eq hv 0 0 s
  have hz : ((y : ℤ) - 1) % 4 = 3 := by omega
  have hst := start_succ ((y : ℤ) - 1)
  rw [sub_add_cancel, if_neg (by omega)] at hst
  have hb1 : (before (decide ((y : ℤ) % 4 = 0)) 1 : ℝ) = 0 := by simp [before]
  have hL : decide (((y : ℤ) - 1) % 4 = 0) = false := by simp; omega
  have hlag : lag ((y : ℤ) - 1) = 3 / 4 := by rw [lag, if_neg (by omega), hz]; norm_num
  rw [hb1, hst] at hjd
  have e : julianDate (instant y 1 1 0 0 s) = 2415019.5 + start ((y : ℤ) - 1) + (366 + s / 86400) := by
    rw [hjd]; push_cast; ring
  have hyd := yearDays_normal ((y : ℤ) - 1) (366 + s / 86400) (by rw [hlag]; linarith) (by rw [hlag]; linarith) (by linarith)
  rw [e, invjday]
  have hsplit : 366 + s / 86400 + 0.00000000001 = (before (decide (((y : ℤ) - 1) % 4 = 0)) 12 : ℝ) + (32 : ℕ) + (((0 : ℤ) : ℝ) * 3600 + ((0 : ℤ) : ℝ) * 60 + (s + 8.64e-7)) / 86400 := by
    rw [hL, before_12]; norm_num; ring
  rw [hsplit] at hyd
  simp only [hyd]
  rw [days2mdhms_spec ((y : ℤ) - 1) 12 32 0 0 (s + 8.64e-7) (by norm_num) (by norm_num) (by norm_num) (Or.inr rfl) (by norm_num) (by norm_num) ⟨by linarith, by linarith⟩]
  norm_num

/-- **C151 (UTC).** The date shown `t` seconds after the start is the one that lies `t` seconds after the start date. -/
theorem C151_utc (y m d : ℕ) (hv : Valid y m d) (h mi : ℤ) (s t : ℝ) (y' m' d' : ℕ) (hv' : Valid y' m' d') (h' mi' : ℤ) (s' : ℝ) (hh : 0 ≤ h' ∧ h' < 24) (hm : 0 ≤ mi' ∧ mi' < 60)
    (hs : 0 ≤ s' ∧ s' < 60 - 8.64e-7) (hl : ¬Late y' m' d' h' mi' s') (ht : instant y' m' d' h' mi' s' = instant y m d h mi s + t) :
    invjday (jday ⟨y, m, d, h, mi, s⟩ + t / (60 * 60 * 24)) = ⟨y', m', d', h', mi', s'⟩ := by
  rw [C151_jday y m d hv, ← C151_calendar y' m' d' hv' h' mi' s' hh hm ⟨by linarith, hs.2⟩ hl (by rintro ⟨-, -, -, -, -, h0⟩; linarith), ht]
  congr 1
  rw [julianDate, julianDate]
  ring

/-- **C151 (decimal year).** At the end of each leap year the decimal year steps back: it is larger at 18 hours on 31 December than at 6 hours on 1 January. -/
theorem C151_decimal_year (y : ℕ) (hv : Valid y 12 31) (hv' : Valid (y + 1) 1 1) (hy : y % 4 = 0) :
    julianDate (instant y 12 31 18 0 0) < julianDate (instant (y + 1) 1 1 6 0 0) ∧
    jdToDecyear (julianDate (instant (y + 1) 1 1 6 0 0)) < jdToDecyear (julianDate (instant y 12 31 18 0 0)) := by
  have hlag : lag (y : ℤ) = 1 := by rw [lag, if_pos (by omega)]
  have hlag' : lag ((y : ℤ) + 1) = 1 / 4 := by rw [lag, if_neg (by omega), show ((y : ℤ) + 1) % 4 = 1 by omega]; norm_num
  have hst := start_succ (y : ℤ)
  rw [if_pos (by omega)] at hst
  have hb : (before (decide ((y : ℤ) % 4 = 0)) 12 : ℝ) = 335 := by
    rw [before_12, if_pos (by simp; omega)]; norm_num
  have hb1 : (before (decide (((y + 1 : ℕ) : ℤ) % 4 = 0)) 1 : ℝ) = 0 := by simp [before]
  have e1 := julianDate_eq hv 18 0 0
  have e2 := julianDate_eq hv' 6 0 0
  rw [hb] at e1
  rw [hb1] at e2
  have f1 := yearDays_late (y : ℤ) (366 + 3 / 4) (by rw [hlag]; norm_num) (by rw [if_pos (by omega)]; norm_num)
  have f2 := yearDays_normal ((y : ℤ) + 1) (1 + 1 / 4) (by rw [hlag']; norm_num) (by rw [hlag']; norm_num) (by norm_num)
  have g1 : julianDate (instant y 12 31 18 0 0) = 2415019.5 + start (y : ℤ) + (366 + 3 / 4) := by rw [e1]; norm_num
  have g2 : julianDate (instant (y + 1) 1 1 6 0 0) = 2415019.5 + start ((y : ℤ) + 1) + (1 + 1 / 4) := by rw [e2]; push_cast; norm_num
  refine ⟨?_, ?_⟩
  · rw [g1, g2, hst]; norm_num
    linarith
  · rw [g1, g2, jdToDecyear, jdToDecyear, f1, f2]
    push_cast
    norm_num
    linarith

/-- The theorems apply: 2024-02-29 23:59:59, a late 2024-12-31 12:00, the end of 2023, the leap year 2024. -/
example : Valid 2024 2 29 ∧ ¬Late 2024 2 29 23 59 59 ∧ Valid 2024 12 31 ∧ Late 2024 12 31 12 0 0 ∧ Valid 2024 1 1 ∧ 2024 % 4 = 0 ∧ Valid 2025 1 1 := by
  refine ⟨by unfold Valid; decide, fun h => by simp [Late] at h, by unfold Valid; decide, ⟨rfl, rfl, by norm_num⟩, by unfold Valid; decide, rfl, by unfold Valid; decide⟩

/-- In numbers: J2000 is 2000-01-01 12h. -/
example : jday ⟨2000, 1, 1, 12, 0, 0⟩ = 2451545 := by
  have := C151_jday 2000 1 1 (by unfold Valid; decide) 12 0 0
  push_cast at this
  rw [this, julianDate, instant, show dayNumber 2000 1 1 = 36524 by decide +kernel]
  norm_num

end S2E.Julian
