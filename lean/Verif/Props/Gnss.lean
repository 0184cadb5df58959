import Verif.Model.Gnss
import Verif.Props.C2a
import Verif.Spec.Calendar
/-! # C56 (GNSS satellite numbers) and C57 (day-of-year stepping) -/
namespace S2E.Gnss
open S2E.Log S2E.C2a S2E.LogProps

/-! ## C56 -/

/-- Specification: the constellations, in index order, with the number of satellites of each. -/
def constellations : List (Char × Nat) := [('G', 32), ('R', 26), ('E', 28), ('C', 62), ('J', 5), ('I', 7)]

/-- Specification: the name of satellite `prn` of a constellation: the letter and (at least) two digits. -/
def satName (c : Char) (prn : Nat) : Str := c :: (if prn < 10 then '0' :: dec prn else dec prn)

/-- Specification: the satellites in index order. -/
def allNames : List Str := constellations.flatMap (fun p => (List.range p.2).map (fun i => satName p.1 (i + 1)))

theorem stoi_pad (prn : Nat) (h : prn < 1000) : stoi (if prn < 10 then '0' :: dec prn else dec prn) = .ok prn := by
  have h1 : stoi (dec prn) = .ok prn := by
    have := stoi_text prn [] (by simp)
    rw [List.append_nil, if_pos (by omega)] at this
    rw [intText, if_neg (by omega)] at this
    simpa using this
  split
  · rename_i hlt
    have : ∀ p < 10, stoi ('0' :: dec p) = .ok (p : Int) := by decide +kernel
    exact this prn hlt
  · exact h1

theorem prnIndex_pad (prn b : Nat) (h : prn < 1000) (h0 : 1 ≤ prn) (hb : b < 1000) :
    prnIndex (if prn < 10 then '0' :: dec prn else dec prn) b = .ok (b + prn - 1) := by
  rw [prnIndex, stoi_pad prn h, Res.bind_ok]
  congr 1
  rw [Int.emod_eq_of_lt (by omega) (by omega)]
  omega

/-- **C56.** The names of the satellites in index order: index `i` below 160 has the `i`-th name, and every index from 160 on gives `err`. -/
theorem C56_index_to_number : (∀ i, i < 160 → allNames[i]? = some (indexToNumber i)) ∧ (∀ i, 160 ≤ i → indexToNumber i = "err".toList) ∧ allNames.length = 160 := by
  refine ⟨by decide +kernel, ?_, by decide +kernel⟩
  intro i hi
  rw [indexToNumber, if_neg (by show ¬ i < 32; omega), if_neg (by show ¬ i < 58; omega), if_neg (by show ¬ i < 86; omega), if_neg (by show ¬ i < 148; omega),
    if_neg (by show ¬ i < 153; omega), if_neg (by show ¬ i < 160; omega)]

/-- **C56.** Index to number and back is the identity for every index below the total. -/
theorem C56_roundtrip (i : Nat) (h : i < 160) : numberToIndex (indexToNumber i) = .ok i := by
  have : ∀ i < 160, numberToIndex (indexToNumber i) = .ok i := by decide +kernel
  exact this i h

/-- **C56.** Number to index and back is the identity for every valid satellite of every constellation, and the index of satellite `prn` is the number of
satellites of the constellations before plus `prn - 1`: the ranges are contiguous and disjoint. -/
theorem C56_number_to_index (k : Nat) (c : Char) (n : Nat) (hk : constellations[k]? = some (c, n)) (prn : Nat) (h1 : 1 ≤ prn) (h2 : prn ≤ n) :
    numberToIndex (satName c prn) = .ok (((constellations.take k).map Prod.snd).sum + (prn - 1)) ∧
    indexToNumber (((constellations.take k).map Prod.snd).sum + (prn - 1)) = satName c prn := by
  have key : ∀ k < 6, ∀ p, constellations[k]? = some p → ∀ prn < 70, 1 ≤ prn ∧ prn ≤ p.2 →
      numberToIndex (satName p.1 prn) = .ok (((constellations.take k).map Prod.snd).sum + (prn - 1)) ∧
      indexToNumber (((constellations.take k).map Prod.snd).sum + (prn - 1)) = satName p.1 prn := by
    intro k hk p hp
    have hp' : p = (constellations[k]?).getD ('x', 0) := by rw [hp]; rfl
    subst hp'
    clear hp
    revert k
    decide +kernel
  have hk6 : k < 6 := by
    have := (List.getElem?_eq_some_iff.1 hk).1
    simpa [constellations] using this
  have hn : n ≤ 62 := by
    have := List.mem_of_getElem? hk
    simp [constellations] at this
    omega
  exact key k hk6 (c, n) hk prn (by omega) ⟨h1, h2⟩

/-- **C56 is false beyond the valid numbers.** Satellite number 0 or a number beyond the constellation's count is not rejected but gives the index of a satellite
of a neighbouring constellation; unknown letters give 4294967295; an empty name is undefined and a name without digits throws. -/
theorem C56_invalid_numbers :
    numberToIndex "G33".toList = numberToIndex "R01".toList ∧ numberToIndex "R00".toList = numberToIndex "G32".toList ∧
    numberToIndex "X01".toList = .ok 4294967295 ∧ numberToIndex [] = .ub ∧ numberToIndex "G".toList = .throws ∧
    numberToIndex "G00".toList = .ok (2 ^ 64 - 1) := by decide +kernel

example : indexToNumber 0 = "G01".toList ∧ indexToNumber 32 = "R01".toList ∧ indexToNumber 159 = "I07".toList := by decide +kernel
example : numberToIndex (satName 'E' 5) = .ok 62 := (C56_number_to_index 2 'E' 28 rfl 5 (by norm_num) (by norm_num)).1

/-! ## C57 -/

/-- Specification: days in a year when every fourth year is a leap year. -/
def yearLength (y : Nat) : Nat := if y % 4 = 0 then 366 else 365

/-- Specification: `(year, day of year)` of the next day. -/
def nextDay (p : Nat × Nat) : Nat × Nat := if p.2 < yearLength p.1 then (p.1, p.2 + 1) else (p.1 + 1, 1)

/-- A date with day number from 1 to the length of its year. -/
def ValidDate (p : Nat × Nat) : Prop := 1 ≤ p.2 ∧ p.2 ≤ yearLength p.1

theorem nextDay_valid (p : Nat × Nat) (h : ValidDate p) : ValidDate (nextDay p) := by
  unfold nextDay ValidDate at *
  split
  · exact ⟨by simp, by simp; omega⟩
  · exact ⟨le_rfl, by show 1 ≤ yearLength _; unfold yearLength; split <;> norm_num⟩

/-- **C57.** Merging and parsing are inverse for day numbers below 1000. -/
theorem C57_merge_parse (year doy : Nat) (hd : doy < 1000) (hy : year < 10 ^ 15) :
    parseYear (mergeYearDoy year doy) = year ∧ parseDoy (mergeYearDoy year doy) = doy ∧
    (∀ yd, yd < 2 ^ 64 → mergeYearDoy (parseYear yd) (parseDoy yd) = yd) := by
  have e : mergeYearDoy year doy = year * 1000 + doy := Nat.mod_eq_of_lt (by omega)
  refine ⟨?_, ?_, fun yd h => ?_⟩
  · rw [e, parseYear]; omega
  · rw [e, parseDoy, parseYear]; omega
  · rw [mergeYearDoy, parseDoy, parseYear, Nat.mod_eq_of_lt] <;> omega

/-- **C57.** One step from a valid date gives the next calendar day. -/
theorem C57_increment (p : Nat × Nat) (h : ValidDate p) (hy : p.1 < 10 ^ 15) :
    incrementYearDoy (mergeYearDoy p.1 p.2) = mergeYearDoy (nextDay p).1 (nextDay p).2 := by
  obtain ⟨y, d⟩ := p
  simp only [ValidDate] at h hy
  have hyl : yearLength y ≤ 366 := by unfold yearLength; split <;> omega
  have e1 : mergeYearDoy y d = y * 1000 + d := by rw [mergeYearDoy, Nat.mod_eq_of_lt (by omega)]
  have e2 : (y * 1000 + d + 1) % 2 ^ 64 = y * 1000 + d + 1 := Nat.mod_eq_of_lt (by omega)
  have e3 : (y * 1000 + d + 1) / 1000 = y := by omega
  simp only [incrementYearDoy, parseDoy, parseYear, e1, e2, e3, nextDay]
  have e4 : y * 1000 + d + 1 - y * 1000 = d + 1 := by omega
  rw [e4]
  unfold yearLength at h ⊢
  by_cases hl : y % 4 = 0
  · simp only [hl, if_true] at h ⊢
    by_cases h5 : d + 1 > 365
    · rw [if_pos h5]
      by_cases h6 : d + 1 > 366
      · rw [if_pos h6, if_neg (by omega)]
      · rw [if_neg h6, if_pos (by omega)]
    · rw [if_neg h5, if_pos (by omega)]
      simp only [mergeYearDoy]; omega
  · simp only [if_neg hl] at h ⊢
    by_cases h5 : d + 1 > 365
    · rw [if_pos h5, if_neg (by omega)]
    · rw [if_neg h5, if_pos (by omega)]
      simp only [mergeYearDoy]; omega

/-- Number of the day counted from the start of year 0, when every fourth year (0, 4, ...) is a leap year. -/
def dayCount (p : Nat × Nat) : Nat := 365 * p.1 + (p.1 + 3) / 4 + p.2

theorem dayCount_next (p : Nat × Nat) (h : ValidDate p) : dayCount (nextDay p) = dayCount p + 1 := by
  obtain ⟨y, d⟩ := p
  simp only [ValidDate] at h
  unfold nextDay dayCount
  unfold yearLength at *
  by_cases hl : y % 4 = 0
  · simp only [hl, if_true] at h ⊢
    split <;> simp only <;> omega
  · simp only [if_neg hl] at h ⊢
    split <;> simp only <;> omega

/-- **C57.** Any number `k` of steps from a valid date gives a valid date exactly `k` days later. -/
theorem C57_iterate (p : Nat × Nat) (h : ValidDate p) (k : Nat) (hy : p.1 + k < 10 ^ 15) :
    ∃ q, ValidDate q ∧ incrementYearDoy^[k] (mergeYearDoy p.1 p.2) = mergeYearDoy q.1 q.2 ∧ dayCount q = dayCount p + k := by
  have key : ∃ q, ValidDate q ∧ incrementYearDoy^[k] (mergeYearDoy p.1 p.2) = mergeYearDoy q.1 q.2 ∧ dayCount q = dayCount p + k ∧ q.1 ≤ p.1 + k := by
    induction k with
    | zero => exact ⟨p, h, rfl, rfl, le_rfl⟩
    | succ k ih =>
      obtain ⟨q, h1, h2, h3, h4⟩ := ih (by omega)
      refine ⟨nextDay q, nextDay_valid q h1, ?_, by rw [dayCount_next q h1, h3]; omega, ?_⟩
      · rw [Function.iterate_succ_apply', h2, C57_increment q h1 (by omega)]
      · unfold nextDay; split <;> simp only <;> omega
  obtain ⟨q, h1, h2, h3, _⟩ := key
  exact ⟨q, h1, h2, h3⟩

/-- **C57 (scope).** The rule is the Gregorian calendar's from 1901 to 2099; 2100, not a leap year, is given 366 days. -/
theorem C57_gregorian : (∀ y, 1901 ≤ y → y ≤ 2099 → yearLength y = if Calendar.isLeap y then 366 else 365) ∧
    incrementYearDoy 2100365 = 2100366 ∧ Calendar.isLeap 2100 = false := by
  refine ⟨?_, by decide +kernel, by decide +kernel⟩
  intro y h1 h2
  have : ∀ z < 200, yearLength (1900 + z + 0) = (if Calendar.isLeap (1900 + z) then 366 else 365) ∨ z = 0 := by decide +kernel
  obtain ⟨z, rfl⟩ : ∃ z, y = 1900 + z := ⟨y - 1900, by omega⟩
  rcases this z (by omega) with h | h
  · simpa using h
  · omega

/-- **C57.** Different days have different product file names. -/
theorem C57_file_names (header period fileType : Str) (a b : Nat) (h : orbitFileName header a period fileType = orbitFileName header b period fileType) : a = b := by
  simp only [orbitFileName, List.append_assoc] at h
  have h1 := List.append_cancel_left h
  have h2 := List.append_cancel_left h1
  exact dec_inj (List.append_cancel_right h2)

example : incrementYearDoy 2023365 = 2024001 ∧ incrementYearDoy 2024365 = 2024366 ∧ incrementYearDoy 2024366 = 2025001 := by decide +kernel
example : ValidDate (2024, 366) := by unfold ValidDate yearLength; decide
example : incrementYearDoy^[400] (mergeYearDoy 2023 100) = 2024135 := by decide +kernel

end S2E.Gnss
