import Verif.Proofs.SpaceWeather
/-!
# C165, C166: dates and the choice of space weather for NRLMSISE-00
-/
namespace S2E.SpaceWeather
open S2E.Log S2E.Sp3 S2E.Calendar

/-! ## C165: dates -/

/-- **C165 (date of a decimal year).** -/
theorem C165_date {x : ℝ} (h0 : 0 ≤ x) (h1 : x < 2 ^ 31) (d : Date) : decyearToDate x = .ok d ↔ Stands x d := by
  obtain ⟨e, he, hs⟩ := decyearToDate_spec h0 h1
  rw [he]
  constructor
  · intro h; obtain rfl := Res.ok.inj h; exact hs
  · intro h; rw [stands_unique h hs]

/-- **C165 (decimal year of a date).** -/
theorem C165_decimal {y m d : ℕ} (h : IsDay y m d) : dateToDecyear y m d = .ok (decimal y m d) := by
  rw [dateToDecyear_ok (by exact_mod_cast h.1) (by exact_mod_cast h.2.1), decimalOf_nat]

/-- **C165 (order).** Decimal years of dates are in the order of the dates. -/
theorem C165_order {a b : ℕ × ℕ × ℕ} (ha : IsDay a.1 a.2.1 a.2.2) (hb : IsDay b.1 b.2.1 b.2.2) :
    decimal a.1 a.2.1 a.2.2 < decimal b.1 b.2.1 b.2.2 ↔ Earlier a b := by
  constructor
  · intro h
    by_contra hn
    have : a = b ∨ Earlier b a := by
      obtain ⟨y, m, d⟩ := a
      obtain ⟨y', m', d'⟩ := b
      simp only [Earlier, Prod.mk.injEq] at hn ⊢
      omega
    rcases this with rfl | h'
    · exact lt_irrefl _ h
    · exact lt_asymm h (decimal_lt hb ha h')
  · exact decimal_lt ha hb

/-- **C165 (there and back).** A date comes back from its decimal year, except that 31 December comes back as 1 January of the next year. -/
theorem C165_back {y m d : ℕ} (h : IsDay y m d) (hy : y + 1 < 2 ^ 31) :
    decyearToDate (decimal y m d) = .ok (if m = 12 ∧ d = 31 then ⟨y + 1, 1, 1, 0, 0, 0⟩ else ⟨y, m, d, 0, 0, 0⟩) := by
  obtain ⟨b1, b2⟩ := decimal_bounds h
  have hy' : (y : ℝ) + 1 < 2 ^ 31 := by exact_mod_cast hy
  have hy0 : (0 : ℝ) ≤ y := Nat.cast_nonneg y
  refine (C165_date (by linarith) (by linarith) _).mpr ?_
  have hl : (0 : ℝ) < yearLen (isLeap y) := by rw [yearLen]; split_ifs <;> norm_num
  split_ifs with hc
  · obtain ⟨rfl, rfl⟩ := hc
    have e : decimal y 12 31 = y + 1 := by
      have : dayOfYear y 12 31 = yearLen (isLeap y) := by
        have := (before_vals (isLeap y)).2.2.2.2.2.2.2.2.2.2.2.1
        rw [before] at this
        rw [dayOfYear, this, yearLen]; split_ifs <;> rfl
      rw [decimal, this, div_self hl.ne']
    rw [e]
    refine ⟨by push_cast; constructor <;> linarith, ⟨1, 1, rfl, rfl, ?_, ?_⟩, by norm_num, by push_cast; simp⟩
    · exact ⟨le_rfl, by norm_num, le_rfl, by rw [monthLen]; norm_num⟩
    · push_cast; simp [dayOfYear]
  · have hlt : dayOfYear y m d < yearLen (isLeap y) := by
      obtain ⟨h1, h2, h3, h4⟩ := h
      rcases lt_or_eq_of_le h2 with hm | rfl
      · have a := before_mono (isLeap y) (show m + 1 ≤ 12 by omega)
        rw [before_succ _ h1, (before_vals (isLeap y)).2.2.2.2.2.2.2.2.2.2.2.1, before] at a
        rw [dayOfYear, yearLen]; split_ifs at a ⊢ <;> omega
      · have hd : d < 31 := lt_of_le_of_ne h4 (by omega)
        have a := (before_vals (isLeap y)).2.2.2.2.2.2.2.2.2.2.2.1
        rw [before] at a
        rw [dayOfYear, a, yearLen]; split_ifs <;> omega
    have e : (decimal y m d - y) * yearLen (isLeap y) = dayOfYear y m d := by
      rw [decimal, add_sub_cancel_left, div_mul_cancel₀ _ hl.ne']
    have hlt' : decimal y m d < y + 1 := by
      have : (dayOfYear y m d : ℝ) < yearLen (isLeap y) := by exact_mod_cast hlt
      have := (div_lt_one hl).mpr this
      rw [decimal]; linarith
    have hp : 1 ≤ dayOfYear y m d := by rw [dayOfYear]; have := h.2.2.1; omega
    refine ⟨⟨by push_cast; exact b1.le, by push_cast; exact hlt'⟩, ⟨m, d, rfl, rfl, h, ?_⟩, by norm_num, ?_⟩
    · show dayOfYear y m d = max 1 ⌊(decimal y m d - ((y : ℤ) : ℝ)) * yearLen (isLeap (y : ℤ).toNat)⌋₊
      rw [Int.toNat_natCast, Int.cast_natCast, e, Nat.floor_natCast, max_eq_right hp]
    · show (0 : ℤ) * 3600 + 0 * 60 + 0 = ⌊Int.fract ((decimal y m d - ((y : ℤ) : ℝ)) * yearLen (isLeap (y : ℤ).toNat)) * 86400⌋
      rw [Int.toNat_natCast, Int.cast_natCast, e, Int.fract_natCast]; simp

/-- **C165 (no such month).** -/
theorem C165_month {y m d : ℤ} (h : m < 1 ∨ 12 < m) : dateToDecyear y m d = .ub := by
  rw [dateToDecyear, if_neg (by omega)]

/-- 29 February 2024 is a date of the calendar, and noon of day 100 of 2023 stands for 10 April, 12 hours. -/
example : IsDay 2024 2 29 ∧ decyearToDate (decimal 2024 2 29) = .ok ⟨2024, 2, 29, 0, 0, 0⟩ ∧ decyearToDate (2023 + 100.5 / 365) = .ok ⟨2023, 4, 10, 12, 0, 0⟩ := by
  have h1 : IsDay 2024 2 29 := by unfold IsDay; decide
  refine ⟨h1, ?_, (C165_date (by norm_num) (by norm_num) _).mpr ?_⟩
  · have := C165_back h1 (by norm_num)
    simpa using this
  · have e : ((2023 : ℝ) + 100.5 / 365 - ((2023 : ℤ) : ℝ)) * yearLen (isLeap (2023 : ℤ).toNat) = (100 : ℕ) + 0.5 := by
      rw [show isLeap (2023 : ℤ).toNat = false by decide]; norm_num [yearLen]
    refine ⟨by norm_num, ⟨4, 10, rfl, rfl, by unfold IsDay; decide, ?_⟩, by norm_num, ?_⟩
    · show dayOfYear 2023 4 10 = max 1 ⌊((2023 : ℝ) + 100.5 / 365 - ((2023 : ℤ) : ℝ)) * yearLen (isLeap (2023 : ℤ).toNat)⌋₊
      rw [e, show ⌊((100 : ℕ) : ℝ) + 0.5⌋₊ = 100 by rw [Nat.floor_eq_iff (by positivity)]; norm_num]
      decide
    · show (12 : ℤ) * 3600 + 0 * 60 + 0 = ⌊Int.fract (((2023 : ℝ) + 100.5 / 365 - ((2023 : ℤ) : ℝ)) * yearLen (isLeap (2023 : ℤ).toNat)) * 86400⌋
      rw [e, Int.fract_natCast_add, Int.fract_eq_self.mpr (by norm_num)]
      norm_num

/-! ## C166: what the density model is given -/

theorem first_findIdx {α : Type} (p : α → Bool) (l : List α) (h : l.findIdx p < l.length) : First (fun a => p a = true) l l[l.findIdx p] := by
  refine ⟨l.take (l.findIdx p), l.drop (l.findIdx p + 1), ?_, List.findIdx_getElem, ?_⟩
  · rw [← List.drop_eq_getElem_cons, List.take_append_drop]
  · intro s hs
    obtain ⟨i, hi, rfl⟩ := List.getElem_of_mem hs
    have hi' : i < l.findIdx p := by rw [List.length_take] at hi; omega
    rw [List.getElem_take]
    simpa using List.not_of_lt_findIdx hi'

theorem first_unique {α : Type} {p : α → Prop} {l : List α} {r s : α} (h : First p l r) (h' : First p l s) : r = s := by
  obtain ⟨a, b, e, hp, hn⟩ := h
  obtain ⟨a', b', e', hp', hn'⟩ := h'
  rw [e] at e'
  rcases List.append_eq_append_iff.mp e' with ⟨c, h1, h2⟩ | ⟨c, h1, h2⟩
  · rcases c with _ | ⟨x, c⟩
    · simpa using (List.cons.inj h2).1
    · have : x = r := (List.cons.inj h2).1.symm
      exact absurd hp (this ▸ hn' x (by rw [h1]; simp))
  · rcases c with _ | ⟨x, c⟩
    · simpa using (List.cons.inj h2).1.symm
    · have : x = s := (List.cons.inj h2).1.symm
      exact absurd hp' (this ▸ hn x (by rw [h1]; simp))

theorem search_used (daily : Bool) (d : Date) (table : List Row) (h : table ≠ []) :
    ∃ r, table[search daily d table]? = some r ∧ Used (daily = true) d table r := by
  have hp : ∀ r : Row, ((if daily then d.year == r.year && d.month == r.month && d.day == r.day else d.year == r.year && d.month == r.month) = true) ↔
      (r.year = d.year ∧ r.month = d.month ∧ (daily = true → r.day = d.day)) := by
    intro r
    cases daily <;> simp [and_assoc] <;> grind
  unfold search
  set p := fun r : Row => if daily then d.year == r.year && d.month == r.month && d.day == r.day else d.year == r.year && d.month == r.month with hpd
  have hp' : (fun r => p r = true) = fun r : Row => r.year = d.year ∧ r.month = d.month ∧ (daily = true → r.day = d.day) := funext fun r => propext (hp r)
  by_cases hi : table.findIdx p < table.length
  · simp only [if_pos hi]
    refine ⟨table[table.findIdx p], List.getElem?_eq_getElem hi, Or.inl ?_⟩
    have := first_findIdx p table hi
    rwa [hp'] at this
  · simp only [if_neg hi]
    obtain ⟨r, t, rfl⟩ := List.exists_cons_of_ne_nil h
    refine ⟨r, rfl, Or.inr ⟨fun s hs hf => hi ?_, rfl⟩⟩
    exact List.findIdx_lt_length.mpr ⟨s, hs, (hp s).mpr hf⟩

theorem used_unique {daily : Prop} {d : Date} {table : List Row} {r s : Row} (h : Used daily d table r) (h' : Used daily d table s) : r = s := by
  rcases h with h | ⟨h, e⟩ <;> rcases h' with h' | ⟨h', e'⟩
  · exact first_unique h h'
  · obtain ⟨a, b, rfl, hr, -⟩ := h
    exact absurd hr (h' r (by simp))
  · obtain ⟨a, b, rfl, hr, -⟩ := h'
    exact absurd hr (h s (by simp))
  · rw [e] at e'; exact Option.some.inj e'

theorem calc_start {x : ℝ} (h0 : 0 ≤ x) (h1 : x < 2 ^ 31) {d : Date} (hd : Stands x d) :
    decyearToDate x = .ok d ∧ toInt32 x = .ok d.year ∧ toInt32 ((x - d.year) * 365.25) = .ok ⌊(x - d.year) * 365.25⌋ := by
  have hf : ⌊x⌋ = d.year := Int.floor_eq_iff.mpr hd.year
  refine ⟨(C165_date h0 h1 d).mpr hd, hf ▸ toInt32_floor h0 h1, toInt32_floor ?_ ?_⟩
  · have := hd.year.1; exact mul_nonneg (by linarith) (by norm_num)
  · have := hd.year.2; norm_num; linarith

theorem mkInput_eq (x : ℝ) (d : Date) (lat lon alt f107A f107 ap : ℝ) :
    mkInput d ⌊(x - d.year) * 365.25⌋ lat lon alt f107A f107 ap = given x d lat lon alt f107A f107 ap := by
  simp only [mkInput, given]
  congr 1 <;> ring

/-- **C166 (manual parameters).** The table is not used. -/
theorem C166_manual (gtd7 : Input → ℝ) (monthly lat lon alt : ℝ) (table : List Row) (p : Manual) {x : ℝ} (h0 : 0 ≤ x) (h1 : x < 2 ^ 31) {d : Date} (hd : Stands x d) :
    calcNrlmsise00 gtd7 monthly x lat lon alt table (some p) = .ok (gtd7 (given x d lat lon alt p.f107A p.f107 p.ap)) := by
  obtain ⟨e1, e2, e3⟩ := calc_start h0 h1 hd
  unfold calcNrlmsise00
  rw [e1]; simp only [Res.bind, e2, e3, mkInput_eq]

/-- **C166 (table).** Without manual parameters: zero for an empty table, else the centred 81-day average, the daily F10.7 and the Ap index of the row for the day, for the month from the monthly
part on, and of the first row if there is none. -/
theorem C166_table (gtd7 : Input → ℝ) (monthly lat lon alt : ℝ) (table : List Row) {x : ℝ} (h0 : 0 ≤ x) (h1 : x < 2 ^ 31) {d : Date} (hd : Stands x d) (v : ℝ) :
    calcNrlmsise00 gtd7 monthly x lat lon alt table none = .ok v ↔
      table = [] ∧ v = 0 ∨ ∃ r, Used (x < monthly) d table r ∧ v = gtd7 (given x d lat lon alt r.ctr81Adj r.f107Adj r.ap) := by
  obtain ⟨e1, e2, e3⟩ := calc_start h0 h1 hd
  unfold calcNrlmsise00
  rw [e1]; simp only [Res.bind, e2, e3, mkInput_eq]
  rcases table with _ | ⟨a, t⟩
  · simp only [List.length_nil, if_true]
    constructor
    · intro h; exact Or.inl ⟨trivial, (Res.ok.inj h).symm⟩
    · rintro (⟨-, rfl⟩ | ⟨r, hr, -⟩)
      · rfl
      · rcases hr with ⟨_, _, e, -⟩ | ⟨-, e⟩ <;> simp at e
  · rw [if_neg (by simp)]
    obtain ⟨r, hr, hu⟩ := search_used (@decide (x < monthly) (Classical.propDecidable _)) d (a :: t) (by simp)
    rw [hr]
    simp only [decide_eq_true_eq] at hu
    constructor
    · intro h; exact Or.inr ⟨r, hu, (Res.ok.inj h).symm⟩
    · rintro (⟨h, -⟩ | ⟨s, hs, rfl⟩)
      · exact absurd h (by simp)
      · rw [used_unique hs hu]

/-- **C166 (always an answer).** For every decimal year and every table a density is calculated; a missing row is no error. -/
theorem C166_total (gtd7 : Input → ℝ) (monthly lat lon alt : ℝ) (table : List Row) (p : Option Manual) {x : ℝ} (h0 : 0 ≤ x) (h1 : x < 2 ^ 31) :
    ∃ v, calcNrlmsise00 gtd7 monthly x lat lon alt table p = .ok v := by
  obtain ⟨d, -, hd⟩ := decyearToDate_spec h0 h1
  rcases p with _ | p
  · rcases table with _ | ⟨a, t⟩
    · exact ⟨0, (C166_table gtd7 monthly lat lon alt [] h0 h1 hd 0).mpr (Or.inl ⟨rfl, rfl⟩)⟩
    · obtain ⟨r, -, hu⟩ := search_used (@decide (x < monthly) (Classical.propDecidable _)) d (a :: t) (by simp)
      simp only [decide_eq_true_eq] at hu
      exact ⟨_, (C166_table gtd7 monthly lat lon alt (a :: t) h0 h1 hd _).mpr (Or.inr ⟨r, hu, rfl⟩)⟩
  · exact ⟨_, C166_manual gtd7 monthly lat lon alt table p h0 h1 hd⟩

/-- A table with two rows in January 2023, the second used on day 3 in its daily part, the first in its monthly part. -/
example : let a : Row := ⟨2023, 1, 2, 10, 150, 151, 0, 0, 0, 0⟩
    let b : Row := ⟨2023, 1, 3, 20, 160, 161, 0, 0, 0, 0⟩
    Used True ⟨2023, 1, 3, 0, 0, 0⟩ [a, b] b ∧ Used False ⟨2023, 1, 3, 0, 0, 0⟩ [a, b] a ∧ Used True ⟨2023, 1, 4, 0, 0, 0⟩ [a, b] a := by
  refine ⟨Or.inl ⟨[_], [], rfl, by simp, by simp⟩, Or.inl ⟨[], [_], rfl, by simp, by simp⟩, Or.inr ⟨by simp, rfl⟩⟩

end S2E.SpaceWeather
