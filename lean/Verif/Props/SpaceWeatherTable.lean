import Verif.Props.SpaceWeather
import Verif.Props.Julian
/-!
# C167, C168, C169: the space weather file, its rows during a run, and the date of the simulation time
-/
namespace S2E.SpaceWeather
open S2E.Log S2E.Sp3 S2E.Calendar

/-! ## C167: the file -/

theorem data_iff (l : Str) : (!(cols l 0 4).all Char.isDigit || (cols l 0 4).isEmpty) = false ↔ IsData l := by
  simp only [IsData, Bool.or_eq_false_iff, Bool.not_eq_false', List.all_eq_true, List.isEmpty_eq_false_iff, and_comm]

theorem not_both {l : Str} (h : IsData l) : ¬IsUpdate l := by
  intro hu
  have := h.2 'U' (by rw [hu]; decide)
  exact absurd this (by decide)

theorem monthNum_name {k : ℕ} (hk : k < 12) : monthNum (months.getD k "").toList = k + 1 := by
  have : ∀ k : Fin 12, monthNum (months.getD k "").toList = (k : ℕ) + 1 := by decide
  exact this ⟨k, hk⟩

theorem monthNum_cases (s : Str) : (∃ k < 12, s = (months.getD k "").toList ∧ monthNum s = (k : ℤ) + 1) ∨ monthNum s = 0 := by
  by_cases h : ∃ k < 12, s = (months.getD k "").toList
  · obtain ⟨k, hk, rfl⟩ := h
    exact Or.inl ⟨k, hk, rfl, monthNum_name hk⟩
  · right
    push Not at h
    have h0 : ∀ k < 12, ¬s = (months.getD k "").toList := h
    unfold monthNum
    refine (if_neg (h0 0 (by norm_num))).trans ?_
    refine (if_neg (h0 1 (by norm_num))).trans ?_
    refine (if_neg (h0 2 (by norm_num))).trans ?_
    refine (if_neg (h0 3 (by norm_num))).trans ?_
    refine (if_neg (h0 4 (by norm_num))).trans ?_
    refine (if_neg (h0 5 (by norm_num))).trans ?_
    refine (if_neg (h0 6 (by norm_num))).trans ?_
    refine (if_neg (h0 7 (by norm_num))).trans ?_
    refine (if_neg (h0 8 (by norm_num))).trans ?_
    refine (if_neg (h0 9 (by norm_num))).trans ?_
    refine (if_neg (h0 10 (by norm_num))).trans ?_
    refine (if_neg (h0 11 (by norm_num))).trans ?_
    rfl

theorem name_unique {k k' : ℕ} (hk : k < 12) (hk' : k' < 12) (h : (months.getD k "").toList = (months.getD k' "").toList) : k = k' := by
  have a := monthNum_name hk
  rw [h, monthNum_name hk'] at a
  omega

theorem int_cols {c : Conv} {l : Str} {a n : ℕ} (h : a ≤ l.length) : c.int l a n = .ok (c.atoi (cols l a n)) := by
  rw [Conv.int, substr_ok h]; rfl

theorem int_short {c : Conv} {l : Str} {a n : ℕ} (h : l.length < a) : c.int l a n = .throws := by
  rw [Conv.int, substr_throws h]; rfl

theorem real_cols {c : Conv} {l : Str} {a n : ℕ} (h : a ≤ l.length) : c.real l a n = .ok (c.atof (cols l a n)) := by
  rw [Conv.real, substr_ok h]; rfl

theorem real_short {c : Conv} {l : Str} {a n : ℕ} (h : l.length < a) : c.real l a n = .throws := by
  rw [Conv.real, substr_throws h]; rfl

theorem readUpdate_ok {c : Conv} {l : Str} {k : ℕ} (h : 17 ≤ l.length) (hk : k < 11) (hm : cols l 13 3 = (months.getD k "").toList) :
    readUpdate c l = .ok (updateTime c l k) := by
  unfold readUpdate
  rw [int_cols (by omega), substr_ok (by omega), int_cols h]
  simp only [Res.bind, hm, monthNum_name (show k < 12 by omega)]
  rw [dateToDecyear_ok (by omega) (by omega)]
  have hn : (daysMonth false)[((k : ℤ) + 1).toNat]? = some (monthLen false (k + 2) : ℤ) := by
    have : ∀ k : Fin 11, (daysMonth false)[((k : ℕ) : ℤ) + 1 |>.toNat]? = some (monthLen false ((k : ℕ) + 2) : ℤ) := by decide
    exact this ⟨k, hk⟩
  simp only [hn, updateTime]
  push_cast; rfl

theorem readUpdate_short {c : Conv} {l : Str} (h : l.length < 17) : readUpdate c l = .throws := by
  unfold readUpdate
  by_cases h8 : l.length < 8
  · rw [int_short h8]; rfl
  rw [int_cols (by omega)]
  simp only [Res.bind]
  by_cases h13 : l.length < 13
  · rw [substr_throws h13]
  rw [substr_ok (by omega)]
  simp only [int_short h]

theorem readUpdate_month {c : Conv} {l : Str} (h : 17 ≤ l.length) (hm : ∀ k < 11, cols l 13 3 ≠ (months.getD k "").toList) : readUpdate c l = .ub := by
  unfold readUpdate
  rw [int_cols (by omega), substr_ok (by omega), int_cols h]
  simp only [Res.bind]
  rcases monthNum_cases (cols l 13 3) with ⟨k, hk, e, hn⟩ | hn
  · obtain rfl : k = 11 := by
      by_contra hne
      exact hm k (by omega) e
    rw [hn, dateToDecyear_ok (by norm_num) (by norm_num)]
    rfl
  · rw [hn, C165_month (by norm_num)]

theorem readRow_ok {c : Conv} {l : Str} {y m d : ℤ} (h : 125 ≤ l.length) : readRow c l y m d =
    .ok ⟨y, m, d, c.atof (cols l 80 3), c.atof (cols l 93 5), c.atof (cols l 101 5), c.atof (cols l 107 5), c.atof (cols l 113 5), c.atof (cols l 119 5), c.atof (cols l 125 5)⟩ := by
  unfold readRow
  rw [real_cols (by omega), real_cols (by omega), real_cols (by omega), real_cols (by omega), real_cols (by omega), real_cols (by omega), real_cols h]
  rfl

theorem real_total (c : Conv) (l : Str) (a n : ℕ) : c.real l a n = .throws ∨ ∃ v, c.real l a n = .ok v := by
  by_cases h : a ≤ l.length
  · exact Or.inr ⟨_, real_cols h⟩
  · exact Or.inl (real_short (by omega))

theorem readRow_short {c : Conv} {l : Str} {y m d : ℤ} (h : l.length < 125) : readRow c l y m d = .throws := by
  unfold readRow
  rcases real_total c l 80 3 with e | ⟨_, e⟩ <;> rw [e] <;> simp only [Res.bind]
  rcases real_total c l 93 5 with e | ⟨_, e⟩ <;> rw [e] <;> simp only
  rcases real_total c l 101 5 with e | ⟨_, e⟩ <;> rw [e] <;> simp only
  rcases real_total c l 107 5 with e | ⟨_, e⟩ <;> rw [e] <;> simp only
  rcases real_total c l 113 5 with e | ⟨_, e⟩ <;> rw [e] <;> simp only
  rcases real_total c l 119 5 with e | ⟨_, e⟩ <;> rw [e] <;> simp only
  rw [real_short h]

/-- Months that exist. -/
def HasMonth (d : Date) : Prop := 1 ≤ d.month ∧ d.month ≤ 12

theorem stands_month {x : ℝ} {d : Date} (h : Stands x d) : HasMonth d := by
  obtain ⟨m, n, e, -, i, -⟩ := h.day
  exact ⟨by rw [e]; exact_mod_cast i.1, by rw [e]; exact_mod_cast i.2.1⟩

open Classical in
theorem step_data {c : Conv} {ini fin : Date} (hi : HasMonth ini) (hf : HasMonth fin) {l : Str} (h : IsData l) (s : ℝ × List Row) :
    (l.length < 8 → step c ini fin l s = .throws) ∧
    (8 ≤ l.length → ¬(1 ≤ c.atoi (cols l 5 2) ∧ c.atoi (cols l 5 2) ≤ 12) → step c ini fin l s = .ub) ∧
    (8 ≤ l.length → (1 ≤ c.atoi (cols l 5 2) ∧ c.atoi (cols l 5 2) ≤ 12) → ¬Kept c ini fin l → step c ini fin l s = .ok s) ∧
    (8 ≤ l.length → (1 ≤ c.atoi (cols l 5 2) ∧ c.atoi (cols l 5 2) ≤ 12) → Kept c ini fin l → l.length < 125 → step c ini fin l s = .throws) ∧
    ((1 ≤ c.atoi (cols l 5 2) ∧ c.atoi (cols l 5 2) ≤ 12) → Kept c ini fin l → 125 ≤ l.length → step c ini fin l s = .ok (s.1, s.2 ++ [rowOf c l])) := by
  have hd := (data_iff l).mpr h
  have start : step c ini fin l s = (c.int l 5 2).bind fun m => (c.int l 8 2).bind fun d => (dateToDecyear (c.atoi (cols l 0 4)) m d).bind fun t =>
      (dateToDecyear ini.year ini.month ini.day).bind fun a => (dateToDecyear fin.year fin.month fin.day).bind fun b =>
        if t < a - 31 / 365 ∨ t > b then .ok s else (readRow c l (c.atoi (cols l 0 4)) m d).bind fun r => .ok (s.1, s.2 ++ [r]) := by
    unfold step
    rw [substr_ok (Nat.zero_le _)]
    have hd' : ¬(!(cols l 0 4).all Char.isDigit || (cols l 0 4).isEmpty) = true := by rw [hd]; simp
    rw [Res.bind]
    simp only
    rw [if_neg hd']
  have hkept : 8 ≤ l.length → (1 ≤ c.atoi (cols l 5 2) ∧ c.atoi (cols l 5 2) ≤ 12) → step c ini fin l s =
      @ite _ (¬Kept c ini fin l) (Classical.propDecidable _) (.ok s)
        ((readRow c l (c.atoi (cols l 0 4)) (c.atoi (cols l 5 2)) (c.atoi (cols l 8 2))).bind fun r => .ok (s.1, s.2 ++ [r])) := by
    intro h8 hm
    rw [start, int_cols (by omega), int_cols h8]
    simp only [Res.bind]
    rw [dateToDecyear_ok hm.1 hm.2, dateToDecyear_ok hi.1 hi.2, dateToDecyear_ok hf.1 hf.2]
    simp only
    have : (decimalOf (c.atoi (cols l 0 4)) (c.atoi (cols l 5 2)) (c.atoi (cols l 8 2)) < decimalOf ini.year ini.month ini.day - 31 / 365 ∨
        decimalOf (c.atoi (cols l 0 4)) (c.atoi (cols l 5 2)) (c.atoi (cols l 8 2)) > decimalOf fin.year fin.month fin.day) ↔ ¬Kept c ini fin l := by
      rw [Kept, not_and_or, not_le, not_le]; rfl
    split_ifs with h1 h2 h2
    · exact absurd h2 (this.mp h1)
    · rfl
    · rfl
    · exact absurd (this.mpr h2) h1
  refine ⟨fun h8 => ?_, fun h8 hm => ?_, fun h8 hm hk => ?_, fun h8 hm hk hl => ?_, fun hm hk hl => ?_⟩
  · rw [start]
    by_cases h5 : l.length < 5
    · rw [int_short h5]; rfl
    · rw [int_cols (by omega)]; simp only [Res.bind, int_short h8]
  · rw [start, int_cols (by omega), int_cols h8]
    simp only [Res.bind]
    rw [C165_month (by omega)]
  · rw [hkept h8 hm]; exact if_pos hk
  · rw [hkept h8 hm]
    refine (if_neg (not_not.mpr hk)).trans ?_
    rw [readRow_short hl]; rfl
  · rw [hkept (by omega) hm]
    refine (if_neg (not_not.mpr hk)).trans ?_
    rw [readRow_ok hl]; rfl

theorem step_other {c : Conv} {ini fin : Date} {l : Str} (h : ¬IsData l) (s : ℝ × List Row) :
    (IsUpdate l → step c ini fin l s = (readUpdate c l).bind fun m => .ok (m, s.2)) ∧ (¬IsUpdate l → step c ini fin l s = .ok s) := by
  have hd : (!(cols l 0 4).all Char.isDigit || (cols l 0 4).isEmpty) = true := by
    rw [← Bool.not_eq_false]; exact fun e => h ((data_iff l).mp e)
  constructor
  · intro hu
    unfold step
    rw [substr_ok (Nat.zero_le _)]
    simp only [Res.bind]
    rw [if_pos hd]
    exact if_pos hu
  · intro hu
    unfold step
    rw [substr_ok (Nat.zero_le _)]
    simp only [Res.bind]
    rw [if_pos hd]
    exact if_neg hu

/-- What a good line does. -/
theorem step_good {c : Conv} {ini fin : Date} (hi : HasMonth ini) (hf : HasMonth fin) {l : Str} (h : Good c ini fin l) (s : ℝ × List Row) :
    ∃ m, step c ini fin l s = .ok (m, s.2 ++ rows c ini fin [l]) ∧ Monthly c [l] s.1 m := by
  by_cases hd : IsData l
  · obtain ⟨h8, m1, m2, h125⟩ := h.1 hd
    obtain ⟨-, -, a3, -, a5⟩ := step_data (c := c) hi hf hd s
    refine ⟨s.1, ?_, Or.inr ⟨by simpa using not_both hd, rfl⟩⟩
    by_cases hk : Kept c ini fin l
    · rw [a5 ⟨m1, m2⟩ hk (h125 hk), rows, List.filter_cons_of_pos (by simpa using ⟨hd, hk⟩)]; rfl
    · rw [a3 h8 ⟨m1, m2⟩ hk, rows, List.filter_cons_of_neg (by simp [hk])]; simp
  · have hr : rows c ini fin [l] = [] := by rw [rows, List.filter_cons_of_neg (by simp [hd])]; rfl
    rw [hr, List.append_nil]
    by_cases hu : IsUpdate l
    · obtain ⟨h17, k, hk, e⟩ := h.2 hu
      refine ⟨updateTime c l k, ?_, Or.inl ⟨[], l, [], k, rfl, hu, by simp, hk, e, rfl⟩⟩
      rw [(step_other hd s).1 hu, readUpdate_ok h17 hk e]; rfl
    · exact ⟨s.1, (step_other hd s).2 hu, Or.inr ⟨by simpa using hu, rfl⟩⟩

theorem step_bad {c : Conv} {ini fin : Date} (hi : HasMonth ini) (hf : HasMonth fin) {l : Str} {r : Res (ℝ × List Row)} (h : Stops c ini fin l r) (s : ℝ × List Row) :
    step c ini fin l s = r := by
  cases h with
  | date h h8 => exact (step_data hi hf h s).1 h8
  | month h h8 hm => exact (step_data hi hf h s).2.1 h8 (by omega)
  | short h h8 hm hk hl => exact (step_data hi hf h s).2.2.2.1 h8 hm hk hl
  | update h hl => rw [(step_other (fun hd => not_both hd h) s).1 h, readUpdate_short hl]; rfl
  | december h hl hm => rw [(step_other (fun hd => not_both hd h) s).1 h, readUpdate_month hl hm]; rfl

theorem stops_of_bad {c : Conv} {ini fin : Date} {l : Str} (h : ¬Good c ini fin l) : Stops c ini fin l .throws ∨ Stops c ini fin l .ub := by
  by_cases hd : IsData l
  · by_cases h8 : l.length < 8
    · exact Or.inl (.date hd h8)
    by_cases hm : 1 ≤ c.atoi (cols l 5 2) ∧ c.atoi (cols l 5 2) ≤ 12
    · by_cases hk : Kept c ini fin l
      · by_cases hl : l.length < 125
        · exact Or.inl (.short hd (by omega) hm hk hl)
        · exact absurd ⟨fun _ => ⟨by omega, hm.1, hm.2, fun _ => by omega⟩, fun hu => absurd hu (not_both hd)⟩ h
      · exact absurd ⟨fun _ => ⟨by omega, hm.1, hm.2, fun hk' => absurd hk' hk⟩, fun hu => absurd hu (not_both hd)⟩ h
    · exact Or.inr (.month hd (by omega) (by omega))
  · by_cases hu : IsUpdate l
    · by_cases hl : l.length < 17
      · exact Or.inl (.update hu hl)
      · by_cases hm : ∃ k < 11, cols l 13 3 = (months.getD k "").toList
        · exact absurd ⟨fun hd' => absurd hd' hd, fun _ => ⟨by omega, hm⟩⟩ h
        · push Not at hm
          exact Or.inr (.december hu (by omega) hm)
    · exact absurd ⟨fun hd' => absurd hd' hd, fun hu' => absurd hu' hu⟩ h

theorem monthly_trans {c : Conv} {A B : List Str} {u v w : ℝ} (h : Monthly c A u v) (h' : Monthly c B v w) : Monthly c (A ++ B) u w := by
  rcases h' with ⟨P, l, Q, k, e, hl, hQ, hk, hm, hw⟩ | ⟨hB, rfl⟩
  · exact Or.inl ⟨A ++ P, l, Q, k, by rw [e]; simp, hl, hQ, hk, hm, hw⟩
  · rcases h with ⟨P, l, Q, k, e, hl, hQ, hk, hm, hw⟩ | ⟨hA, rfl⟩
    · refine Or.inl ⟨P, l, Q ++ B, k, by rw [e]; simp, hl, fun m hm => ?_, hk, hm, hw⟩
      rcases List.mem_append.mp hm with h | h
      · exact hQ m h
      · exact hB m h
    · refine Or.inr ⟨fun m hm => ?_, rfl⟩
      rcases List.mem_append.mp hm with h | h
      · exact hA m h
      · exact hB m h

theorem last_unique {α : Type} {p : α → Prop} {A B A' B' : List α} {r s : α} (e : A ++ r :: B = A' ++ s :: B') (hr : p r) (hs : p s) (hB : ∀ m ∈ B, ¬p m) (hB' : ∀ m ∈ B', ¬p m) :
    r = s := by
  rcases List.append_eq_append_iff.mp e with ⟨c, h1, h2⟩ | ⟨c, h1, h2⟩
  · rcases c with _ | ⟨x, c⟩
    · simpa using (List.cons.inj h2).1
    · exact absurd hs (hB s (by rw [(List.cons.inj h2).2]; simp))
  · rcases c with _ | ⟨x, c⟩
    · simpa using (List.cons.inj h2).1.symm
    · exact absurd hr (hB' r (by rw [(List.cons.inj h2).2]; simp))

theorem monthly_unique {c : Conv} {L : List Str} {u v w : ℝ} (h : Monthly c L u v) (h' : Monthly c L u w) : v = w := by
  rcases h with ⟨P, l, Q, k, e, hl, hQ, hk, hm, hv⟩ | ⟨hL, rfl⟩ <;> rcases h' with ⟨P', l', Q', k', e', hl', hQ', hk', hm', hw⟩ | ⟨hL', rfl⟩
  · obtain rfl := last_unique (e.symm.trans e') hl hl' hQ hQ'
    obtain rfl := name_unique (by omega) (by omega) (hm.symm.trans hm')
    rw [hv, hw]
  · exact absurd hl (hL' l (by rw [e]; simp))
  · exact absurd hl' (hL l' (by rw [e']; simp))
  · rfl

theorem rows_cons (c : Conv) (ini fin : Date) (l : Str) (L : List Str) : rows c ini fin (l :: L) = rows c ini fin [l] ++ rows c ini fin L := by
  rw [rows, rows, rows, ← List.map_append, ← List.filter_append]; rfl

theorem readLoop_good {c : Conv} {ini fin : Date} (hi : HasMonth ini) (hf : HasMonth fin) {L : List Str} : ∀ {n : ℕ} {f : Stream} {x : Str} {s : ℝ × List Row},
    Holds f L → L.length < n → (∀ l ∈ L, Good c ini fin l) → ∃ m, readLoop c ini fin n f x s = .ok (m, s.2 ++ rows c ini fin L) ∧ Monthly c L s.1 m := by
  induction L with
  | nil =>
    intro n f x s hh hn _
    rcases n with _ | n
    · omega
    refine ⟨s.1, ?_, Or.inr ⟨by simp, rfl⟩⟩
    unfold readLoop
    rcases holds_nil hh with ⟨-, e⟩ | ⟨-, e⟩ <;> rw [e x] <;> simp [rows]
  | cons l L ih =>
    intro n f x s hh hn hg
    rcases n with _ | n
    · omega
    obtain ⟨f', e, hh'⟩ := holds_getline hh
    obtain ⟨m, e1, hm⟩ := step_good hi hf (hg l (by simp)) s
    obtain ⟨m', e2, hm'⟩ := ih (n := n) (x := l) (s := (m, s.2 ++ rows c ini fin [l])) hh' (by simpa using hn) fun k hk => hg k (by simp [hk])
    refine ⟨m', ?_, monthly_trans (A := [l]) hm hm'⟩
    unfold readLoop
    rw [e x]
    simp only
    rw [if_neg (by rw [hh'.2.1]; simp), e1]
    simp only [Res.bind]
    rw [e2, rows_cons c ini fin l L, List.append_assoc]

theorem readLoop_bad {c : Conv} {ini fin : Date} (hi : HasMonth ini) (hf : HasMonth fin) {l : Str} {B : List Str} {r : Res (ℝ × List Row)} (hl : Stops c ini fin l r) {A : List Str} :
    ∀ {n : ℕ} {f : Stream} {x : Str} {s : ℝ × List Row}, Holds f (A ++ l :: B) → A.length < n → (∀ l ∈ A, Good c ini fin l) → readLoop c ini fin n f x s = r := by
  induction A with
  | nil =>
    intro n f x s hh hn _
    rcases n with _ | n
    · omega
    obtain ⟨f', e, hh'⟩ := holds_getline hh
    unfold readLoop
    rw [e x]
    simp only
    rw [if_neg (by rw [hh'.2.1]; simp), step_bad hi hf hl]
    cases hl <;> rfl
  | cons a A ih =>
    intro n f x s hh hn hg
    rcases n with _ | n
    · omega
    obtain ⟨f', e, hh'⟩ := holds_getline hh
    obtain ⟨m, e1, hm⟩ := step_good hi hf (hg a (by simp)) s
    unfold readLoop
    rw [e x]
    simp only
    rw [if_neg (by rw [hh'.2.1]; simp), e1]
    simp only [Res.bind]
    exact ih hh' (by simpa using hn) fun k hk => hg k (by simp [hk])

theorem getTable_eq {c : Conv} {n : ℕ} {x endsec : ℝ} {ini fin : Date} (hr : Run x endsec ini fin) (s : ℝ × List Row) (f : Str) :
    getTable c n x endsec s (some f) = (readLoop c ini fin n ⟨f, false, false⟩ [] s).bind fun s => .ok (s.2.length, s) := by
  unfold getTable
  rw [(C165_date hr.start.1 hr.start.2.1 _).mpr hr.start.2.2, (C165_date hr.stop.1 hr.stop.2.1 _).mpr hr.stop.2.2]
  rfl

/-- **C167 (table).** The file is read to its end exactly if each of its lines is good; then the rows in the period are appended in their order, the monthly part begins where the last update line says and the
size of the table is returned. -/
theorem C167_table (c : Conv) {x endsec : ℝ} {ini fin : Date} (hr : Run x endsec ini fin) {f : Str} {L : List Str} (hL : IsLines f L) {n : ℕ} (hn : L.length < n)
    (mo : ℝ) (table : List Row) (k : ℕ) (mo' : ℝ) (table' : List Row) :
    getTable c n x endsec (mo, table) (some f) = .ok (k, mo', table') ↔
      (∀ l ∈ L, Good c ini fin l) ∧ table' = table ++ rows c ini fin L ∧ Monthly c L mo mo' ∧ k = table'.length := by
  have hi := stands_month hr.start.2.2
  have hf := stands_month hr.stop.2.2
  rw [getTable_eq hr]
  by_cases hg : ∀ l ∈ L, Good c ini fin l
  · obtain ⟨m, e, hm⟩ := readLoop_good (c := c) hi hf (x := []) (s := (mo, table)) hL.holds hn hg
    rw [e]
    simp only [Res.bind]
    constructor
    · intro h
      obtain ⟨rfl, rfl, rfl⟩ := by simpa using Res.ok.inj h
      exact ⟨hg, rfl, hm, by simp⟩
    · rintro ⟨-, rfl, hm', rfl⟩
      rw [monthly_unique hm' hm]
  · refine ⟨fun h => ?_, fun h => absurd h.1 hg⟩
    push Not at hg
    obtain ⟨l, hl, hb⟩ := hg
    have : ∃ A l B, L = A ++ l :: B ∧ (∀ m ∈ A, Good c ini fin m) ∧ ¬Good c ini fin l := by
      clear hL hn h
      induction L with
      | nil => simp at hl
      | cons a L ih =>
        by_cases ha : Good c ini fin a
        · obtain ⟨A, m, B, rfl, h1, h2⟩ := ih (by
            rcases List.mem_cons.mp hl with rfl | h
            · exact absurd ha hb
            · exact h)
          exact ⟨a :: A, m, B, rfl, by simpa using ⟨ha, h1⟩, h2⟩
        · exact ⟨[], a, L, rfl, by simp, ha⟩
    obtain ⟨A, m, B, rfl, h1, h2⟩ := this
    rcases stops_of_bad h2 with hs | hs
    · rw [readLoop_bad hi hf hs hL.holds (by simp at hn; omega) h1] at h; cases h
    · rw [readLoop_bad hi hf hs hL.holds (by simp at hn; omega) h1] at h; cases h

/-- **C167 (failures).** The first line that is not good ends the program: by an exception if it is too short, undefined if its month does not exist or the table was updated in December. -/
theorem C167_stops (c : Conv) {x endsec : ℝ} {ini fin : Date} (hr : Run x endsec ini fin) {f : Str} {A : List Str} {l : Str} {B : List Str} (hL : IsLines f (A ++ l :: B)) {n : ℕ} (hn : A.length < n)
    (s : ℝ × List Row) (hA : ∀ m ∈ A, Good c ini fin m) :
    (Stops c ini fin l .throws → getTable c n x endsec s (some f) = .throws) ∧ (Stops c ini fin l .ub → getTable c n x endsec s (some f) = .ub) := by
  have hi := stands_month hr.start.2.2
  have hf := stands_month hr.stop.2.2
  rw [getTable_eq hr]
  constructor <;> intro hs <;> rw [readLoop_bad hi hf hs hL.holds hn hA] <;> rfl

/-- **C167 (no file).** -/
theorem C167_missing (c : Conv) (n : ℕ) (x endsec : ℝ) (s : ℝ × List Row) : getTable c n x endsec s none = .ok (0, s) := rfl

/-! ## C168: the rows of a run -/

theorem stands_decimal_le {x x' : ℝ} {d d' : Date} (h : Stands x d) (h' : Stands x' d') (h0 : 0 ≤ x) (hx : x ≤ x') :
    decimalOf d.year d.month d.day ≤ decimalOf d'.year d'.month d'.day := by
  obtain ⟨m, n, e1, e2, i, e3⟩ := h.day
  obtain ⟨m', n', e1', e2', i', e3'⟩ := h'.day
  have hy : d.year ≤ d'.year := by
    have a1 := h.year.1; have a2 := h'.year.2
    have : d.year < d'.year + 1 := by exact_mod_cast (lt_of_le_of_lt (a1.trans hx) a2)
    omega
  have hy0 : 0 ≤ d.year := by
    have a := h.year.2
    have : (-1 : ℤ) < d.year := by exact_mod_cast (show ((-1 : ℤ) : ℝ) < d.year by push_cast; linarith)
    omega
  obtain ⟨y, hyy⟩ := Int.eq_ofNat_of_zero_le hy0
  obtain ⟨y', hyy'⟩ := Int.eq_ofNat_of_zero_le (hy0.trans hy)
  rw [hyy, e1, e2, hyy', e1', e2', decimalOf_nat, decimalOf_nat]
  rw [hyy] at i e3; rw [hyy'] at i' e3'
  simp only [Int.toNat_natCast, Int.cast_natCast] at i e3 i' e3'
  rcases lt_or_eq_of_le hy with hlt | heq
  · have := (decimal_bounds i).2
    have := (decimal_bounds i').1
    have : (y : ℝ) + 1 ≤ y' := by
      have : y < y' := by omega
      exact_mod_cast this
    linarith
  · obtain rfl : y = y' := by omega
    rw [decimal, decimal]
    have hl : (0 : ℝ) < yearLen (isLeap y) := by rw [yearLen]; split_ifs <;> norm_num
    have : dayOfYear y m n ≤ dayOfYear y m' n' := by
      rw [e3, e3']
      exact max_le_max le_rfl (Nat.floor_mono (mul_le_mul_of_nonneg_right (by linarith) hl.le))
    have : (dayOfYear y m n : ℝ) ≤ dayOfYear y m' n' := by exact_mod_cast this
    have := div_le_div_of_nonneg_right this hl.le
    linarith

/-- **C168 (rows of the period).** For every decimal year between the start and the end the lines of its day, and the lines of its month up to its day, are kept. -/
theorem C168_kept (c : Conv) {x endsec : ℝ} {ini fin : Date} (hr : Run x endsec ini fin) {x' : ℝ} (h1 : x ≤ x') (h2 : x' ≤ x + endsec / 86400 / 365) {d : Date} (hd : Stands x' d) {l : Str}
    (hy : c.atoi (cols l 0 4) = d.year) (hm : c.atoi (cols l 5 2) = d.month) (hday : 1 ≤ c.atoi (cols l 8 2) ∧ c.atoi (cols l 8 2) ≤ d.day) : Kept c ini fin l := by
  have a1 := stands_decimal_le hr.start.2.2 hd hr.start.1 h1
  have a2 := stands_decimal_le hd hr.stop.2.2 (hr.start.1.trans h1) h2
  have hlen : (365 : ℝ) ≤ yearLen (isLeap d.year.natAbs) := by rw [yearLen]; split_ifs <;> norm_num
  have hpos : (0 : ℝ) < yearLen (isLeap d.year.natAbs) := by linarith
  have h31 : d.day ≤ 31 := by
    obtain ⟨m, n, -, e2, ⟨i1, i2, i3, i4⟩, -⟩ := hd.day
    have : monthLen (isLeap d.year.toNat) m ≤ 31 := by
      rw [monthLen.eq_def]; split <;> first | (split_ifs <;> norm_num) | norm_num
    omega
  have e : lineTime c l = decimalOf d.year d.month d.day - ((d.day : ℝ) - c.atoi (cols l 8 2)) / yearLen (isLeap d.year.natAbs) := by
    rw [lineTime, hy, hm, decimalOf, decimalOf]; ring
  have g1 : (1 : ℝ) ≤ c.atoi (cols l 8 2) := by exact_mod_cast hday.1
  have g2 : (c.atoi (cols l 8 2) : ℝ) ≤ d.day := by exact_mod_cast hday.2
  have g3 : (d.day : ℝ) ≤ 31 := by exact_mod_cast h31
  have q0 : 0 ≤ ((d.day : ℝ) - c.atoi (cols l 8 2)) / yearLen (isLeap d.year.natAbs) := div_nonneg (by linarith) hpos.le
  have q1 : ((d.day : ℝ) - c.atoi (cols l 8 2)) / yearLen (isLeap d.year.natAbs) ≤ 31 / 365 := div_le_div₀ (by norm_num) (by linarith) (by norm_num) hlen
  exact ⟨by rw [e]; linarith, by rw [e]; linarith⟩

/-- **C168 (found).** If the file has a line for the day of `x'` (in the monthly part: for its month, not after its day), the row used at `x'` is one of that day (month). -/
theorem C168_found (c : Conv) {x endsec : ℝ} {ini fin : Date} (hr : Run x endsec ini fin) {L : List Str} {x' : ℝ} (h1 : x ≤ x') (h2 : x' ≤ x + endsec / 86400 / 365) {d : Date} (hd : Stands x' d)
    {l : Str} (hl : l ∈ L) (hdata : IsData l) (hy : c.atoi (cols l 0 4) = d.year) (hm : c.atoi (cols l 5 2) = d.month)
    (hday : 1 ≤ c.atoi (cols l 8 2) ∧ c.atoi (cols l 8 2) ≤ d.day) (daily : Prop) (hdaily : daily → c.atoi (cols l 8 2) = d.day) (r : Row) (hu : Used daily d (rows c ini fin L) r) :
    r ∈ rows c ini fin L ∧ r.year = d.year ∧ r.month = d.month ∧ (daily → r.day = d.day) := by
  have hk := C168_kept c hr h1 h2 hd hy hm hday
  have hin : rowOf c l ∈ rows c ini fin L := List.mem_map.mpr ⟨l, List.mem_filter.mpr ⟨hl, by simpa using ⟨hdata, hk⟩⟩, rfl⟩
  rcases hu with ⟨a, b, e, hp, -⟩ | ⟨h, -⟩
  · exact ⟨by rw [e]; simp, hp⟩
  · exact absurd ⟨hy, hm, hdaily⟩ (h _ hin)

/-! ## C169: the date of the simulation time -/

/-- The day and its part that have passed, in days since the last midnight of the year before; 1e-11 is added by the conversion of Julian dates. -/
noncomputable def passed (y m d : ℕ) (h mi : ℤ) (s : ℝ) : ℝ := dayOfYear y m d + ((h : ℝ) * 3600 + mi * 60 + s) / 86400 + 1e-11

/-- The times of C151 for which the decimal year is known. -/
structure Time (y m d : ℕ) (h mi : ℤ) (s : ℝ) : Prop where
  valid : Julian.Valid y m d
  years : 1900 < y ∧ y < 2100
  hour : 0 ≤ h ∧ h < 24
  minute : 0 ≤ mi ∧ mi < 60
  second : 0 ≤ s ∧ s < 60 - 8.64e-7
  notLate : ¬Julian.Late y m d h mi s

/-- The decimal year of the simulation time. -/
noncomputable def decimalYear (y m d : ℕ) (h mi : ℤ) (s : ℝ) : ℝ := Julian.jdToDecyear (Julian.julianDate (Julian.instant y m d h mi s))

theorem decimalYear_eq {y m d : ℕ} {h mi : ℤ} {s : ℝ} (ht : Time y m d h mi s) : decimalYear y m d h mi s = y + passed y m d h mi s / 365.25 := by
  rw [decimalYear, Julian.C151_decimal_value y m d ht.valid ht.years.1 ht.years.2 h mi s ht.hour ht.minute ht.second ht.notLate]
  have hn : Julian.dayNumber y m d + 1 = Julian.dayNumber y 1 1 + dayOfYear y m d := by
    have := ht.valid.2.2.1
    rw [Julian.dayNumber, Julian.dayNumber, dayOfYear]; simp; omega
  have hn' : (Julian.dayNumber y m d : ℝ) + 1 = Julian.dayNumber y 1 1 + dayOfYear y m d := by exact_mod_cast hn
  have : (Julian.dayNumber y m d : ℝ) - Julian.dayNumber y 1 1 + 1 = dayOfYear y m d := by linarith
  rw [this, passed]

theorem passed_bounds {y m d : ℕ} {h mi : ℤ} {s : ℝ} (ht : Time y m d h mi s) :
    (dayOfYear y m d : ℝ) < passed y m d h mi s ∧ passed y m d h mi s < dayOfYear y m d + 1 ∧ 1 ≤ dayOfYear y m d ∧ dayOfYear y m d ≤ yearLen (isLeap y) := by
  have h0 : (0 : ℝ) ≤ h := by exact_mod_cast ht.hour.1
  have h1 : (h : ℝ) ≤ 23 := by exact_mod_cast (show h ≤ 23 by have := ht.hour.2; omega)
  have m0 : (0 : ℝ) ≤ mi := by exact_mod_cast ht.minute.1
  have m1 : (mi : ℝ) ≤ 59 := by exact_mod_cast (show mi ≤ 59 by have := ht.minute.2; omega)
  obtain ⟨s0, s1⟩ := ht.second
  obtain ⟨v1, v2, v3, v4, -⟩ := ht.valid
  refine ⟨?_, ?_, by rw [dayOfYear]; omega, before_top _ v1 v2 v4⟩
  · rw [passed]
    have : 0 ≤ ((h : ℝ) * 3600 + mi * 60 + s) / 86400 := by positivity
    norm_num; linarith
  · rw [passed, add_assoc, add_lt_add_iff_left]
    have : ((h : ℝ) * 3600 + mi * 60 + s) / 86400 < (86400 - 8.64e-7) / 86400 := div_lt_div_of_pos_right (by linarith) (by norm_num)
    norm_num at this ⊢; linarith

/-- **C169 (date in the year).** Until 365.25 days of the year have passed, the date used is that of the same year for the passed days times 365/365.25, in leap years 366/365.25; the day of the
year `gtd7` gets is right. -/
theorem C169_date {y m d : ℕ} {h mi : ℤ} {s : ℝ} (ht : Time y m d h mi s) (hp : passed y m d h mi s < 365.25) {D : Date} (hD : Stands (decimalYear y m d h mi s) D) :
    D.year = y ∧ (∃ a b : ℕ, D.month = a ∧ D.day = b ∧ IsDay y a b ∧ dayOfYear y a b = max 1 ⌊passed y m d h mi s * (yearLen (isLeap y) / 365.25)⌋₊) ∧
    D.hour * 3600 + D.minute * 60 + D.second = ⌊Int.fract (passed y m d h mi s * (yearLen (isLeap y) / 365.25)) * 86400⌋ ∧
    (∀ lat lon alt f107A f107 ap, (given (decimalYear y m d h mi s) D lat lon alt f107A f107 ap).doy = dayOfYear y m d) := by
  obtain ⟨b1, b2, b3, -⟩ := passed_bounds ht
  have hx := decimalYear_eq ht
  have h1 : (1 : ℝ) ≤ dayOfYear y m d := by exact_mod_cast b3
  have hq0 : 0 ≤ passed y m d h mi s / 365.25 := div_nonneg (by linarith) (by norm_num)
  have hq1 : passed y m d h mi s / 365.25 < 1 := (div_lt_one (by norm_num)).mpr hp
  have hy : D.year = y := by
    have a1 := hD.year
    have : ⌊decimalYear y m d h mi s⌋ = D.year := Int.floor_eq_iff.mpr a1
    rw [← this, hx, Int.floor_eq_iff]; push_cast; constructor <;> linarith
  have hN : D.year.toNat = y := by omega
  have e : (decimalYear y m d h mi s - D.year) * yearLen (isLeap D.year.toNat) = passed y m d h mi s * (yearLen (isLeap y) / 365.25) := by
    rw [hx, hy, Int.toNat_natCast]; push_cast; ring
  refine ⟨hy, ?_, ?_, fun lat lon alt f107A f107 ap => ?_⟩
  · obtain ⟨a, b, e1, e2, i, e3⟩ := hD.day
    rw [e] at e3; rw [hN] at i e3
    exact ⟨a, b, e1, e2, i, e3⟩
  · rw [hD.seconds, e]
  · show ⌊(decimalYear y m d h mi s - D.year) * 365.25⌋ = _
    have : (decimalYear y m d h mi s - D.year) * 365.25 = passed y m d h mi s := by
      rw [hx, hy]; push_cast; rw [add_sub_cancel_left, div_mul_cancel₀ _ (by norm_num)]
    rw [this, Int.floor_eq_iff]; push_cast; exact ⟨b1.le, b2⟩

/-- **C169 (which day).** So in a common year the day used is the right one or the one before, in a leap year the right one or the one after. -/
theorem C169_day {y m d : ℕ} {h mi : ℤ} {s : ℝ} (ht : Time y m d h mi s) (hp : passed y m d h mi s < 365.25) {D : Date} (hD : Stands (decimalYear y m d h mi s) D) :
    ∃ a b : ℕ, D.month = a ∧ D.day = b ∧ IsDay y a b ∧
      if isLeap y then dayOfYear y a b = dayOfYear y m d ∨ dayOfYear y a b = dayOfYear y m d + 1
      else dayOfYear y a b = dayOfYear y m d ∨ dayOfYear y a b + 1 = dayOfYear y m d := by
  obtain ⟨-, ⟨a, b, e1, e2, i, e3⟩, -⟩ := C169_date ht hp hD
  obtain ⟨b1, b2, b3, -⟩ := passed_bounds ht
  refine ⟨a, b, e1, e2, i, ?_⟩
  have h1 : (1 : ℝ) ≤ dayOfYear y m d := by exact_mod_cast b3
  have hpos : 0 ≤ passed y m d h mi s * (yearLen (isLeap y) / 365.25) := mul_nonneg (by linarith) (div_nonneg (Nat.cast_nonneg _) (by norm_num))
  have hi1 : 1 ≤ dayOfYear y a b := by rw [dayOfYear]; have := i.2.2.1; omega
  generalize passed y m d h mi s = τ at *
  generalize dayOfYear y m d = n at *
  generalize dayOfYear y a b = N at *
  have key : N = 1 ∧ ⌊τ * (yearLen (isLeap y) / 365.25)⌋₊ ≤ 1 ∨ N = ⌊τ * (yearLen (isLeap y) / 365.25)⌋₊ := by omega
  have hf : ∀ k : ℕ, (k : ℝ) ≤ τ * (yearLen (isLeap y) / 365.25) → τ * (yearLen (isLeap y) / 365.25) < k + 2 →
      ⌊τ * (yearLen (isLeap y) / 365.25)⌋₊ = k ∨ ⌊τ * (yearLen (isLeap y) / 365.25)⌋₊ = k + 1 := by
    intro k hk hk'
    have g1 : k ≤ ⌊τ * (yearLen (isLeap y) / 365.25)⌋₊ := Nat.le_floor hk
    have g2 : ⌊τ * (yearLen (isLeap y) / 365.25)⌋₊ < k + 2 := (Nat.floor_lt hpos).mpr (by push_cast; exact hk')
    omega
  split_ifs with hl
  · rw [hl] at hf key
    have := hf n (by norm_num [yearLen]; linarith) (by norm_num [yearLen] at hp ⊢; linarith)
    omega
  · rw [Bool.not_eq_true] at hl
    rw [hl] at hf key
    obtain ⟨k, rfl⟩ : ∃ k, n = k + 1 := ⟨n - 1, by omega⟩
    push_cast at b1 b2
    have := hf k (by norm_num [yearLen] at hp ⊢; linarith) (by norm_num [yearLen]; linarith)
    omega

/-- **C169 (end of the year).** From then on (31 December, 6 hours, in a common year; 30 December, 6 hours, in a leap year) the date used is 1 January of the next year. -/
theorem C169_end {y m d : ℕ} {h mi : ℤ} {s : ℝ} (ht : Time y m d h mi s) (hp : 365.25 ≤ passed y m d h mi s) {D : Date} (hD : Stands (decimalYear y m d h mi s) D) :
    D.year = y + 1 ∧ D.month = 1 ∧ D.day = 1 := by
  obtain ⟨b1, b2, b3, b4⟩ := passed_bounds ht
  have hx := decimalYear_eq ht
  have h4 : (dayOfYear y m d : ℝ) ≤ 366 := by
    have : dayOfYear y m d ≤ 366 := b4.trans (by rw [yearLen]; split_ifs <;> norm_num)
    exact_mod_cast this
  have hq0 : 1 ≤ passed y m d h mi s / 365.25 := (one_le_div (by norm_num)).mpr hp
  have hq1 : passed y m d h mi s / 365.25 < 2 := (div_lt_iff₀ (by norm_num)).mpr (by norm_num; linarith)
  have hy : D.year = y + 1 := by
    have a1 := hD.year
    have : ⌊decimalYear y m d h mi s⌋ = D.year := Int.floor_eq_iff.mpr a1
    rw [← this, hx, Int.floor_eq_iff]; push_cast; constructor <;> linarith
  obtain ⟨a, b, e1, e2, i, e3⟩ := hD.day
  have hN : D.year.toNat = y + 1 := by omega
  rw [hN] at i e3
  have hlen : (yearLen (isLeap (y + 1)) : ℝ) ≤ 366 := by rw [yearLen]; split_ifs <;> norm_num
  have hlen0 : (0 : ℝ) ≤ yearLen (isLeap (y + 1)) := Nat.cast_nonneg _
  have hfl : ⌊(decimalYear y m d h mi s - D.year) * yearLen (isLeap (y + 1))⌋₊ ≤ 1 := by
    have e : decimalYear y m d h mi s - D.year = passed y m d h mi s / 365.25 - 1 := by rw [hx, hy]; push_cast; ring
    rw [e]
    have hz : passed y m d h mi s / 365.25 - 1 ≤ 1.75 / 365.25 := by
      rw [div_sub_one (by norm_num)]; exact div_le_div_of_nonneg_right (by norm_num; linarith) (by norm_num)
    have : (passed y m d h mi s / 365.25 - 1) * yearLen (isLeap (y + 1)) ≤ 1.75 / 365.25 * 366 :=
      mul_le_mul hz hlen hlen0 (by norm_num)
    have hlt : (passed y m d h mi s / 365.25 - 1) * yearLen (isLeap (y + 1)) < (2 : ℕ) := lt_of_le_of_lt this (by norm_num)
    have := (Nat.floor_lt (mul_nonneg (by linarith) hlen0)).mpr hlt
    omega
  have e4 : before (isLeap (y + 1)) a + b = before (isLeap (y + 1)) 1 + 1 := by
    rw [max_eq_left hfl] at e3
    simpa [dayOfYear, before] using e3
  obtain ⟨rfl, rfl⟩ := day_unique i.1 i.2.2.1 i.2.2.2 le_rfl le_rfl (by rw [monthLen]; norm_num) e4
  exact ⟨hy, e1, e2⟩

/-- **C169 (time of day).** The time of day `gtd7` gets is not that of the simulation: at 12 hours on 1 July 2023 it is 9:00:07, on 1 July 2024 it is 21:02:35. -/
theorem C169_time (D : Date) :
    (Stands (decimalYear 2023 7 1 12 0 0) D → (D.hour, D.minute, D.second) = (9, 0, 7)) ∧ (Stands (decimalYear 2024 7 1 12 0 0) D → (D.hour, D.minute, D.second) = (21, 2, 35)) := by
  have hT : ∀ y : ℕ, (y = 2023 ∨ y = 2024) → Time y 7 1 12 0 0 := by
    rintro y (rfl | rfl)
    all_goals
      refine ⟨⟨by norm_num, by norm_num, by norm_num, by decide, by norm_num, by norm_num⟩, by norm_num, by norm_num, by norm_num, by norm_num, ?_⟩
      rintro ⟨h, -⟩; norm_num at h
  have d23 : dayOfYear 2023 7 1 = 182 := by decide
  have d24 : dayOfYear 2024 7 1 = 183 := by decide
  constructor
  · intro hD
    have hp : passed 2023 7 1 12 0 0 = 182.5 + 1e-11 := by rw [passed, d23]; norm_num
    have h3 := (C169_date (hT 2023 (Or.inl rfl)) (by rw [hp]; norm_num) hD).2.2.1
    have e : passed 2023 7 1 12 0 0 * (yearLen (isLeap 2023) / 365.25) = (182 : ℕ) + ((182.5 + 1e-11) * (365 / 365.25) - 182) := by
      rw [hp, show isLeap 2023 = false by decide]; norm_num [yearLen]
    rw [e, Int.fract_natCast_add, Int.fract_eq_self.mpr (by norm_num), show ⌊((182.5 + 1e-11) * (365 / 365.25) - 182) * (86400 : ℝ)⌋ = 32407 by rw [Int.floor_eq_iff]; norm_num] at h3
    have := hD.time
    simp only [Prod.mk.injEq]; omega
  · intro hD
    have hp : passed 2024 7 1 12 0 0 = 183.5 + 1e-11 := by rw [passed, d24]; norm_num
    have h3 := (C169_date (hT 2024 (Or.inr rfl)) (by rw [hp]; norm_num) hD).2.2.1
    have e : passed 2024 7 1 12 0 0 * (yearLen (isLeap 2024) / 365.25) = (183 : ℕ) + ((183.5 + 1e-11) * (366 / 365.25) - 183) := by
      rw [hp, show isLeap 2024 = true by decide]; norm_num [yearLen]
    rw [e, Int.fract_natCast_add, Int.fract_eq_self.mpr (by norm_num), show ⌊((183.5 + 1e-11) * (366 / 365.25) - 183) * (86400 : ℝ)⌋ = 75755 by rw [Int.floor_eq_iff]; norm_num] at h3
    have := hD.time
    simp only [Prod.mk.injEq]; omega

/-- **C169 (row missing at a turn of the year).** After a common year the decimal year jumps, so that the rows of a run that crosses it may end a day early: in every run from 31 December 0:00 to 2 January 0:30
no row for 2 January is kept, although it is the day used at the end. -/
theorem C169_gap (c : Conv) {y : ℕ} (hy : 1900 < y) (hy' : y + 1 < 2100) (hl : y % 4 ≠ 0) {ini fin D : Date} (hr : Run (decimalYear y 12 31 0 0 0) (86400 * 2 + 1800) ini fin)
    (hD : Stands (decimalYear (y + 1) 1 2 0 30 0) D) :
    D.year = y + 1 ∧ D.month = 1 ∧ D.day = 2 ∧
      ∀ l : Str, c.atoi (cols l 0 4) = y + 1 → c.atoi (cols l 5 2) = 1 → c.atoi (cols l 8 2) = 2 → ¬Kept c ini fin l := by
  have hleap : isLeap y = false := by rw [Julian.isLeap_iff hy (by omega)]; simpa using hl
  have t1 : Time y 12 31 0 0 0 := by
    refine ⟨⟨by norm_num, by norm_num, by norm_num, by rw [monthLen], Or.inl hy, Or.inl (by omega)⟩, ⟨hy, by omega⟩, by norm_num, by norm_num, by norm_num, ?_⟩
    rintro ⟨-, -, h⟩
    have : (0 : ℝ) ≤ (y % 4 : ℕ) := Nat.cast_nonneg _
    norm_num at h; linarith
  have t2 : Time (y + 1) 1 2 0 30 0 := by
    refine ⟨⟨by norm_num, by norm_num, by norm_num, by rw [monthLen]; norm_num, Or.inl (by omega), Or.inl (by omega)⟩, ⟨by omega, by omega⟩, by norm_num, by norm_num, by norm_num, ?_⟩
    rintro ⟨h, -⟩; norm_num at h
  have n1 : dayOfYear y 12 31 = 365 := by
    have a := (before_vals (isLeap y)).2.2.2.2.2.2.2.2.2.2.2.1
    rw [before] at a
    rw [dayOfYear, a, hleap]; rfl
  have n2 : dayOfYear (y + 1) 1 2 = 2 := by simp [dayOfYear]
  have p1 : passed y 12 31 0 0 0 = 365 + 1e-11 := by rw [passed, n1]; norm_num
  have p2 : passed (y + 1) 1 2 0 30 0 = 2 + 1 / 48 + 1e-11 := by rw [passed, n2]; norm_num
  have hlen : (yearLen (isLeap (y + 1)) : ℝ) = 365 ∨ (yearLen (isLeap (y + 1)) : ℝ) = 366 := by rw [yearLen]; split_ifs <;> norm_num
  obtain ⟨d1, ⟨a, b, e1, e2, i, e3⟩, -⟩ := C169_date t2 (by rw [p2]; norm_num) hD
  have f2 : ⌊passed (y + 1) 1 2 0 30 0 * (yearLen (isLeap (y + 1)) / 365.25)⌋₊ = 2 := by
    rw [p2]
    rcases hlen with h | h <;> rw [h, Nat.floor_eq_iff (by norm_num)] <;> norm_num
  rw [f2, show max 1 2 = 2 from rfl] at e3
  have j2 : IsDay (y + 1) 1 2 := ⟨by norm_num, by norm_num, by norm_num, by rw [monthLen]; norm_num⟩
  obtain ⟨rfl, rfl⟩ := day_unique (b := isLeap (y + 1)) i.1 i.2.2.1 i.2.2.2 j2.1 j2.2.2.1 j2.2.2.2 (by rw [before, before]; exact e3.trans n2.symm)
  refine ⟨by exact_mod_cast d1, e1, e2, fun l hy1 hm1 hd1 hk => ?_⟩
  have hx := decimalYear_eq t1
  rw [p1] at hx
  have hfin := hr.stop.2.2
  rw [hx] at hfin
  have ex : (y : ℝ) + (365 + 1e-11) / 365.25 + (86400 * 2 + 1800) / 86400 / 365 = ((y + 1 : ℕ) : ℝ) + (((365 + 1e-11) / 365.25 - 1) + (2 + 1 / 48) / 365) := by push_cast; ring
  rw [ex] at hfin
  have hz : (0 : ℝ) ≤ ((365 + 1e-11) / 365.25 - 1) + (2 + 1 / 48) / 365 ∧ (((365 + 1e-11) / 365.25 - 1) + (2 + 1 / 48) / 365 : ℝ) < 1.78 / 365.25 := by norm_num
  have fy : fin.year = ((y + 1 : ℕ) : ℤ) := by
    have : ⌊((y + 1 : ℕ) : ℝ) + (((365 + 1e-11) / 365.25 - 1) + (2 + 1 / 48) / 365)⌋ = fin.year := Int.floor_eq_iff.mpr hfin.year
    rw [← this, Int.floor_eq_iff]
    exact ⟨by push_cast; linarith [hz.1], by push_cast; norm_num⟩
  obtain ⟨a, b, g1, g2, gi, g3⟩ := hfin.day
  rw [fy, Int.toNat_natCast] at gi g3
  have hfl : ⌊(((y + 1 : ℕ) : ℝ) + (((365 + 1e-11) / 365.25 - 1) + (2 + 1 / 48) / 365) - (((y + 1 : ℕ) : ℤ) : ℝ)) * yearLen (isLeap (y + 1))⌋₊ ≤ 1 := by
    rw [Int.cast_natCast, add_sub_cancel_left]
    have hlt : (((365 + 1e-11) / 365.25 - 1) + (2 + 1 / 48) / 365) * (yearLen (isLeap (y + 1)) : ℝ) < (2 : ℕ) := by
      rcases hlen with h | h <;> rw [h] <;> norm_num
    have := (Nat.floor_lt (mul_nonneg hz.1 (Nat.cast_nonneg _))).mpr hlt
    omega
  rw [max_eq_left hfl] at g3
  have hkept := hk.2
  rw [lineTime, hy1, hm1, hd1, fy, g1, g2, decimalOf_nat] at hkept
  have e5 := decimalOf_nat (y + 1) 1 2
  push_cast at e5
  rw [e5, decimal, decimal, g3, n2] at hkept
  rcases hlen with h | h <;> rw [h] at hkept <;> norm_num at hkept

/-! ## The hypotheses are met -/

/-- Digits to a number; other characters end it. -/
def toNumber (s : Str) : ℤ := (s.takeWhile Char.isDigit).foldl (fun a ch => 10 * a + (ch.toNat - 48 : ℕ)) 0

/-- A codec for the example. -/
noncomputable def exConv : Conv := ⟨toNumber, fun s => toNumber s⟩

/-- A row for 2 January 2023. -/
def exRow : Str := "2023 01 02 ".toList ++ List.replicate 119 '7'

/-- An update line. -/
def exUpdate : Str := "UPDATED 2022 Nov 30".toList

/-- A comment. -/
def exComment : Str := "# comment".toList

/-- A file of three lines. -/
def exLines : List Str := [exUpdate, exComment, exRow]

theorem exRun : Run (2023 + 2.5 / 365) 0 ⟨2023, 1, 2, 12, 0, 0⟩ ⟨2023, 1, 2, 12, 0, 0⟩ := by
  have e : ((2023 : ℝ) + 2.5 / 365 - ((2023 : ℤ) : ℝ)) * yearLen (isLeap (2023 : ℤ).toNat) = (2 : ℕ) + 0.5 := by
    rw [show isLeap (2023 : ℤ).toNat = false by decide +kernel]; norm_num [yearLen]
  have hs : Stands (2023 + 2.5 / 365) ⟨2023, 1, 2, 12, 0, 0⟩ := by
    refine ⟨by norm_num, ⟨1, 2, rfl, rfl, by unfold IsDay; decide, ?_⟩, by norm_num, ?_⟩
    · show dayOfYear 2023 1 2 = max 1 ⌊((2023 : ℝ) + 2.5 / 365 - ((2023 : ℤ) : ℝ)) * yearLen (isLeap (2023 : ℤ).toNat)⌋₊
      rw [e, show ⌊((2 : ℕ) : ℝ) + 0.5⌋₊ = 2 by rw [Nat.floor_eq_iff (by positivity)]; norm_num]
      decide
    · show (12 : ℤ) * 3600 + 0 * 60 + 0 = ⌊Int.fract (((2023 : ℝ) + 2.5 / 365 - ((2023 : ℤ) : ℝ)) * yearLen (isLeap (2023 : ℤ).toNat)) * 86400⌋
      rw [e, Int.fract_natCast_add, Int.fract_eq_self.mpr (by norm_num)]
      norm_num
  refine ⟨⟨by norm_num, by norm_num, hs⟩, ?_⟩
  rw [zero_div, zero_div, add_zero]
  exact ⟨by norm_num, by norm_num, hs⟩

theorem exKept : Kept exConv ⟨2023, 1, 2, 12, 0, 0⟩ ⟨2023, 1, 2, 12, 0, 0⟩ exRow :=
  C168_kept exConv exRun le_rfl (by norm_num) exRun.start.2.2 (by show toNumber _ = 2023; decide +kernel) (by show toNumber _ = 1; decide +kernel)
    (by constructor <;> simp only [exConv] <;> decide +kernel)

/-- The file is read: one row, and the monthly part begins 45 days (14 and the 31 of December) after the update. -/
example : ∃ r mo, getTable exConv 4 (2023 + 2.5 / 365) 0 (0, []) (some (text exLines)) = .ok (1, mo, [r]) ∧ r.ap = 777 ∧ mo = decimal 2022 11 30 + 45 / 365 := by
  have hL : IsLines (text exLines) exLines := ⟨by decide +kernel, Or.inl rfl⟩
  have hu : IsUpdate exUpdate := by unfold IsUpdate; decide +kernel
  have hc : ¬IsUpdate exComment := by unfold IsUpdate; decide +kernel
  have hd : IsData exRow := by
    refine (data_iff _).mp ?_; decide +kernel
  have hu' : ¬IsData exUpdate := fun h => not_both h hu
  have hc' : ¬IsData exComment := by rw [← data_iff]; decide +kernel
  refine ⟨rowOf exConv exRow, updateTime exConv exUpdate 10, ?_, ?_, ?_⟩
  · refine (C167_table exConv exRun hL (by decide +kernel) 0 [] 1 _ _).mpr ⟨?_, ?_, ?_, rfl⟩
    · intro l hl
      simp only [exLines, List.mem_cons, List.not_mem_nil, or_false] at hl
      rcases hl with rfl | rfl | rfl
      · exact ⟨fun h => absurd h hu', fun _ => ⟨by decide +kernel, 10, by norm_num, by decide +kernel⟩⟩
      · exact ⟨fun h => absurd h hc', fun h => absurd h hc⟩
      · exact ⟨fun _ => ⟨by decide +kernel, by show 1 ≤ toNumber _; decide +kernel, by show toNumber _ ≤ 12; decide +kernel, fun _ => by decide +kernel⟩, fun h => absurd h (not_both hd)⟩
    · rw [rows, exLines, List.filter_cons_of_neg (by simpa using fun h => absurd h hu'), List.filter_cons_of_neg (by simpa using fun h => absurd h hc'),
        List.filter_cons_of_pos (by simpa only [decide_eq_true_eq] using ⟨hd, exKept⟩)]
      rfl
    · refine Or.inl ⟨[], _, _, 10, rfl, hu, ?_, by norm_num, by decide +kernel, rfl⟩
      intro m hm
      simp only [List.mem_cons, List.not_mem_nil, or_false] at hm
      rcases hm with rfl | rfl
      · exact hc
      · exact not_both hd
  · show ((toNumber _ : ℤ) : ℝ) = 777
    rw [show toNumber (cols exRow 80 3) = 777 by decide +kernel]; norm_num
  · rw [updateTime, show exConv.atoi (cols exUpdate 8 4) = ((2022 : ℕ) : ℤ) by show toNumber _ = _; decide +kernel,
      show exConv.atoi (cols exUpdate 17 2) = ((30 : ℕ) : ℤ) by show toNumber _ = _; decide +kernel, decimalOf_nat]
    norm_num [monthLen]

/-- A table updated in December cannot be read. -/
example : getTable exConv 4 (2023 + 2.5 / 365) 0 (0, []) (some (text ["UPDATED 2022 Dec 30".toList])) = .ub :=
  (C167_stops exConv exRun (A := []) (B := []) ⟨by decide +kernel, Or.inl rfl⟩ (by decide +kernel) (0, []) (by simp)).2
    (.december (by unfold IsUpdate; decide +kernel) (by decide +kernel) (by decide +kernel))

end S2E.SpaceWeather
