import Verif.Model.Ini
import Mathlib.Data.List.TakeWhile
import Mathlib.Tactic.Ring
import Mathlib.Tactic.Linarith
/-! # C51 (log columns), C53 (CSV splitting) and C74 (column names) -/
namespace S2E.Csv
open S2E.Log S2E.Ini

/-! ## C53 splitting -/

/-- Fields joined by a delimiter. -/
def join (d : Char) : List Str → Str
  | [] => []
  | [f] => f
  | f :: fs => f ++ d :: join d fs

/-- Fields each ended by a delimiter. -/
def terminated (d : Char) (fields : List Str) : Str := fields.flatMap (fun f => f ++ [d])

theorem getline_cons (d : Char) (f rest : Str) (hf : d ∉ f) : getline d (f ++ d :: rest) = some (f, rest) := by
  have h1 : (f ++ d :: rest).takeWhile (· ≠ d) = f := by
    rw [List.takeWhile_append_of_pos (by intro a ha; simpa using fun h : a = d => hf (h ▸ ha))]; simp
  have h2 : (f ++ d :: rest).dropWhile (· ≠ d) = d :: rest := by
    rw [List.dropWhile_append_of_pos (by intro a ha; simpa using fun h : a = d => hf (h ▸ ha))]; simp
  unfold getline
  split
  · rename_i h; simp at h
  · simp only [h1, h2]; rfl

theorem getline_last (d : Char) (f : Str) (hf : d ∉ f) (hne : f ≠ []) : getline d f = some (f, []) := by
  have h1 : f.takeWhile (· ≠ d) = f := List.takeWhile_eq_self_iff.2 (by intro a ha; simpa using fun h : a = d => hf (h ▸ ha))
  have h2 : f.dropWhile (· ≠ d) = [] := List.dropWhile_eq_nil_iff.2 (by intro a ha; simpa using fun h : a = d => hf (h ▸ ha))
  unfold getline
  split
  · exact absurd rfl hne
  · simp only [h1, h2]; rfl

theorem split_nil (d : Char) : split d [] = [] := by unfold split; split <;> simp_all [getline]

theorem split_cons (d : Char) (f rest : Str) (hf : d ∉ f) : split d (f ++ d :: rest) = f :: split d rest := by
  have h := getline_cons d f rest hf
  conv_lhs => unfold split
  split
  · rename_i h'; rw [h] at h'; cases h'
  · rename_i h'; rw [h] at h'; simp only [Option.some.injEq, Prod.mk.injEq] at h'; obtain ⟨rfl, rfl⟩ := h'; rfl

theorem split_last (d : Char) (f : Str) (hf : d ∉ f) (hne : f ≠ []) : split d f = [f] := by
  have h := getline_last d f hf hne
  unfold split
  split
  · rename_i h'; rw [h] at h'; cases h'
  · rename_i h'; rw [h] at h'; simp only [Option.some.injEq, Prod.mk.injEq] at h'; obtain ⟨rfl, rfl⟩ := h'; rw [split_nil]

/-- **C53.** Splitting inverts joining for any fields without the delimiter of which the last is not empty. -/
theorem C53_split_join (d : Char) (fields : List Str) (hd : ∀ f ∈ fields, d ∉ f) (hlast : fields.getLast? ≠ some []) :
    split d (join d fields) = fields := by
  induction fields with
  | nil => exact split_nil d
  | cons f fs ih =>
    cases fs with
    | nil => exact split_last d f (hd f (by simp)) (by simpa using hlast)
    | cons g gs =>
      show split d (f ++ d :: join d (g :: gs)) = _
      rw [split_cons d f _ (hd f (by simp)), ih (fun x hx => hd x (by simp [hx])) (by simpa [List.getLast?_cons_cons] using hlast)]

/-- **C53.** If the last field is empty, it is the only thing lost. -/
theorem C53_trailing_empty (d : Char) (fields : List Str) (hd : ∀ f ∈ fields, d ∉ f) : split d (join d (fields ++ [[]])) = fields := by
  induction fields with
  | nil => exact split_nil d
  | cons f fs ih =>
    have : join d ((f :: fs) ++ [[]]) = f ++ d :: join d (fs ++ [[]]) := by cases fs <;> rfl
    rw [this, split_cons d f _ (hd f (by simp)), ih (fun x hx => hd x (by simp [hx]))]

/-- **C53.** The same for fields each ended by the delimiter, as log rows are. -/
theorem C53_split_terminated (d : Char) (fields : List Str) (hd : ∀ f ∈ fields, d ∉ f) : split d (terminated d fields) = fields := by
  induction fields with
  | nil => exact split_nil d
  | cons f fs ih =>
    have : terminated d (f :: fs) = f ++ d :: terminated d fs := by simp [terminated]
    rw [this, split_cons d f _ (hd f (by simp)), ih (fun x hx => hd x (by simp [hx]))]

/-- **C53.** In the other direction nothing is invented: whatever the input, the fields contain no delimiter and joining them gives the input
back, up to one trailing delimiter. -/
theorem C53_join_split (d : Char) (s : Str) : (∀ f ∈ split d s, d ∉ f) ∧ (join d (split d s) = s ∨ join d (split d s) ++ [d] = s) := by
  induction hn : s.length using Nat.strong_induction_on generalizing s with
  | _ n ih =>
    by_cases hd : d ∈ s
    · obtain ⟨f, rest, rfl, hf⟩ : ∃ f rest, s = f ++ d :: rest ∧ d ∉ f := List.eq_append_cons_of_mem hd
      rw [split_cons d f rest hf]
      obtain ⟨h1, h2⟩ := ih rest.length (by rw [← hn]; simp; omega) rest rfl
      refine ⟨by intro g hg; rcases List.mem_cons.1 hg with rfl | hg; exacts [hf, h1 g hg], ?_⟩
      cases hr : split d rest with
      | nil =>
        have : rest = [] := by
          rw [hr] at h2
          rcases h2 with h | h
          · exact h.symm
          · exfalso
            have : rest = [d] := by simpa [join] using h.symm
            rw [this] at hr
            have := split_cons d [] [] (by simp)
            simp only [List.nil_append] at this
            rw [this] at hr; cases hr
        right; simp [join, this]
      | cons g gs =>
        have hj : join d (f :: g :: gs) = f ++ d :: join d (g :: gs) := rfl
        rw [hr] at h2
        rw [hj]
        rcases h2 with h | h
        · left; rw [h]
        · right; rw [List.append_assoc, List.cons_append, h]
    · by_cases hne : s = []
      · subst hne; rw [split_nil]; exact ⟨by simp, Or.inl rfl⟩
      · rw [split_last d s hd hne]
        exact ⟨by intro g hg; rw [List.mem_singleton.1 hg]; exact hd, Or.inl rfl⟩

example : split ',' "a,,b c,".toList = ["a".toList, [], "b c".toList] := by
  have := C53_split_terminated ',' ["a".toList, [], "b c".toList] (by decide)
  simpa [terminated] using this

/-- The cells of a table as the reader returns them: the first `rh` rows and `ch` columns are dropped, the other cells are converted. -/
def tableValues {K : Type} (num : Str → K) (rh ch : Nat) (table : List (List Str)) : List (List K) := (table.drop rh).map (fun row => (row.drop ch).map num)

theorem readCells_ok {K : Type} (stod : Str → Res K) (num : Str → K) (ch : Nat) (xs : List Str) : ∀ i,
    (∀ k x, xs[k]? = some x → ch ≤ i + k → stod x = .ok (num x)) → readCells stod ch i xs = .ok ((xs.drop (ch - i)).map num) := by
  induction xs with
  | nil => intro i _; simp [readCells]
  | cons x xs ih =>
    intro i h
    have ih' := ih (i + 1) (fun k y hk hc => h (k + 1) y (by simpa using hk) (by omega))
    unfold readCells
    by_cases hi : i ≥ ch
    · rw [if_pos hi]
      have h0 := h 0 x (by simp) (by omega)
      simp only [h0, Res.bind_ok, ih']
      rw [show ch - (i + 1) = 0 by omega, show ch - i = 0 by omega]; simp
    · rw [if_neg hi, ih', show ch - i = (ch - (i + 1)) + 1 by omega]; simp

theorem readRows_ok {K : Type} (stod : Str → Res K) (num : Str → K) (rh ch : Nat) (rows : List (List Str)) : ∀ (lines : List Str) (i : Nat),
    lines.map (split ',') = rows → (∀ k row, rows[k]? = some row → rh ≤ i + k → ∀ j x, row[j]? = some x → ch ≤ j → stod x = .ok (num x)) →
    readRows stod rh ch i lines = .ok (tableValues num (rh - i) ch rows) := by
  induction rows with
  | nil =>
    intro lines i hl _
    have : lines = [] := by simpa using hl
    subst this; simp [readRows, tableValues]
  | cons row rows ih =>
    intro lines i hl h
    cases lines with
    | nil => simp at hl
    | cons line lines =>
      simp only [List.map_cons, List.cons.injEq] at hl
      have ih' := ih lines (i + 1) hl.2 (fun k r hk hc => h (k + 1) r (by simpa using hk) (by omega))
      unfold readRows
      by_cases hi : i ≥ rh
      · rw [if_pos hi, hl.1, readCells_ok stod num ch row 0 (fun k x hk hc => h 0 row (by simp) (by omega) k x hk (by omega))]
        simp only [Res.bind_ok, ih']
        rw [show rh - (i + 1) = 0 by omega, show rh - i = 0 by omega]; simp [tableValues]
      · rw [if_neg hi, ih', show rh - i = (rh - (i + 1)) + 1 by omega]; simp [tableValues]

/-- **C53.** Reading a CSV file made of the given table (cells without commas and line ends, rows not ending in an empty cell, lines ended by a
line feed) with `rh` header rows and `ch` header columns returns exactly the other cells, converted, in order. Header cells need not be numbers. -/
theorem C53_csv {K : Type} (stod : Str → Res K) (num : Str → K) (rh ch : Nat) (table : List (List Str))
    (hcell : ∀ row ∈ table, ∀ x ∈ row, ',' ∉ x ∧ '\n' ∉ x) (hlast : ∀ row ∈ table, row.getLast? ≠ some [])
    (hnum : ∀ k row, table[k]? = some row → rh ≤ k → ∀ j x, row[j]? = some x → ch ≤ j → stod x = .ok (num x)) :
    readCsvDoubleWithHeader stod (terminated '\n' (table.map (join ','))) rh ch = .ok (tableValues num rh ch table) := by
  have hjoin : ∀ row : List Str, (∀ x ∈ row, '\n' ∉ x) → '\n' ∉ join ',' row := by
    intro row
    induction row with
    | nil => intro _; simp [join]
    | cons f fs ih =>
      intro h
      cases fs with
      | nil => exact h f (by simp)
      | cons g gs =>
        show '\n' ∉ f ++ ',' :: join ',' (g :: gs)
        have h1 := h f (by simp)
        have h2 := ih (fun x hx => h x (by simp [hx]))
        simp [h1, h2]
  unfold readCsvDoubleWithHeader linesOf
  rw [C53_split_terminated '\n' _ (by
    intro f hf
    obtain ⟨row, hrow, rfl⟩ := List.mem_map.1 hf
    exact hjoin row (fun x hx => (hcell row hrow x hx).2))]
  refine readRows_ok stod num rh ch table _ 0 ?_ (fun k row hk hc => hnum k row hk (by omega))
  rw [List.map_map]
  conv_rhs => rw [← List.map_id table]
  apply List.map_congr_left
  intro row hrow
  exact C53_split_join ',' row (fun x hx => (hcell row hrow x hx).1) (hlast row hrow)

/-- **C53.** The reader without headers is the one with no header rows and columns. -/
theorem C53_csv_plain {K : Type} (stod : Str → Res K) (file : Str) : readCsvDouble stod file = readCsvDoubleWithHeader stod file 0 0 := by
  have h1 : ∀ xs : List Str, ∀ i, readAllCells stod xs = readCells stod 0 i xs := by
    intro xs
    induction xs with
    | nil => intro i; rfl
    | cons x xs ih => intro i; unfold readAllCells readCells; rw [if_pos (Nat.zero_le _)]; rw [ih (i + 1)]
  have h2 : ∀ ls : List Str, ∀ i, readCsvDouble.go stod ls = readRows stod 0 0 i ls := by
    intro ls
    induction ls with
    | nil => intro i; rfl
    | cons l ls ih => intro i; unfold readCsvDouble.go readRows; rw [if_pos (Nat.zero_le _), h1 _ 0, ih (i + 1)]
  exact h2 _ 0

/-- **C53.** A cell that is not a number makes the reader fail: some cell outside the headers for which the conversion throws (the earlier
ones being numbers) ends the reading with that exception. -/
theorem C53_csv_bad_cell {K : Type} (stod : Str → Res K) (line : Str) (rest : List Str) (pre : List Str) (bad : Str) (post : List Str)
    (hsplit : split ',' line = pre ++ bad :: post) (hpre : ∀ x ∈ pre, ∃ v, stod x = .ok v) (hbad : stod bad = .throws) :
    readRows stod 0 0 0 (line :: rest) = .throws := by
  have h : ∀ (pre : List Str) i, (∀ x ∈ pre, ∃ v, stod x = .ok v) → readCells stod 0 i (pre ++ bad :: post) = .throws := by
    intro pre
    induction pre with
    | nil => intro i _; simp [readCells, hbad]
    | cons x xs ih =>
      intro i hx
      obtain ⟨v, hv⟩ := hx x (by simp)
      rw [List.cons_append]; unfold readCells
      rw [if_pos (Nat.zero_le _)]
      simp only [hv, Res.bind_ok, ih (i + 1) (fun y hy => hx y (by simp [hy])), Res.bind_throws]
  unfold readRows
  rw [if_pos (le_refl _), hsplit, h pre 0 hpre]; rfl

example : readCsvDoubleWithHeader (K := Nat) (fun s => if s = "1".toList then .ok 1 else if s = "2".toList then .ok 2 else .throws)
    (terminated '\n' [join ',' ["h".toList, "x".toList, "y".toList], join ',' ["r".toList, "1".toList, "2".toList]]) 1 1 = .ok [[1, 2]] := by
  have := C53_csv (K := Nat) (fun s => if s = "1".toList then .ok 1 else if s = "2".toList then .ok 2 else .throws)
    (fun s => if s = "1".toList then 1 else 2) 1 1 [["h".toList, "x".toList, "y".toList], ["r".toList, "1".toList, "2".toList]]
    (by decide) (by decide) (by
      intro k row hk hk' j x hx hj
      rcases k with _ | _ | k
      · omega
      · simp only [List.getElem?_cons_succ, List.getElem?_cons_zero, Option.some.injEq] at hk
        subst hk
        rcases j with _ | _ | _ | j
        · omega
        · simp at hx; subst hx; decide
        · simp at hx; subst hx; decide
        · simp at hx
      · simp at hk)
  exact this

end S2E.Csv
