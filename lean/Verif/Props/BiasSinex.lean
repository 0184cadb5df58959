import Verif.Spec.BiasSinex
import Verif.Proofs.TextLines
/-!
# C162: Bias-SINEX files
-/
namespace S2E.Bias
open S2E.Log S2E.Sp3

/-! ## One line -/

theorem real_iff {c : Codec} {l : Str} {a n : ℕ} {v : ℝ} : c.real l a n = .ok v ↔ a ≤ l.length ∧ c.stod (cols l a n) = some v := by
  rw [Codec.real]
  by_cases h : a ≤ l.length
  · rw [substr_ok h, Res.bind]
    rcases c.stod (cols l a n) with _ | w <;> simp [h]
  · rw [substr_throws (not_le.mp h), Res.bind]
    simp [h]

theorem real_total (c : Codec) (l : Str) (a n : ℕ) : c.real l a n = .throws ∨ ∃ v, c.real l a n = .ok v := by
  rw [Codec.real]
  by_cases h : a ≤ l.length
  · rw [substr_ok h, Res.bind]
    rcases c.stod (cols l a n) with _ | v
    · exact Or.inl rfl
    · exact Or.inr ⟨v, rfl⟩
  · rw [substr_throws (not_le.mp h)]
    exact Or.inl rfl

theorem readSlopes_total (c : Codec) (l : Str) (d : Solution) : readSlopes c l d = .throws ∨ ∃ v, readSlopes c l d = .ok v := by
  unfold readSlopes
  by_cases h1 : 105 + 21 < l.length
  · rw [if_pos h1]
    rcases real_total c l 105 21 with e | ⟨v, e⟩ <;> rw [e] <;> simp only [Res.bind]
    · exact Or.inl trivial
    by_cases h2 : 127 + 12 < l.length
    · rw [if_pos h2]
      rcases real_total c l 127 12 with e | ⟨v, e⟩ <;> rw [e]
      · exact Or.inl rfl
      · exact Or.inr ⟨_, rfl⟩
    · rw [if_neg h2]; exact Or.inr ⟨_, rfl⟩
  · rw [if_neg h1]
    simp only [Res.bind]
    by_cases h2 : 105 + 12 < l.length
    · rw [if_pos h2]
      rcases real_total c l 105 12 with e | ⟨v, e⟩ <;> rw [e]
      · exact Or.inl rfl
      · exact Or.inr ⟨_, rfl⟩
    · rw [if_neg h2]; exact Or.inr ⟨_, rfl⟩

theorem readLine_total (c : Codec) (l : Str) : readLine c l = .throws ∨ ∃ d, readLine c l = .ok d := by
  have hs : ∀ a n, substr l a n = .throws ∨ ∃ v, substr l a n = .ok v := by
    intro a n
    unfold substr
    split_ifs
    · exact Or.inl rfl
    · exact Or.inr ⟨_, rfl⟩
  unfold readLine
  rcases hs 1 4 with e | ⟨v, e⟩ <;> rw [e] <;> simp only [Res.bind]
  · exact Or.inl trivial
  rcases hs 6 4 with e | ⟨v, e⟩ <;> rw [e] <;> simp only
  · exact Or.inl trivial
  rcases hs 11 3 with e | ⟨v, e⟩ <;> rw [e] <;> simp only
  · exact Or.inl trivial
  rcases hs 15 9 with e | ⟨v, e⟩ <;> rw [e] <;> simp only
  · exact Or.inl trivial
  rcases hs 25 4 with e | ⟨v, e⟩ <;> rw [e] <;> simp only
  · exact Or.inl trivial
  rcases hs 30 4 with e | ⟨v, e⟩ <;> rw [e] <;> simp only
  · exact Or.inl trivial
  rcases hs 35 14 with e | ⟨v, e⟩ <;> rw [e] <;> simp only
  · exact Or.inl trivial
  rcases hs 50 14 with e | ⟨v, e⟩ <;> rw [e] <;> simp only
  · exact Or.inl trivial
  rcases hs 65 4 with e | ⟨v, e⟩ <;> rw [e] <;> simp only
  · exact Or.inl trivial
  rcases real_total c l 70 21 with e | ⟨v, e⟩ <;> rw [e] <;> simp only
  · exact Or.inl trivial
  rcases real_total c l 92 12 with e | ⟨v, e⟩ <;> rw [e] <;> simp only
  · exact Or.inl trivial
  exact readSlopes_total _ _ _

theorem readSlopes_iff (c : Codec) (l : Str) (d r : Solution) (hd : d.slope = 0 ∧ d.slopeDeviation = 0) : readSlopes c l d = .ok r ↔
    (if 127 ≤ l.length then c.stod (cols l 105 21) = some r.slope else r.slope = 0) ∧
    (if 140 ≤ l.length then c.stod (cols l 127 12) = some r.slopeDeviation
      else if 118 ≤ l.length ∧ l.length < 127 then c.stod (cols l 105 12) = some r.slopeDeviation else r.slopeDeviation = 0) ∧
    r = { d with slope := r.slope, slopeDeviation := r.slopeDeviation } := by
  obtain ⟨d1, d2, d3, d4, d5, d6, d7, d8, d9, d10⟩ := d
  obtain ⟨r1, r2, r3, r4, r5, r6, r7, r8, r9, r10⟩ := r
  simp only at hd
  obtain ⟨rfl, rfl⟩ := hd
  unfold readSlopes
  by_cases h1 : 127 ≤ l.length
  · rw [if_pos (by omega), if_pos h1]
    rcases hr : c.stod (cols l 105 21) with _ | v
    · have : ∀ v, c.real l 105 21 ≠ .ok v := fun v hv => by rw [real_iff, hr] at hv; simp at hv
      rcases real_total c l 105 21 with e | ⟨v, e⟩
      · rw [e]; simp [Res.bind]
      · exact absurd e (this v)
    · have e : c.real l 105 21 = .ok v := real_iff.mpr ⟨by omega, hr⟩
      rw [e]
      simp only [Res.bind]
      by_cases h2 : 140 ≤ l.length
      · rw [if_pos (by omega), if_pos h2]
        rcases hr2 : c.stod (cols l 127 12) with _ | u
        · rcases real_total c l 127 12 with e | ⟨u, e⟩
          · rw [e]; simp [Res.bind]
          · rw [real_iff, hr2] at e; simp at e
        · rw [real_iff.mpr ⟨by omega, hr2⟩]
          simp only [Res.bind, Res.ok.injEq, Solution.mk.injEq, Option.some.injEq]
          constructor
          · rintro ⟨rfl, rfl, rfl, rfl, rfl, rfl, rfl, rfl, rfl, rfl⟩; simp
          · rintro ⟨rfl, rfl, rfl, rfl, rfl, rfl, rfl, rfl, rfl, rfl, _, _⟩; simp
      · rw [if_neg (by omega), if_neg h2, if_neg (by omega)]
        simp only [Res.ok.injEq, Solution.mk.injEq, Option.some.injEq]
        constructor
        · rintro ⟨rfl, rfl, rfl, rfl, rfl, rfl, rfl, rfl, rfl, rfl⟩; simp
        · rintro ⟨rfl, rfl, rfl, rfl, rfl, rfl, rfl, rfl, rfl, rfl, _, _⟩; simp
  · rw [if_neg (by omega), if_neg h1, if_neg (by omega : ¬ 140 ≤ l.length)]
    simp only [Res.bind]
    by_cases h2 : 118 ≤ l.length
    · rw [if_pos (by omega), if_pos ⟨h2, by omega⟩]
      rcases hr2 : c.stod (cols l 105 12) with _ | u
      · rcases real_total c l 105 12 with e | ⟨u, e⟩
        · rw [e]; simp
        · rw [real_iff, hr2] at e; simp at e
      · rw [real_iff.mpr ⟨by omega, hr2⟩]
        simp only [Res.ok.injEq, Solution.mk.injEq, Option.some.injEq]
        constructor
        · rintro ⟨rfl, rfl, rfl, rfl, rfl, rfl, rfl, rfl, rfl, rfl⟩; simp
        · rintro ⟨rfl, rfl, rfl, rfl, rfl, rfl, rfl, rfl, rfl, rfl, _, _⟩; simp
    · rw [if_neg (by omega), if_neg (by omega)]
      simp only [Res.ok.injEq, Solution.mk.injEq]
      constructor
      · rintro ⟨rfl, rfl, rfl, rfl, rfl, rfl, rfl, rfl, rfl, rfl⟩; simp
      · rintro ⟨rfl, rfl, rfl, rfl, rfl, rfl, rfl, rfl, rfl, rfl, _, _⟩; simp

theorem targetOf_eq (a b : Str) : targetOf a b =
    if (a, b) ∈ [("C1W ".toList, "C2W ".toList), ("C1P ".toList, "C2P ".toList)] then .p1p2
    else if (a, b) = ("C1P ".toList, "C1C ".toList) then .p1c1
    else if (a, b) = ("C2P ".toList, "C2C ".toList) then .p2c2 else .error := by
  unfold targetOf
  simp only [List.mem_cons, List.not_mem_nil, or_false, Prod.mk.injEq]
  by_cases h1 : a = "C1W ".toList ∧ b = "C2W ".toList
  · rw [if_pos h1, if_pos (Or.inl h1)]
  · rw [if_neg h1]
    by_cases h2 : a = "C1P ".toList ∧ b = "C2P ".toList
    · rw [if_pos h2, if_pos (Or.inr h2)]
    · rw [if_neg h2, if_neg (not_or.mpr ⟨h1, h2⟩)]

/-- **C162 (line).** A line of the solution is accepted exactly if it has at least 92 characters and numbers in the columns of bias and standard deviation (and in those of
slope and its deviation if the line is long enough), and the bias is what the columns say; any other line raises an exception. A slope is read only from a line that
goes on after column 125, its deviation only from one that goes on after column 138; a line of 118 to 126 characters has the first 12 characters of the slope's columns
taken for the deviation of the slope. -/
theorem C162_line (c : Codec) (l : Str) : (∀ d, readLine c l = .ok d ↔ Says c l d) ∧ ((∀ d, ¬ Says c l d) → readLine c l = .throws) := by
  have key : ∀ d, readLine c l = .ok d ↔ Says c l d := by
    intro d
    by_cases hl : 92 ≤ l.length
    · unfold readLine
      rw [substr_ok (by omega), substr_ok (by omega), substr_ok (by omega), substr_ok (by omega), substr_ok (by omega), substr_ok (by omega),
        substr_ok (by omega), substr_ok (by omega), substr_ok (by omega)]
      simp only [Res.bind]
      rcases hb : c.stod (cols l 70 21) with _ | b
      · rcases real_total c l 70 21 with e | ⟨u, e⟩
        · rw [e]
          simp only [reduceCtorEq, false_iff]
          intro h
          have := h.bias
          rw [hb] at this
          simp at this
        · rw [real_iff, hb] at e; simp at e
      rw [real_iff.mpr ⟨by omega, hb⟩]
      simp only
      rcases hs : c.stod (cols l 92 12) with _ | sd
      · rcases real_total c l 92 12 with e | ⟨u, e⟩
        · rw [e]
          simp only [reduceCtorEq, false_iff]
          intro h
          have := h.deviation
          rw [hs] at this
          simp at this
        · rw [real_iff, hs] at e; simp at e
      rw [real_iff.mpr ⟨by omega, hs⟩]
      simp only
      rw [readSlopes_iff c l _ d ⟨rfl, rfl⟩]
      obtain ⟨d1, d2, d3, d4, d5, d6, d7, d8, d9, d10⟩ := d
      simp only [Solution.mk.injEq, and_true]
      constructor
      · rintro ⟨h1, h2, rfl, rfl, rfl, rfl, rfl, rfl, rfl, rfl⟩
        exact ⟨hl, rfl, rfl, rfl, rfl, targetOf_eq _ _, rfl, hb, hs, h1, h2⟩
      · rintro ⟨_, i1, i2, i3, i4, i5, i6, i7, i8, i9, i10⟩
        simp only at i1 i2 i3 i4 i5 i6 i7 i8 i9 i10
        rw [hb] at i7
        rw [hs] at i8
        refine ⟨i9, i10, i1, i2, i3, i4, ?_, i6, (Option.some.inj i7).symm, (Option.some.inj i8).symm⟩
        rw [i5, targetOf_eq]
    · constructor
      · intro h
        exfalso
        rcases real_total c l 92 12 with e | ⟨u, e⟩
        · have hs : ∀ a n, substr l a n = .throws ∨ ∃ v, substr l a n = .ok v := by
            intro a n
            unfold substr
            split_ifs
            · exact Or.inl rfl
            · exact Or.inr ⟨_, rfl⟩
          unfold readLine at h
          rcases hs 1 4 with e | ⟨v, e⟩ <;> rw [e] at h <;> simp only [Res.bind, reduceCtorEq] at h
          rcases hs 6 4 with e | ⟨v, e⟩ <;> rw [e] at h <;> simp only [reduceCtorEq] at h
          rcases hs 11 3 with e | ⟨v, e⟩ <;> rw [e] at h <;> simp only [reduceCtorEq] at h
          rcases hs 15 9 with e | ⟨v, e⟩ <;> rw [e] at h <;> simp only [reduceCtorEq] at h
          rcases hs 25 4 with e | ⟨v, e⟩ <;> rw [e] at h <;> simp only [reduceCtorEq] at h
          rcases hs 30 4 with e | ⟨v, e⟩ <;> rw [e] at h <;> simp only [reduceCtorEq] at h
          rcases hs 35 14 with e | ⟨v, e⟩ <;> rw [e] at h <;> simp only [reduceCtorEq] at h
          rcases hs 50 14 with e | ⟨v, e⟩ <;> rw [e] at h <;> simp only [reduceCtorEq] at h
          rcases hs 65 4 with e | ⟨v, e⟩ <;> rw [e] at h <;> simp only [reduceCtorEq] at h
          rcases real_total c l 70 21 with e | ⟨v, e⟩ <;> rw [e] at h <;> simp only [reduceCtorEq] at h
          rename_i e92 _ _ _ _ _ _ _ _ _ _
          first
            | (rw [e92] at h; simp at h)
            | simp_all
        · exact hl (real_iff.mp e).1
      · exact fun h => absurd h.size hl
  refine ⟨key, fun h => ?_⟩
  rcases readLine_total c l with e | ⟨d, e⟩
  · exact e
  · exact absurd ((key d).mp e) (h d)

/-! ## Blocks -/

theorem atEnd_nil {s : Stream} (h : Holds s []) : atEnd s = true := by
  rcases holds_nil h with ⟨rfl, _⟩ | ⟨rfl, _⟩ <;> rfl

theorem atEnd_cons {s : Stream} {l : Str} {L : List Str} (h : Holds s (l :: L)) : atEnd s = false := by
  obtain ⟨rest, eof, fail⟩ := s
  obtain ⟨_, rfl, h2⟩ := h
  rcases h2 with ⟨rfl, rfl⟩ | ⟨rfl, M, m, e, hm, rfl⟩ | ⟨_, e, _⟩
  · simp [atEnd, Stream.good, text]
  · simp [atEnd, Stream.good, hm]
  · simp at e

theorem skip_end {mark : Str} {B : List Str} {e : Str} {L : List Str} (hB : ∀ m ∈ B, ¬ mark <+: m) (he : mark <+: e) :
    ∀ (n : ℕ) (s : Stream) (x : Str), Holds s (B ++ e :: L) → B.length < n → ∃ s', skipBlock mark n s x = .ok s' ∧ Holds s' L := by
  induction B with
  | nil =>
    intro n s x hs hn
    obtain ⟨s', h1, h2⟩ := holds_getline hs
    obtain ⟨n, rfl⟩ : ∃ m, n = m + 1 := ⟨n - 1, by omega⟩
    refine ⟨s', ?_, h2⟩
    rw [skipBlock]
    simp only [h1]
    rw [if_pos (starts_iff.mpr he)]
  | cons m B ih =>
    intro n s x hs hn
    obtain ⟨s', h1, h2⟩ := holds_getline hs
    obtain ⟨n, rfl⟩ : ∃ m, n = m + 1 := ⟨n - 1, by omega⟩
    obtain ⟨s'', h3, h4⟩ := ih (fun k hk => hB k (by simp [hk])) n s' m h2 (by simp at hn; omega)
    refine ⟨s'', ?_, h4⟩
    rw [skipBlock]
    simp only [h1]
    rw [if_neg (by rw [starts_iff]; exact hB m (by simp)), h3]

theorem skip_dead {mark : Str} {x : Str} (hx : ¬ mark <+: x) (n : ℕ) : skipBlock mark n ⟨[], true, true⟩ x = .stuck := by
  induction n with
  | zero => rfl
  | succ n ih =>
    rw [skipBlock]
    simp only [dead_getline]
    rw [if_neg (by rw [starts_iff]; exact hx), ih]

/-- Without an end mark the loop never ends. -/
theorem skip_open {mark : Str} (h0 : mark ≠ []) {B : List Str} (hB : ∀ m ∈ B, ¬ mark <+: m) :
    ∀ (n : ℕ) (s : Stream) (x : Str), ¬ mark <+: x → Holds s B → skipBlock mark n s x = .stuck := by
  induction B with
  | nil =>
    intro n s x hx hs
    rcases n with _ | n
    · rfl
    rw [skipBlock]
    have he : ¬ mark <+: ([] : Str) := by rw [List.prefix_nil]; exact h0
    rcases holds_nil hs with ⟨_, h⟩ | ⟨_, h⟩
    · simp only [h]
      rw [if_neg (by rw [starts_iff]; exact he), skip_dead he]
    · simp only [h]
      rw [if_neg (by rw [starts_iff]; exact hx), skip_dead hx]
  | cons m B ih =>
    intro n s x hx hs
    rcases n with _ | n
    · rfl
    obtain ⟨s', h1, h2⟩ := holds_getline hs
    have hm := hB m (by simp)
    rw [skipBlock]
    simp only [h1]
    rw [if_neg (by rw [starts_iff]; exact hm), ih (fun k hk => hB k (by simp [hk])) n s' m hm h2]

/-- A loop over a block that ends has found the end mark. -/
theorem skip_ok {mark : Str} (h0 : mark ≠ []) {n : ℕ} {s s' : Stream} {L : List Str} (hs : Holds s L) (h : skipBlock mark n s [] = .ok s') :
    ∃ B e R, L = B ++ e :: R ∧ (∀ m ∈ B, ¬ mark <+: m) ∧ mark <+: e ∧ Holds s' R := by
  have hnil : ¬ mark <+: ([] : Str) := by rw [List.prefix_nil]; exact h0
  by_cases hall : ∀ m ∈ L, ¬ mark <+: m
  · rw [skip_open h0 hall n s [] hnil hs] at h; simp at h
  · have hx : ∃ B e R, L = B ++ e :: R ∧ (∀ m ∈ B, ¬ mark <+: m) ∧ mark <+: e := by
      clear hs h
      induction L with
      | nil => simp at hall
      | cons l L ih =>
        by_cases hl : mark <+: l
        · exact ⟨[], l, L, rfl, by simp, hl⟩
        · have : ¬ ∀ m ∈ L, ¬ mark <+: m := fun hh => hall (by
            intro m hm
            rcases List.mem_cons.mp hm with rfl | hm
            · exact hl
            · exact hh m hm)
          obtain ⟨B, e, R, rfl, h1, h2⟩ := ih this
          refine ⟨l :: B, e, R, rfl, ?_, h2⟩
          intro m hm
          rcases List.mem_cons.mp hm with rfl | hm
          · exact hl
          · exact h1 m hm
    obtain ⟨B, e, R, rfl, h1, h2⟩ := hx
    refine ⟨B, e, R, rfl, h1, h2, ?_⟩
    have gen : ∀ (B : List Str) (n : ℕ) (s : Stream) (x : Str), (∀ m ∈ B, ¬ mark <+: m) → Holds s (B ++ e :: R) → skipBlock mark n s x = .ok s' →
        Holds s' R := by
      intro B
      induction B with
      | nil =>
        intro n s x _ hs h
        rcases n with _ | n
        · simp [skipBlock] at h
        obtain ⟨t, g1, g2⟩ := holds_getline hs
        rw [skipBlock] at h
        simp only [g1] at h
        rw [if_pos (starts_iff.mpr h2)] at h
        obtain rfl := Res.ok.inj h
        exact g2
      | cons m B ih =>
        intro n s x hB hs h
        rcases n with _ | n
        · simp [skipBlock] at h
        obtain ⟨t, g1, g2⟩ := holds_getline hs
        rw [skipBlock] at h
        simp only [g1] at h
        rw [if_neg (by rw [starts_iff]; exact hB m (by simp))] at h
        exact ih n t m (fun k hk => hB k (by simp [hk])) g2 h
    exact gen B n s [] h1 hs h

theorem solution_end {c : Codec} {B : List Str} {e : Str} {L : List Str} {r : List Solution} (hB : ∀ m ∈ B, ¬ "-BIAS/SOLUTION".toList <+: m)
    (hr : List.Forall₂ (Says c) (B.filter fun m => !starts "*".toList m) r) (he : "-BIAS/SOLUTION".toList <+: e) :
    ∀ (n : ℕ) (s : Stream) (x : Str) (acc : List Solution), Holds s (B ++ e :: L) → B.length < n →
      ∃ s', readSolution c n s x acc = .ok (s', acc ++ r) ∧ Holds s' L := by
  induction B generalizing r with
  | nil =>
    intro n s x acc hs hn
    obtain rfl : r = [] := by simpa using hr
    obtain ⟨s', h1, h2⟩ := holds_getline hs
    obtain ⟨n, rfl⟩ : ∃ m, n = m + 1 := ⟨n - 1, by omega⟩
    refine ⟨s', ?_, h2⟩
    rw [readSolution]
    simp only [h1]
    rw [if_pos (starts_iff.mpr he), List.append_nil]
  | cons m B ih =>
    intro n s x acc hs hn
    obtain ⟨s', h1, h2⟩ := holds_getline hs
    obtain ⟨n, rfl⟩ : ∃ m, n = m + 1 := ⟨n - 1, by omega⟩
    have hm := hB m (by simp)
    have hB' : ∀ k ∈ B, ¬ "-BIAS/SOLUTION".toList <+: k := fun k hk => hB k (by simp [hk])
    have hn' : B.length < n := by simp at hn; omega
    rw [readSolution]
    simp only [h1]
    rw [if_neg (by rw [starts_iff]; exact hm)]
    by_cases hc : starts "*".toList m = true
    · rw [if_pos hc]
      rw [List.filter_cons_of_neg (by rw [hc]; decide)] at hr
      exact ih hB' hr n s' m acc h2 hn'
    · rw [if_neg hc]
      rw [List.filter_cons_of_pos (by rw [Bool.not_eq_true] at hc; rw [hc]; rfl)] at hr
      rcases hr with _ | ⟨hsay, hrest⟩
      rename_i d r
      rw [((C162_line c m).1 d).mpr hsay]
      simp only [Res.bind]
      obtain ⟨s'', g1, g2⟩ := ih hB' hrest n s' m (acc ++ [d]) h2 hn'
      exact ⟨s'', by rw [g1, List.append_assoc]; rfl, g2⟩

theorem solution_dead {c : Codec} {x : Str} (hx : ¬ "-BIAS/SOLUTION".toList <+: x) (n : ℕ) (acc : List Solution) (r : Stream × List Solution) :
    readSolution c n ⟨[], true, true⟩ x acc ≠ .ok r := by
  induction n generalizing acc with
  | zero => simp [readSolution]
  | succ n ih =>
    rw [readSolution]
    simp only [dead_getline]
    rw [if_neg (by rw [starts_iff]; exact hx)]
    split_ifs
    · exact ih acc
    · rcases readLine_total c x with e | ⟨d, e⟩ <;> rw [e] <;> simp only [Res.bind]
      · simp
      · exact ih _

theorem solution_ok {c : Codec} {L : List Str} : ∀ (n : ℕ) (s : Stream) (x : Str) (acc : List Solution) (r : Stream × List Solution),
    ¬ "-BIAS/SOLUTION".toList <+: x → Holds s L → readSolution c n s x acc = .ok r →
    ∃ B e R d, L = B ++ e :: R ∧ (∀ m ∈ B, ¬ "-BIAS/SOLUTION".toList <+: m) ∧ "-BIAS/SOLUTION".toList <+: e ∧
      List.Forall₂ (Says c) (B.filter fun m => !starts "*".toList m) d ∧ r.2 = acc ++ d ∧ Holds r.1 R := by
  induction L with
  | nil =>
    intro n s x acc r hx hs h
    exfalso
    have he : ¬ "-BIAS/SOLUTION".toList <+: ([] : Str) := by rw [List.prefix_nil]; decide
    rcases n with _ | n
    · simp [readSolution] at h
    rw [readSolution] at h
    rcases holds_nil hs with ⟨_, g⟩ | ⟨_, g⟩
    · simp only [g] at h
      rw [if_neg (by rw [starts_iff]; exact he)] at h
      split_ifs at h
      · exact solution_dead he _ _ _ h
      · rcases readLine_total c [] with e | ⟨d, e⟩ <;> rw [e] at h <;> simp only [Res.bind, reduceCtorEq] at h
        exact solution_dead he _ _ _ h
    · simp only [g] at h
      rw [if_neg (by rw [starts_iff]; exact hx)] at h
      split_ifs at h
      · exact solution_dead hx _ _ _ h
      · rcases readLine_total c x with e | ⟨d, e⟩ <;> rw [e] at h <;> simp only [Res.bind, reduceCtorEq] at h
        exact solution_dead hx _ _ _ h
  | cons l L ih =>
    intro n s x acc r hx hs h
    rcases n with _ | n
    · simp [readSolution] at h
    obtain ⟨s', h1, h2⟩ := holds_getline hs
    rw [readSolution] at h
    simp only [h1] at h
    by_cases hl : "-BIAS/SOLUTION".toList <+: l
    · rw [if_pos (starts_iff.mpr hl)] at h
      obtain rfl := Res.ok.inj h
      exact ⟨[], l, L, [], rfl, by simp, hl, by simp, by simp, h2⟩
    · rw [if_neg (by rw [starts_iff]; exact hl)] at h
      have hcons : ∀ B : List Str, (∀ m ∈ B, ¬ "-BIAS/SOLUTION".toList <+: m) → ∀ m ∈ l :: B, ¬ "-BIAS/SOLUTION".toList <+: m := by
        intro B hB m hm
        rcases List.mem_cons.mp hm with rfl | hm
        · exact hl
        · exact hB m hm
      by_cases hc : starts "*".toList l = true
      · rw [if_pos hc] at h
        obtain ⟨B, e, R, d, rfl, i1, i2, i3, i4, i5⟩ := ih n s' l acc r hl h2 h
        exact ⟨l :: B, e, R, d, rfl, hcons B i1, i2, by rw [List.filter_cons_of_neg (by rw [hc]; decide)]; exact i3, i4, i5⟩
      · rw [if_neg hc] at h
        rcases readLine_total c l with e | ⟨d0, e⟩ <;> rw [e] at h <;> simp only [Res.bind, reduceCtorEq] at h
        obtain ⟨B, e', R, d, rfl, i1, i2, i3, i4, i5⟩ := ih n s' l _ r hl h2 h
        refine ⟨l :: B, e', R, d0 :: d, rfl, hcons B i1, i2, ?_, by rw [i4, List.append_assoc]; rfl, i5⟩
        rw [List.filter_cons_of_pos (by rw [Bool.not_eq_true] at hc; rw [hc]; rfl)]
        exact List.Forall₂.cons (((C162_line c l).1 d0).mp e) i3

/-! ## The file -/

theorem not_prefix {p q l : Str} (h : p <+: l) (hlen : q.length ≤ p.length) (hne : q ≠ p.take q.length) : ¬ q <+: l := by
  intro hq
  apply hne
  have := List.prefix_of_prefix_length_le hq h hlen
  exact (List.prefix_iff_eq_take.mp this)

theorem skip_step {c : Codec} {b : String} (hb : b ∈ skipped) {l : Str} (h : ('+' :: b.toList) <+: l) {n : ℕ} {s s' : Stream} {acc : List Solution}
    (hend : atEnd s = false) (hs : ∀ x, s.getline x = (s', l)) :
    readLoop c (n + 1) s acc = (skipBlock ('-' :: b.toList) n s' []).bind fun s => readLoop c n s acc := by
  rw [readLoop]
  simp only [hend, hs, Bool.false_eq_true, if_false]
  have hno : ∀ q : Str, q.length ≤ ('+' :: b.toList).length → q ≠ ('+' :: b.toList).take q.length → ¬ starts q l = true :=
    fun q h1 h2 => by rw [starts_iff]; exact not_prefix h h1 h2
  have hyes := starts_iff.mpr h
  simp only [skipped, List.mem_cons, List.not_mem_nil, or_false] at hb
  rcases hb with rfl | rfl | rfl | rfl | rfl
  · rw [if_neg (hno _ (by decide) (by decide)), if_neg (hno _ (by decide) (by decide)), if_neg (hno _ (by decide) (by decide))]
    exact if_pos hyes
  · rw [if_neg (hno _ (by decide) (by decide)), if_neg (hno _ (by decide) (by decide)), if_neg (hno _ (by decide) (by decide)),
      if_neg (fun hq => ?_)]
    · exact if_pos hyes
    · rw [starts_iff] at hq
      exact absurd h (not_prefix hq (by decide) (by decide))
  · rw [if_neg (hno _ (by decide) (by decide)), if_neg (hno _ (by decide) (by decide)), if_neg (hno _ (by decide) (by decide)),
      if_neg (hno _ (by decide) (by decide)), if_neg (hno _ (by decide) (by decide))]
    exact if_pos hyes
  · rw [if_neg (hno _ (by decide) (by decide)), if_neg (hno _ (by decide) (by decide)), if_neg (hno _ (by decide) (by decide)),
      if_neg (hno _ (by decide) (by decide)), if_neg (hno _ (by decide) (by decide)), if_neg (fun hq => ?_)]
    · exact if_pos hyes
    · rw [starts_iff] at hq
      exact absurd h (not_prefix hq (by decide) (by decide))
  · rw [if_neg (hno _ (by decide) (by decide)), if_neg (hno _ (by decide) (by decide)), if_neg (hno _ (by decide) (by decide)),
      if_neg (hno _ (by decide) (by decide)), if_neg (hno _ (by decide) (by decide)), if_neg (hno _ (by decide) (by decide)),
      if_neg (hno _ (by decide) (by decide))]
    exact if_pos hyes

theorem solution_step {c : Codec} {l : Str} (h : "+BIAS/SOLUTION".toList <+: l) {n : ℕ} {s s' : Stream} {acc : List Solution}
    (hend : atEnd s = false) (hs : ∀ x, s.getline x = (s', l)) :
    readLoop c (n + 1) s acc = (readSolution c n s' [] acc).bind fun r => readLoop c n r.1 r.2 := by
  rw [readLoop]
  simp only [hend, hs, Bool.false_eq_true, if_false]
  have hno : ∀ q : Str, q.length ≤ "+BIAS/SOLUTION".toList.length → q ≠ "+BIAS/SOLUTION".toList.take q.length → ¬ starts q l = true :=
    fun q h1 h2 => by rw [starts_iff]; exact not_prefix h h1 h2
  have hno' : ∀ q : Str, "+BIAS/SOLUTION".toList.length ≤ q.length → "+BIAS/SOLUTION".toList ≠ q.take "+BIAS/SOLUTION".toList.length → ¬ starts q l = true := by
    intro q h1 h2 hq
    rw [starts_iff] at hq
    exact absurd h (not_prefix hq h1 h2)
  have hyes := starts_iff.mpr h
  rw [if_neg (hno _ (by decide) (by decide)), if_neg (hno _ (by decide) (by decide)), if_neg (hno _ (by decide) (by decide)),
    if_neg (hno' _ (by decide) (by decide)), if_neg (hno _ (by decide) (by decide)), if_neg (hno' _ (by decide) (by decide)),
    if_neg (hno' _ (by decide) (by decide)), if_neg (hno' _ (by decide) (by decide)), if_pos hyes]

theorem plain_step {c : Codec} {l : Str} (h : Plain l) {n : ℕ} {s s' : Stream} {acc : List Solution}
    (hend : atEnd s = false) (hs : ∀ x, s.getline x = (s', l)) : readLoop c (n + 1) s acc = readLoop c n s' acc := by
  rw [readLoop]
  simp only [hend, hs, Bool.false_eq_true, if_false]
  rcases h with h | ⟨h1, h2⟩
  · rw [if_pos (starts_iff.mpr h)]
  · have hno : ∀ b ∈ "BIAS/SOLUTION" :: skipped, starts ('+' :: b.toList) l = false := fun b hb => starts_false.mpr (h2 b hb)
    have e1 : starts "+FILE/REFERENCE".toList l = false := hno "FILE/REFERENCE" (by decide)
    have e2 : starts "+FILE/COMMENT".toList l = false := hno "FILE/COMMENT" (by decide)
    have e3 : starts "+INPUT/ACKNOWLEDGMENTS".toList l = false := hno "INPUT/ACKNOWLEDGMENTS" (by decide)
    have e4 : starts "+BIAS/DESCRIPTION".toList l = false := hno "BIAS/DESCRIPTION" (by decide)
    have e5 : starts "+BIAS/RECEIVER_INFORMATION".toList l = false := hno "BIAS/RECEIVER_INFORMATION" (by decide)
    have e6 : starts "+BIAS/SOLUTION".toList l = false := hno "BIAS/SOLUTION" (by decide)
    rw [e1, e2, e3, e4, e5, e6, starts_false.mpr h1]
    split_ifs <;> first | rfl | contradiction

theorem stop_step {c : Codec} {l : Str} (h : "%=ENDBIA".toList <+: l) {n : ℕ} {s s' : Stream} {acc : List Solution}
    (hend : atEnd s = false) (hs : ∀ x, s.getline x = (s', l)) : readLoop c (n + 1) s acc = .ok acc := by
  rw [readLoop]
  simp only [hend, hs, Bool.false_eq_true, if_false]
  rw [if_neg (by rw [starts_iff]; exact not_prefix h (by decide) (by decide)), if_pos (starts_iff.mpr h)]

theorem loop_reads {c : Codec} {L : List Str} {d : List Solution} (h : Reads c L d) :
    ∀ (n : ℕ) (s : Stream) (acc : List Solution), Holds s L → L.length < n → readLoop c n s acc = .ok (acc ++ d) := by
  induction h with
  | nil =>
    intro n s acc hs hn
    obtain ⟨n, rfl⟩ : ∃ m, n = m + 1 := ⟨n - 1, by omega⟩
    rw [readLoop, if_pos (atEnd_nil hs), List.append_nil]
  | stop l L h =>
    intro n s acc hs hn
    obtain ⟨n, rfl⟩ : ∃ m, n = m + 1 := ⟨n - 1, by omega⟩
    obtain ⟨s', h1, _⟩ := holds_getline hs
    rw [stop_step h (atEnd_cons hs) h1, List.append_nil]
  | plain l L d h _ ih =>
    intro n s acc hs hn
    obtain ⟨n, rfl⟩ : ∃ m, n = m + 1 := ⟨n - 1, by omega⟩
    obtain ⟨s', h1, h2⟩ := holds_getline hs
    rw [plain_step h (atEnd_cons hs) h1]
    exact ih n s' acc h2 (by simp at hn; omega)
  | skip b hb l B e L d h hB he _ ih =>
    intro n s acc hs hn
    obtain ⟨n, rfl⟩ : ∃ m, n = m + 1 := ⟨n - 1, by omega⟩
    obtain ⟨s', h1, h2⟩ := holds_getline hs
    simp only [List.length_cons, List.length_append] at hn
    rw [skip_step hb h (atEnd_cons hs) h1]
    obtain ⟨s'', h3, h4⟩ := skip_end hB he n s' [] h2 (by omega)
    rw [h3]
    exact ih n s'' acc h4 (by omega)
  | solution l B e L r d h hB hr he _ ih =>
    intro n s acc hs hn
    obtain ⟨n, rfl⟩ : ∃ m, n = m + 1 := ⟨n - 1, by omega⟩
    obtain ⟨s', h1, h2⟩ := holds_getline hs
    simp only [List.length_cons, List.length_append] at hn
    rw [solution_step h (atEnd_cons hs) h1]
    obtain ⟨s'', h3, h4⟩ := solution_end hB hr he n s' [] acc h2 (by omega)
    rw [h3]
    have := ih n s'' (acc ++ r) h4 (by omega)
    simp only [Res.bind]
    rw [this, List.append_assoc]

theorem reads_loop {c : Codec} : ∀ (n : ℕ) (L : List Str) (s : Stream) (acc r : List Solution), Holds s L → readLoop c n s acc = .ok r →
    ∃ d, r = acc ++ d ∧ Reads c L d := by
  intro n
  induction n with
  | zero => intro L s acc r _ h; simp [readLoop] at h
  | succ n ih =>
    intro L s acc r hs h
    rcases L with _ | ⟨l, L⟩
    · rw [readLoop, if_pos (atEnd_nil hs)] at h
      obtain rfl := Res.ok.inj h
      exact ⟨[], by simp, .nil⟩
    obtain ⟨s', h1, h2⟩ := holds_getline hs
    by_cases hp : Plain l
    · rw [plain_step hp (atEnd_cons hs) h1] at h
      obtain ⟨d, e, hd⟩ := ih L s' acc r h2 h
      exact ⟨d, e, .plain l L d hp hd⟩
    by_cases hst : "%=ENDBIA".toList <+: l
    · rw [stop_step hst (atEnd_cons hs) h1] at h
      obtain rfl := Res.ok.inj h
      exact ⟨[], by simp, .stop l L hst⟩
    have hex : ∃ b ∈ "BIAS/SOLUTION" :: skipped, ('+' :: b.toList) <+: l := by
      by_contra hno
      push Not at hno
      exact hp (Or.inr ⟨hst, hno⟩)
    obtain ⟨b, hb, hbl⟩ := hex
    rcases List.mem_cons.mp hb with rfl | hb
    · rw [solution_step hbl (atEnd_cons hs) h1] at h
      rcases h3 : readSolution c n s' [] acc with q | _ | _ | _ <;> rw [h3] at h <;> simp only [Res.bind, reduceCtorEq] at h
      obtain ⟨B, e, R, d, rfl, i1, i2, i3, i4, i5⟩ := solution_ok n s' [] acc q (by rw [List.prefix_nil]; decide) h2 h3
      obtain ⟨d', e', hd'⟩ := ih R q.1 q.2 r i5 h
      refine ⟨d ++ d', by rw [e', i4, List.append_assoc], .solution l B e R d d' hbl i1 i3 i2 hd'⟩
    · rw [skip_step hb hbl (atEnd_cons hs) h1] at h
      rcases h3 : skipBlock ('-' :: b.toList) n s' [] with q | _ | _ | _ <;> rw [h3] at h <;> simp only [Res.bind, reduceCtorEq] at h
      obtain ⟨B, e, R, rfl, i1, i2, i3⟩ := skip_ok (by simp) h2 h3
      obtain ⟨d', e', hd'⟩ := ih R q acc r i3 h
      exact ⟨d', e', .skip b hb l B e R d' hbl i1 i2 hd'⟩

/-- **C162 (all files).** For every file, with its lines, reading returns for all sufficiently large fuels exactly if the file has the layout `Reads`, and gives the
biases of all solution blocks up to the line that begins with `%=ENDBIA` (or the end of the file) in their order; the success flag says only that the file could be
opened. -/
theorem C162_complete (c : Codec) (f : Str) (L : List Str) (hf : IsLines f L) :
    (∀ d, Reads c L d → ∀ n, L.length < n → construct c n (some f) = .ok (true, d)) ∧
    (∀ n r, construct c n (some f) = .ok r → r.1 = true ∧ Reads c L r.2) ∧
    (∀ d d', Reads c L d → Reads c L d' → d = d') ∧ (∀ n, construct c n none = .ok (false, [])) := by
  have h1 : ∀ d, Reads c L d → ∀ n, L.length < n → construct c n (some f) = .ok (true, d) := by
    intro d hd n hn
    rw [construct, loop_reads hd n _ [] hf.holds hn]
    rfl
  refine ⟨h1, fun n r h => ?_, fun d d' hd hd' => ?_, fun n => rfl⟩
  · rw [construct] at h
    rcases h3 : readLoop c n ⟨f, false, false⟩ [] with q | _ | _ | _ <;> rw [h3] at h <;> simp only [Res.bind, reduceCtorEq] at h
    obtain rfl := Res.ok.inj h
    obtain ⟨d, rfl, hd⟩ := reads_loop n L _ [] q hf.holds h3
    exact ⟨rfl, by simpa using hd⟩
  · have e := (h1 d hd _ (Nat.lt_succ_self _)).symm.trans (h1 d' hd' _ (Nat.lt_succ_self _))
    exact (Prod.mk.inj (Res.ok.inj e)).2

/-- The lines before the place where the file is cut: complete parts of the layout. -/
inductive Before (c : Codec) : List Str → List Solution → Prop
  | nil : Before c [] []
  | plain (l : Str) (L : List Str) (d : List Solution) (h : Plain l) (hL : Before c L d) : Before c (l :: L) d
  | skip (b : String) (hb : b ∈ skipped) (l : Str) (B : List Str) (e : Str) (L : List Str) (d : List Solution) (h : ('+' :: b.toList) <+: l)
      (hB : ∀ m ∈ B, ¬ ('-' :: b.toList) <+: m) (he : ('-' :: b.toList) <+: e) (hL : Before c L d) : Before c (l :: (B ++ e :: L)) d
  | solution (l : Str) (B : List Str) (e : Str) (L : List Str) (r d : List Solution) (h : "+BIAS/SOLUTION".toList <+: l)
      (hB : ∀ m ∈ B, ¬ "-BIAS/SOLUTION".toList <+: m) (hr : List.Forall₂ (Says c) (B.filter fun m => !starts "*".toList m) r)
      (he : "-BIAS/SOLUTION".toList <+: e) (hL : Before c L d) : Before c (l :: (B ++ e :: L)) (r ++ d)

theorem getline_suffix (s : Stream) (x : Str) : (s.getline x).1.rest <:+ s.rest := by
  unfold Stream.getline
  split_ifs
  · have h := List.dropWhile_suffix (l := s.rest) (fun a => decide (a ≠ '\n'))
    rcases e : s.rest.dropWhile (fun a => decide (a ≠ '\n')) with _ | ⟨a, r⟩
    · exact List.nil_suffix
    · rw [e] at h
      exact (List.suffix_cons a r).trans h
  · exact List.suffix_rfl

theorem getline_suffix' {s s' : Stream} {x l : Str} (h : s.getline x = (s', l)) : s'.rest <:+ s.rest := by
  have := getline_suffix s x
  rwa [h] at this

/-- More fuel does not end less. -/
theorem solution_less {c : Codec} : ∀ (n : ℕ) (s : Stream) (x : Str) (acc : List Solution), readSolution c (n + 1) s x acc = .stuck →
    readSolution c n s x acc = .stuck := by
  intro n
  induction n with
  | zero => intro s x acc _; rfl
  | succ n ih =>
    intro s x acc h
    rw [readSolution] at h ⊢
    by_cases h1 : starts "-BIAS/SOLUTION".toList (s.getline x).2 = true
    · rw [if_pos h1] at h; cases h
    rw [if_neg h1] at h ⊢
    by_cases h2 : starts "*".toList (s.getline x).2 = true
    · rw [if_pos h2] at h ⊢; exact ih _ _ _ h
    rw [if_neg h2] at h ⊢
    rcases h3 : readLine c (s.getline x).2 with v | _ | _ | _ <;> rw [h3] at h <;> simp only [Res.bind, reduceCtorEq] at h ⊢
    exact ih _ _ _ h

theorem solution_lt {c : Codec} {n k : ℕ} {s : Stream} {x : Str} {acc : List Solution} (hk : k ≤ n) (h : readSolution c n s x acc = .stuck) :
    readSolution c k s x acc = .stuck := by
  induction n with
  | zero => obtain rfl : k = 0 := by omega
            exact h
  | succ n ih =>
    rcases Nat.lt_or_ge n k with hk' | hk'
    · obtain rfl : k = n + 1 := by omega
      exact h
    · exact ih hk' (solution_less _ _ _ _ h)

theorem skip_suffix {mark : Str} : ∀ (n : ℕ) (s s' : Stream) (x : Str), skipBlock mark n s x = .ok s' → s'.rest <:+ s.rest := by
  intro n
  induction n with
  | zero => intro s s' x h; simp [skipBlock] at h
  | succ n ih =>
    intro s s' x h
    rw [skipBlock] at h
    split_ifs at h
    · obtain rfl := Res.ok.inj h
      exact getline_suffix s x
    · exact (ih _ _ _ h).trans (getline_suffix s x)

theorem solution_suffix {c : Codec} : ∀ (n : ℕ) (s : Stream) (x : Str) (acc : List Solution) (r : Stream × List Solution), readSolution c n s x acc = .ok r →
    r.1.rest <:+ s.rest := by
  intro n
  induction n with
  | zero => intro s x acc r h; simp [readSolution] at h
  | succ n ih =>
    intro s x acc r h
    rw [readSolution] at h
    split_ifs at h
    · obtain rfl := Res.ok.inj h
      exact getline_suffix s x
    · exact (ih _ _ _ _ h).trans (getline_suffix s x)
    · rcases h1 : readLine c (s.getline x).2 with v | _ | _ | _ <;> rw [h1] at h <;> simp only [Res.bind, reduceCtorEq] at h
      exact (ih _ _ _ _ h).trans (getline_suffix s x)

theorem text_snoc (M : List Str) (l : Str) : text (M ++ [l]) = (text M ++ l) ++ ['\n'] := by simp [text]

/-- The rest of a text whose lines are all ended. -/
theorem holds_ended {s : Stream} {L K : List Str} (h : Holds s L) (h0 : L ≠ []) (hk : s.rest <:+ text K) : s = ⟨text L, false, false⟩ := by
  obtain ⟨rest, eof, fail⟩ := s
  obtain ⟨hn, rfl, ⟨rfl, rfl⟩ | ⟨rfl, M, l, rfl, hl, rfl⟩ | ⟨_, e, _⟩⟩ := h
  · rfl
  · exfalso
    simp only at hk
    obtain ⟨g, hg⟩ := hk
    rcases List.eq_nil_or_concat K with rfl | ⟨K, k, rfl⟩
    · simp [text] at hg; exact hl hg.2.2
    · rw [List.concat_eq_append, text_snoc] at hg
      obtain ⟨y, a, rfl⟩ : ∃ y a, l = y ++ [a] := by
        rcases List.eq_nil_or_concat l with rfl | ⟨y, a, rfl⟩
        · exact absurd rfl hl
        · exact ⟨y, a, List.concat_eq_append ..⟩
      have e := List.append_inj_right' (s₁ := g ++ (text M ++ y)) (t₁ := [a]) (s₂ := text K ++ k) (t₂ := ['\n']) (by simpa using hg) rfl
      have := hn (y ++ [a]) (by simp)
      simp at e
      subst e
      simp at this
  · exact absurd e h0

/-- The rest of a text whose last line is not ended. -/
theorem holds_unended {s : Stream} {L : List Str} {g x : Str} (h : Holds s L) (h0 : L ≠ []) (hx : x ≠ []) (hxn : '\n' ∉ x) (hk : s.rest <:+ g ++ x) :
    ∃ M l, L = M ++ [l] ∧ s = ⟨text M ++ l, false, false⟩ := by
  obtain ⟨rest, eof, fail⟩ := s
  obtain ⟨hn, rfl, ⟨rfl, rfl⟩ | ⟨rfl, M, l, rfl, hl, rfl⟩ | ⟨_, e, _⟩⟩ := h
  · exfalso
    obtain ⟨y, a, rfl⟩ : ∃ y a, x = y ++ [a] := by
      rcases List.eq_nil_or_concat x with rfl | ⟨y, a, rfl⟩
      · exact absurd rfl hx
      · exact ⟨y, a, List.concat_eq_append ..⟩
    obtain ⟨M, l, rfl⟩ : ∃ y a, L = y ++ [a] := by
      rcases List.eq_nil_or_concat L with rfl | ⟨y, a, rfl⟩
      · exact absurd rfl h0
      · exact ⟨y, a, List.concat_eq_append ..⟩
    obtain ⟨q, hq⟩ := hk
    simp only at hq
    rw [text_snoc] at hq
    have e := List.append_inj_right' (s₁ := q ++ (text M ++ l)) (t₁ := ['\n']) (s₂ := g ++ y) (t₂ := [a]) (by simpa using hq) rfl
    simp at e
    subst e
    simp at hxn
  · exact ⟨M, l, rfl, rfl⟩
  · exact absurd e h0

/-- After the complete parts the loop goes on with the remaining lines. -/
theorem before_loop {c : Codec} {L : List Str} {d : List Solution} (h : Before c L d) :
    ∀ (R : List Str) (n : ℕ) (s : Stream) (acc : List Solution), Holds s (L ++ R) → L.length ≤ n →
      ∃ k s', n ≤ k + L.length ∧ k ≤ n ∧ Holds s' R ∧ readLoop c n s acc = readLoop c k s' (acc ++ d) ∧ s'.rest <:+ s.rest := by
  induction h with
  | nil =>
    intro R n s acc hs hn
    exact ⟨n, s, by simp, le_rfl, hs, by simp, List.suffix_rfl⟩
  | plain l L d h _ ih =>
    intro R n s acc hs hn
    simp only [List.length_cons] at hn
    obtain ⟨n, rfl⟩ : ∃ m, n = m + 1 := ⟨n - 1, by omega⟩
    obtain ⟨s', h1, h2⟩ := holds_getline hs
    rw [plain_step h (atEnd_cons hs) h1]
    obtain ⟨k, t, g1, g2, g3, g4, g5⟩ := ih R n s' acc h2 (by omega)
    exact ⟨k, t, by simp only [List.length_cons]; omega, by omega, g3, g4, g5.trans (getline_suffix' (h1 []))⟩
  | skip b hb l B e L d h hB he _ ih =>
    intro R n s acc hs hn
    simp only [List.length_cons, List.length_append] at hn
    obtain ⟨n, rfl⟩ : ∃ m, n = m + 1 := ⟨n - 1, by omega⟩
    have hs' : Holds s (l :: (B ++ e :: (L ++ R))) := by simpa using hs
    obtain ⟨s', h1, h2⟩ := holds_getline hs'
    rw [skip_step hb h (atEnd_cons hs') h1]
    obtain ⟨s'', h3, h4⟩ := skip_end hB he n s' [] h2 (by omega)
    rw [h3]
    obtain ⟨k, t, g1, g2, g3, g4, g5⟩ := ih R n s'' acc h4 (by omega)
    exact ⟨k, t, by simp only [List.length_cons, List.length_append]; omega, by omega, g3, g4,
      (g5.trans (skip_suffix _ _ _ _ h3)).trans (getline_suffix' (h1 []))⟩
  | solution l B e L r d h hB hr he _ ih =>
    intro R n s acc hs hn
    simp only [List.length_cons, List.length_append] at hn
    obtain ⟨n, rfl⟩ : ∃ m, n = m + 1 := ⟨n - 1, by omega⟩
    have hs' : Holds s (l :: (B ++ e :: (L ++ R))) := by simpa using hs
    obtain ⟨s', h1, h2⟩ := holds_getline hs'
    rw [solution_step h (atEnd_cons hs') h1]
    obtain ⟨s'', h3, h4⟩ := solution_end hB hr he n s' [] acc h2 (by omega)
    rw [h3]
    obtain ⟨k, t, g1, g2, g3, g4, g5⟩ := ih R n s'' (acc ++ r) h4 (by omega)
    refine ⟨k, t, by simp only [List.length_cons, List.length_append]; omega, by omega, g3, ?_, (g5.trans (solution_suffix _ _ _ _ _ h3)).trans (getline_suffix' (h1 []))⟩
    rw [← List.append_assoc]
    exact g4

/-- `m` more records are appended in `m` passes over a line that is kept. -/
theorem dead_grows {c : Codec} {x : Str} {d : Solution} (hx : ¬ "-BIAS/SOLUTION".toList <+: x) (hc : ¬ "*".toList <+: x) (hd : Says c x d) (n m : ℕ)
    (acc : List Solution) : readSolution c (n + m) ⟨[], true, true⟩ x acc = readSolution c n ⟨[], true, true⟩ x (acc ++ List.replicate m d) := by
  induction m generalizing acc with
  | zero => simp
  | succ m ih =>
    rw [← Nat.add_assoc, readSolution]
    simp only [dead_getline]
    rw [if_neg (by rw [starts_iff]; exact hx), if_neg (by rw [starts_iff]; exact hc), ((C162_line c x).1 d).mpr hd]
    simp only [Res.bind]
    rw [ih, List.append_assoc, List.replicate_succ]
    rfl

/-- Reading the lines of a solution block that are there. -/
theorem solution_part {c : Codec} {B : List Str} {r : List Solution} (hB : ∀ m ∈ B, ¬ "-BIAS/SOLUTION".toList <+: m)
    (hr : List.Forall₂ (Says c) (B.filter fun m => !starts "*".toList m) r) :
    ∀ (n : ℕ) (s : Stream) (x : Str) (acc : List Solution) (R : List Str), Holds s (B ++ R) → 
      ∃ s', readSolution c (n + B.length) s x acc = readSolution c n s' ((x :: B).getLast (by simp)) (acc ++ r) ∧ Holds s' R ∧ s'.rest <:+ s.rest := by
  induction B generalizing r with
  | nil =>
    intro n s x acc R hs
    obtain rfl : r = [] := by simpa using hr
    exact ⟨s, by simp, hs, List.suffix_rfl⟩
  | cons m B ih =>
    intro n s x acc R hs
    obtain ⟨s', h1, h2⟩ := holds_getline hs
    have hm := hB m (by simp)
    have hB' : ∀ k ∈ B, ¬ "-BIAS/SOLUTION".toList <+: k := fun k hk => hB k (by simp [hk])
    have hlen : n + (m :: B).length = (n + B.length) + 1 := by simp; omega
    rw [hlen, readSolution]
    simp only [h1]
    rw [if_neg (by rw [starts_iff]; exact hm)]
    by_cases hc : starts "*".toList m = true
    · rw [if_pos hc]
      rw [List.filter_cons_of_neg (by rw [hc]; decide)] at hr
      obtain ⟨s'', g1, g2, g3⟩ := ih hB' hr n s' m acc R h2
      exact ⟨s'', by rw [g1]; rfl, g2, g3.trans (getline_suffix' (h1 []))⟩
    · rw [if_neg hc]
      rw [List.filter_cons_of_pos (by rw [Bool.not_eq_true] at hc; rw [hc]; rfl)] at hr
      rcases hr with _ | ⟨hsay, hrest⟩
      rename_i d r
      rw [((C162_line c m).1 d).mpr hsay]
      simp only [Res.bind]
      obtain ⟨s'', g1, g2, g3⟩ := ih hB' hrest n s' m (acc ++ [d]) R h2
      exact ⟨s'', by rw [g1, List.append_assoc]; rfl, g2, g3.trans (getline_suffix' (h1 []))⟩

/-- **C162 (file cut in a block without biases).** A file that ends in one of the blocks that are skipped is read for ever: no end of file is noticed. -/
theorem C162_cut_skipped (c : Codec) (f : Str) (A B : List Str) (l : Str) (d : List Solution) (b : String) (hb : b ∈ skipped)
    (hf : IsLines f (A ++ l :: B)) (hA : Before c A d) (hl : ('+' :: b.toList) <+: l) (hB : ∀ m ∈ B, ¬ ('-' :: b.toList) <+: m) (n : ℕ) :
    construct c (n + A.length) (some f) = .stuck := by
  obtain ⟨k, s', g1, g2, g3, g4, _⟩ := before_loop hA (l :: B) (n + A.length) _ [] hf.holds (by omega)
  rw [construct, g4]
  rcases k with _ | k
  · rfl
  obtain ⟨s'', h1, h2⟩ := holds_getline g3
  rw [skip_step hb hl (atEnd_cons g3) h1, skip_open (by simp) hB k s'' [] (by rw [List.prefix_nil]; simp) h2]
  rfl

/-- After the last, unended line of a solution block: the last bias is stored again and again. -/
theorem unended_grows {c : Codec} {B : List Str} {x : Str} {r : List Solution} {last : Solution} (hB : ∀ m ∈ B, ¬ "-BIAS/SOLUTION".toList <+: m)
    (hxe : ¬ "-BIAS/SOLUTION".toList <+: x) (hx : ¬ "*".toList <+: x) (hr : List.Forall₂ (Says c) (B.filter fun m => !starts "*".toList m) r) (hxl : Says c x last)
    (hno : ∀ m ∈ B ++ [x], '\n' ∉ m) (n m : ℕ) (y : Str) (acc : List Solution) :
    readSolution c (n + m + 2 + B.length) ⟨text B ++ x, false, false⟩ y acc =
      readSolution c n ⟨[], true, true⟩ x (acc ++ r ++ List.replicate (m + 2) last) := by
  have hx0 : x ≠ [] := fun e => by
    have := hxl.size
    rw [e] at this
    simp at this
  have hxn := hno x (by simp)
  have hH : Holds ⟨text B ++ x, false, false⟩ (B ++ [x]) := ⟨hno, rfl, Or.inr (Or.inl ⟨rfl, B, x, rfl, hx0, rfl⟩)⟩
  obtain ⟨s, g1, g2, g3⟩ := solution_part hB hr (n + m + 2) _ y acc [x] hH
  obtain ⟨M, l, e1, rfl⟩ := holds_unended g2 (by simp) hx0 hxn g3
  obtain ⟨rfl, rfl⟩ : M = [] ∧ x = l := by
    rcases M with _ | ⟨a, M⟩
    · simpa using e1
    · simp at e1
  rw [g1, readSolution]
  have e : (⟨text [] ++ x, false, false⟩ : Stream).getline ((y :: B).getLast (by simp)) = (⟨[], true, false⟩, x) := getline_last hxn hx0
  simp only [e]
  rw [if_neg (by rw [starts_iff]; exact hxe), if_neg (by rw [starts_iff]; exact hx), ((C162_line c x).1 last).mpr hxl]
  simp only [Res.bind]
  rw [readSolution]
  have e : (⟨[], true, false⟩ : Stream).getline x = (⟨[], true, true⟩, x) := rfl
  simp only [e]
  rw [if_neg (by rw [starts_iff]; exact hxe), if_neg (by rw [starts_iff]; exact hx), ((C162_line c x).1 last).mpr hxl]
  simp only [Res.bind]
  rw [dead_grows hxe hx hxl]
  congr 1
  rw [List.replicate_succ', List.replicate_succ']
  simp only [List.append_assoc, ← List.replicate_succ', List.replicate_succ, List.cons_append, List.nil_append]

/-- **C162 (file cut in the biases).** A file that ends in a solution block after complete lines: if the last line is ended by a line feed, the reader raises an
exception; if it is not, the reader does not end: it reads the last bias again and again, and stores it each time. -/
theorem C162_cut_solution (c : Codec) (f : Str) (A B : List Str) (l x : Str) (d r : List Solution) (last : Solution)
    (hA : Before c A d) (hl : "+BIAS/SOLUTION".toList <+: l) (hB : ∀ m ∈ B, ¬ "-BIAS/SOLUTION".toList <+: m) (hxe : ¬ "-BIAS/SOLUTION".toList <+: x)
    (hx : ¬ "*".toList <+: x) (hr : List.Forall₂ (Says c) (B.filter fun m => !starts "*".toList m) r) (hxl : Says c x last)
    (hno : ∀ m ∈ A ++ l :: (B ++ [x]), '\n' ∉ m) :
    (f = text (A ++ l :: (B ++ [x])) → ∀ n, A.length + B.length + 3 ≤ n → construct c n (some f) = .throws) ∧
    (f = text (A ++ l :: B) ++ x → (∀ n, construct c (n + A.length) (some f) = .stuck) ∧
      ∀ n m acc, readSolution c (n + m + 2 + B.length) ⟨text B ++ x, false, false⟩ [] acc =
        readSolution c n ⟨[], true, true⟩ x (acc ++ r ++ List.replicate (m + 2) last)) := by
  have hx0 : x ≠ [] := fun e => by
    have := hxl.size
    rw [e] at this
    simp at this
  have hBx : ∀ m ∈ B ++ [x], '\n' ∉ m := fun m hm => hno m (by simp only [List.mem_append, List.mem_cons]; right; right; simpa using hm)
  have hxn := hBx x (by simp)
  constructor
  · intro hf n hn
    have hL : IsLines f (A ++ l :: (B ++ [x])) := ⟨hno, Or.inl hf⟩
    obtain ⟨k, s', g1, g2, g3, g4, g5⟩ := before_loop hA (l :: (B ++ [x])) n _ [] hL.holds (by omega)
    obtain ⟨k, rfl⟩ : ∃ m, k = m + 1 := ⟨k - 1, by omega⟩
    obtain ⟨s'', h1, h2⟩ := holds_getline g3
    have h5 : s''.rest <:+ f := (getline_suffix' (h1 [])).trans g5
    obtain ⟨j, rfl⟩ : ∃ j, k = j + 2 + B.length := ⟨k - B.length - 2, by omega⟩
    obtain ⟨t, i1, i2, i3⟩ := solution_part hB hr (j + 2) s'' [] ([] ++ d) [x] h2
    obtain rfl := holds_ended i2 (by simp) (hf ▸ i3.trans h5)
    rw [construct, g4, solution_step hl (atEnd_cons g3) h1, i1, readSolution]
    have e : ∀ y, (⟨text [x], false, false⟩ : Stream).getline y = (⟨[], false, false⟩, x) := fun y => by
      have : text [x] = x ++ '\n' :: [] := by simp [text]
      rw [this]
      exact getline_line hxn
    simp only [e]
    rw [if_neg (by rw [starts_iff]; exact hxe), if_neg (by rw [starts_iff]; exact hx), ((C162_line c x).1 last).mpr hxl]
    simp only [Res.bind]
    rw [readSolution]
    have e : (⟨[], false, false⟩ : Stream).getline x = (⟨[], true, true⟩, []) := rfl
    simp only [e]
    rw [if_neg (by decide), if_neg (by decide), (C162_line c []).2 (fun d hd => by have := hd.size; simp at this)]
    rfl
  · intro hf
    refine ⟨fun n => ?_, fun n m acc => unended_grows hB hxe hx hr hxl hBx n m [] acc⟩
    have hL : IsLines f (A ++ l :: (B ++ [x])) := ⟨hno, Or.inr ⟨A ++ l :: B, x, by simp, hx0, hf⟩⟩
    obtain ⟨k, s', g1, g2, g3, g4, g5⟩ := before_loop hA (l :: (B ++ [x])) (n + A.length) _ [] hL.holds (by omega)
    rw [construct, g4]
    rcases k with _ | k
    · rfl
    obtain ⟨s'', h1, h2⟩ := holds_getline g3
    have h5 : s''.rest <:+ f := (getline_suffix' (h1 [])).trans g5
    obtain ⟨M, y, e1, rfl⟩ := holds_unended h2 (by simp) hx0 hxn (hf ▸ h5)
    obtain ⟨rfl, e2⟩ := List.append_inj' e1 rfl
    obtain rfl : x = y := by simpa using e2
    rw [solution_step hl (atEnd_cons g3) h1]
    suffices ∀ k acc, readSolution c k ⟨text B ++ x, false, false⟩ [] acc = .stuck by rw [this]; rfl
    intro k acc
    refine solution_lt (n := 0 + k + 2 + B.length) (by omega) ?_
    rw [unended_grows hB hxe hx hr hxl hBx]
    rfl

/-! ## A file -/

/-- A line of 104 characters: a bias without a slope. -/
def exLine : Str := " DSB  G063 G01           C1P  C1C  2016:296:00000 2016:333:00000 ns                 10.2472       0.0062".toList

/-- Any number is read as 1. -/
noncomputable def exCodec : Codec := ⟨fun _ => some 2, fun _ => some 1, fun _ => none⟩

noncomputable def exBias : Solution :=
  { identifier := .dsb, svn := "G063".toList, number := "G01".toList, station := "         ".toList, target := .p1c1, unit := .ns, bias := 1, deviation := 1 }

/-- A case of `C162_line`. -/
theorem ex_says : Says exCodec exLine exBias where
  size := by decide +kernel
  identifier := by decide +kernel
  svn := by decide +kernel
  number := by decide +kernel
  station := by decide +kernel
  target := by decide +kernel
  unit := by decide +kernel
  bias := rfl
  deviation := rfl
  slope := by rw [if_neg (by decide +kernel)]; rfl
  slopeDeviation := by rw [if_neg (by decide +kernel), if_neg (by decide +kernel)]; rfl

example : (∀ d, ¬ Says exCodec " DSB  G063".toList d) ∧ readLine exCodec " DSB  G063".toList = .throws := by
  have h : ∀ d, ¬ Says exCodec " DSB  G063".toList d := fun d hd => absurd hd.size (by decide +kernel)
  exact ⟨h, (C162_line _ _).2 h⟩

theorem ex_filter : (["*BIAS".toList, exLine].filter fun m => !starts "*".toList m) = [exLine] := by decide +kernel

/-- A case of `C162_complete`: a bias in a block with a comment, and after the end of the file another line. -/
example : Reads exCodec ["%=BIA 1.00".toList, "+FILE/COMMENT".toList, "text".toList, "-FILE/COMMENT".toList, "+BIAS/SOLUTION".toList, "*BIAS".toList, exLine,
    "-BIAS/SOLUTION".toList, "%=ENDBIA".toList, "+BIAS/SOLUTION".toList] [exBias] := by
  refine .plain _ _ _ (Or.inr ⟨by decide +kernel, by decide +kernel⟩) ?_
  refine .skip "FILE/COMMENT" (by decide) _ ["text".toList] _ _ _ (by decide +kernel) (by decide +kernel) (by decide +kernel) ?_
  refine .solution _ ["*BIAS".toList, exLine] _ _ [exBias] [] (by decide +kernel) (by decide +kernel) ?_ (by decide +kernel) (.stop _ _ (by decide +kernel))
  rw [ex_filter]
  exact .cons ex_says .nil

/-- A case of `C162_cut_skipped` and of `C162_cut_solution`. -/
example : Before exCodec ["%=BIA 1.00".toList] [] ∧ ("+FILE/COMMENT".toList <+: "+FILE/COMMENT".toList) ∧
    (∀ m ∈ [exLine], ¬ "-FILE/COMMENT".toList <+: m) ∧ ¬ "-BIAS/SOLUTION".toList <+: exLine ∧ ¬ "*".toList <+: exLine ∧ '\n' ∉ exLine := by
  refine ⟨.plain _ _ _ (Or.inr ⟨by decide +kernel, by decide +kernel⟩) .nil, List.prefix_rfl, by decide +kernel, by decide +kernel, by decide +kernel,
    by decide +kernel⟩

end S2E.Bias
