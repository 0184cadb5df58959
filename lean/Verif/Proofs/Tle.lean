import Verif.Model.Tle
import Verif.Spec.Tle
import Mathlib.Tactic.Linarith
import Mathlib.Tactic.NormNum
import Mathlib.Tactic.Push
/-!
# Two-line elements: lemmas
-/
namespace S2E.Tle
open Log

theorem digit_facts : ∀ c ∈ "0123456789".toList, c.isDigit = true ∧ isSpace c = false ∧ c ≠ nul ∧ c ≠ '+' ∧ c ≠ '-' ∧ c ≠ '.' ∧ c ≠ ' ' ∧
    c.toNat - 48 = " 123456789".toList.idxOf (if c = '0' then ' ' else c) := by decide +kernel

/-! ## Numbers -/

theorem natOf_append (ds : Str) (c : Char) : natOf (ds ++ [c]) = 10 * natOf ds + (c.toNat - 48) := by
  unfold natOf
  rw [List.foldl_append]; rfl

theorem numeral_append (ds : Str) (c : Char) :
    numeral (ds ++ [c]) = 10 * numeral ds + " 123456789".toList.idxOf (if c = '0' then ' ' else c) := by
  unfold numeral
  rw [List.reverse_append, List.reverse_singleton, List.singleton_append, List.map_cons, Nat.ofDigits_cons]
  simp
  ring

theorem natOf_eq {ds : Str} (h : Digits ds) : natOf ds = numeral ds := by
  induction ds using List.reverseRecOn with
  | nil => rfl
  | append_singleton ds c ih =>
    rw [natOf_append, numeral_append, ih fun x hx => h x (List.mem_append_left _ hx), (digit_facts c (h c (by simp))).2.2.2.2.2.2.2]

/-- Blanks become zeros. -/
def zero (c : Char) : Char := if c = ' ' then '0' else c

theorem digits_zero {ds : Str} (h : Digits0 ds) : Digits (ds.map zero) := by
  have key : ∀ c ∈ " 0123456789".toList, zero c ∈ "0123456789".toList := by decide +kernel
  intro c hc
  obtain ⟨x, hx, rfl⟩ := List.mem_map.1 hc
  exact key x (h x hx)

theorem numeral_zero {ds : Str} (h : Digits0 ds) : numeral (ds.map zero) = numeral ds := by
  have key : ∀ c ∈ " 0123456789".toList, " 123456789".toList.idxOf (if zero c = '0' then ' ' else zero c) =
      " 123456789".toList.idxOf (if c = '0' then ' ' else c) := by decide +kernel
  induction ds using List.reverseRecOn with
  | nil => rfl
  | append_singleton ds c ih =>
    rw [List.map_append, List.map_singleton, numeral_append, numeral_append, ih fun x hx => h x (List.mem_append_left _ hx), key c (h c (by simp))]

theorem zero_digits {ds : Str} (h : Digits ds) : ds.map zero = ds := by
  rw [List.map_congr_left (g := id) (fun c hc => ?_), List.map_id]
  unfold zero
  rw [if_neg (digit_facts c (h c hc)).2.2.2.2.2.2.1]; rfl

/-! ## Scanning -/

/-- No digit and no exponent follows. -/
def Stops (s : Str) : Prop := ∀ c r, s = c :: r → c.isDigit = false ∧ c ≠ 'e' ∧ c ≠ 'E'

theorem stops_cons {c : Char} {r : Str} (h : c.isDigit = false ∧ c ≠ 'e' ∧ c ≠ 'E') : Stops (c :: r) := by
  intro a b e
  obtain ⟨rfl, -⟩ := List.cons.inj e
  exact h

theorem stops_blank (r : Str) : Stops (' ' :: r) := stops_cons (by decide)

theorem skip_blanks (k : ℕ) (s : Str) : skip (List.replicate k ' ' ++ s) = skip s := by
  induction k with
  | zero => rfl
  | succ k ih =>
    rw [List.replicate_succ, List.cons_append, ← ih]
    rfl

theorem skip_none {c : Char} (h : isSpace c = false) (s : Str) : skip (c :: s) = c :: s := by
  unfold skip
  rw [List.dropWhile_cons, h]; rfl

theorem takeDigits_eq {ds : Str} (h : Digits ds) : ∀ (w : ℕ) (rest : Str), ds.length ≤ w → (ds.length = w ∨ Stops rest) → takeDigits w (ds ++ rest) = (ds, rest) := by
  induction ds with
  | nil =>
    intro w rest _ hs
    rcases w with _ | w
    · rfl
    · rcases hs with hs | hs
      · cases hs
      · rcases rest with _ | ⟨c, r⟩
        · rfl
        · rw [List.nil_append, takeDigits, (hs c r rfl).1]; rfl
  | cons c ds ih =>
    intro w rest hw hs
    rcases w with _ | w
    · simp at hw
    · have := ih (fun x hx => h x (List.mem_cons_of_mem _ hx)) w rest (by simpa using hw) (by simpa using hs)
      rw [List.cons_append, takeDigits, (digit_facts c (h c List.mem_cons_self)).1, this]; rfl

/-- A sign that is written. -/
def IsSign (sg : Str) (minus : Bool) : Prop := sg = [] ∧ minus = false ∨ sg = ['+'] ∧ minus = false ∨ sg = ['-'] ∧ minus = true

theorem sign_eq {sg : Str} {minus : Bool} (h : IsSign sg minus) {s : Str} (hs : ∀ c r, s = c :: r → c ≠ '+' ∧ c ≠ '-') {w : ℕ} (hw : sg.length ≤ w) :
    sign w (sg ++ s) = (minus, w - sg.length, s) := by
  rcases h with ⟨rfl, rfl⟩ | ⟨rfl, rfl⟩ | ⟨rfl, rfl⟩
  · rw [List.nil_append]
    rcases s with _ | ⟨c, r⟩
    · cases w <;> rfl
    · obtain ⟨h1, h2⟩ := hs c r rfl
      unfold sign
      split
      · rename_i e; exact absurd (List.cons.inj e).1 h2
      · rename_i e; exact absurd (List.cons.inj e).1 h1
      · rfl
  · rcases w with _ | w
    · simp at hw
    · rfl
  · rcases w with _ | w
    · simp at hw
    · rfl

theorem sign_space {sg : Str} {minus : Bool} (h : IsSign sg minus) : ∀ c ∈ sg, isSpace c = false := by
  rcases h with ⟨rfl, -⟩ | ⟨rfl, -⟩ | ⟨rfl, -⟩ <;> decide

theorem scanInt_blanks (w k : ℕ) (s : Str) : scanInt w (List.replicate k ' ' ++ s) = scanInt w s := by
  unfold scanInt
  rw [skip_blanks]

theorem scanReal_blanks (w k : ℕ) (s : Str) : scanReal w (List.replicate k ' ' ++ s) = scanReal w s := by
  unfold scanReal
  rw [skip_blanks]

theorem scanInt_blank (w : ℕ) (s : Str) : scanInt w (' ' :: s) = scanInt w s := scanInt_blanks w 1 s

theorem scanReal_blank (w : ℕ) (s : Str) : scanReal w (' ' :: s) = scanReal w s := scanReal_blanks w 1 s

theorem skip_start {sg ds s : Str} {minus : Bool} (h : IsSign sg minus) (hd : Digits ds) (hn : sg ++ ds ≠ [] ∨ ∃ r, s = '.' :: r) :
    skip (sg ++ (ds ++ s)) = sg ++ (ds ++ s) := by
  rcases sg with _ | ⟨c, sg⟩
  · rcases ds with _ | ⟨c, ds⟩
    · rcases hn with hn | ⟨r, rfl⟩
      · simp at hn
      · exact skip_none (by decide) _
    · exact skip_none (digit_facts c (hd c List.mem_cons_self)).2.1 _
  · exact skip_none (sign_space h c List.mem_cons_self) _

theorem digits_nosign {ds s : Str} (hd : Digits ds) (hn : ds ≠ [] ∨ ∃ r, s = '.' :: r) : ∀ c r, ds ++ s = c :: r → c ≠ '+' ∧ c ≠ '-' := by
  intro c r e
  rcases ds with _ | ⟨d, ds⟩
  · rcases hn with hn | ⟨r', rfl⟩
    · exact absurd rfl hn
    · obtain ⟨rfl, -⟩ := List.cons.inj e
      decide
  · obtain ⟨rfl, -⟩ := List.cons.inj e
    have := digit_facts d (hd d List.mem_cons_self)
    exact ⟨this.2.2.2.1, this.2.2.2.2.1⟩

theorem scanInt_eq {sg ds rest : Str} {minus : Bool} {w : ℕ} (h : IsSign sg minus) (hd : Digits ds) (hn : ds ≠ []) (hw : sg.length + ds.length ≤ w)
    (hs : sg.length + ds.length = w ∨ Stops rest) :
    scanInt w (sg ++ (ds ++ rest)) = some (if minus then -(numeral ds : ℤ) else numeral ds, rest) := by
  unfold scanInt
  dsimp only
  rw [skip_start h hd (.inl (by simp [hn])), sign_eq h (digits_nosign hd (.inl hn)) (by omega)]
  dsimp only
  rw [takeDigits_eq hd _ rest (by omega) (by rcases hs with hs | hs; exacts [.inl (by omega), .inr hs])]
  dsimp only
  have : ds.isEmpty = false := by simpa using hn
  rw [this, natOf_eq hd]; rfl

theorem exponent_none {w : ℕ} {s : Str} (h : w = 0 ∨ Stops s) : exponent w s = some (0, s) := by
  rcases w with _ | w
  · rw [exponent]; intro _ _ _ h; cases h
  · rcases s with _ | ⟨c, r⟩
    · rw [exponent]; intro _ _ _ _ h; cases h
    · rcases h with h | h
      · cases h
      · rw [exponent, if_neg (by rintro (e | e); exacts [(h c r rfl).2.1 e, (h c r rfl).2.2 e])]

theorem scanReal_eq {sg ds fs rest : Str} {minus : Bool} {w : ℕ} (h : IsSign sg minus) (hd : Digits ds) (hf : Digits fs) (hn : fs ≠ [])
    (hw : sg.length + ds.length + 1 + fs.length ≤ w) (hs : sg.length + ds.length + 1 + fs.length = w ∨ Stops rest) :
    scanReal w (sg ++ (ds ++ '.' :: (fs ++ rest))) = some ((if minus then -1 else 1) * (numeral (ds ++ fs) : ℚ) / 10 ^ fs.length, rest) := by
  have hdf : Digits (ds ++ fs) := by
    intro c hc
    rcases List.mem_append.1 hc with hc | hc
    exacts [hd c hc, hf c hc]
  unfold scanReal
  dsimp only
  rw [skip_start h hd (.inr ⟨_, rfl⟩), sign_eq h (digits_nosign hd (.inr ⟨_, rfl⟩)) (by omega)]
  dsimp only
  rw [takeDigits_eq hd _ _ (by omega) (.inr (stops_cons (by decide)))]
  dsimp only
  obtain ⟨v, hv⟩ : ∃ v, w - sg.length - ds.length = v + 1 := ⟨w - sg.length - ds.length - 1, by omega⟩
  rw [hv]
  have hfr : fraction (v + 1) ('.' :: (fs ++ rest)) = (fs, v - fs.length, rest) := by
    rw [fraction, takeDigits_eq hf _ _ (by omega) (by rcases hs with hs | hs; exacts [.inl (by omega), .inr hs])]
  rw [hfr]
  dsimp only
  rw [exponent_none (by rcases hs with hs | hs; exacts [.inl (by omega), .inr hs]), natOf_eq hdf]
  have : fs.isEmpty = false := by simpa using hn
  rw [this]
  simp

theorem scanReal_sign {c : Char} {σ : ℝ} {fs rest : Str} {w : ℕ} (h : Sign c σ) (hf : Digits fs) (hn : fs ≠ []) (hw : fs.length + 2 ≤ w)
    (hs : Stops rest) : ∃ x : ℚ, scanReal w (c :: '.' :: (fs ++ rest)) = some (x, rest) ∧ (x : ℝ) = σ * numeral fs / 10 ^ fs.length := by
  rcases h with ⟨rfl, rfl⟩ | ⟨rfl, rfl⟩ | ⟨rfl, rfl⟩
  · have := scanReal_eq (sg := []) (ds := []) (w := w) (.inl ⟨rfl, rfl⟩) (by intro _ h; cases h) hf hn (by simp; omega) (.inr hs)
    rw [scanReal_blank]
    refine ⟨_, this, ?_⟩
    push_cast
    simp
  · have := scanReal_eq (sg := ['+']) (ds := []) (w := w) (.inr (.inl ⟨rfl, rfl⟩)) (by intro _ h; cases h) hf hn (by simp; omega) (.inr hs)
    refine ⟨_, this, ?_⟩
    push_cast
    simp
  · have := scanReal_eq (sg := ['-']) (ds := []) (w := w) (.inr (.inr ⟨rfl, rfl⟩)) (by intro _ h; cases h) hf hn (by simp; omega) (.inr hs)
    refine ⟨_, this, ?_⟩
    push_cast
    simp

/-- A field with a decimal point. -/
theorem scanReal_decimal {width whole frac w : ℕ} {s rest : Str} {x : ℝ} (h : Decimal width whole frac s x) (hfr : frac ≠ 0) (hw : width ≤ w) (hs : Stops rest) :
    ∃ q : ℚ, scanReal w (s ++ rest) = some (q, rest) ∧ (q : ℝ) = x := by
  obtain ⟨hl, k, ds, fs, rfl, hd, -, hf, hlen, rfl⟩ := h
  have hl' : k + ds.length + 1 + fs.length = width := by simp at hl; omega
  have := scanReal_eq (sg := []) (ds := ds) (fs := fs) (rest := rest) (w := w) (.inl ⟨rfl, rfl⟩) hd hf (by rintro rfl; exact hfr hlen.symm) (by simp; omega) (.inr hs)
  refine ⟨_, by
    rw [show List.replicate k ' ' ++ ds ++ ['.'] ++ fs ++ rest = List.replicate k ' ' ++ ([] ++ (ds ++ '.' :: (fs ++ rest))) by simp, scanReal_blanks, this], ?_⟩
  push_cast
  rw [hlen]
  simp

theorem scanInt_whole {width w n : ℕ} {s rest : Str} (h : Whole width s n) (hw : width ≤ w) (hs : Stops rest) : scanInt w (s ++ rest) = some ((n : ℤ), rest) := by
  obtain ⟨hl, k, ds, rfl, hd, hn, rfl⟩ := h
  have hl' : k + ds.length = width := by simpa using hl
  have := scanInt_eq (sg := []) (ds := ds) (rest := rest) (w := w) (.inl ⟨rfl, rfl⟩) hd hn (by simp; omega) (.inr hs)
  rw [show List.replicate k ' ' ++ ds ++ rest = List.replicate k ' ' ++ ([] ++ (ds ++ rest)) by simp, scanInt_blanks, this]
  rfl

/-- The exponent of a field. -/
theorem scanInt_exponent {c d : Char} {σ : ℤ} {rest : Str} (h : c = ' ' ∧ σ = (1 : ℤ) ∨ c = '+' ∧ σ = 1 ∨ c = '-' ∧ σ = -1) (hd : Digits [d]) (hs : Stops rest) :
    scanInt 2 (c :: d :: rest) = some (σ * numeral [d], rest) := by
  rcases h with ⟨rfl, rfl⟩ | ⟨rfl, rfl⟩ | ⟨rfl, rfl⟩
  · have := scanInt_eq (sg := []) (w := 2) (.inl ⟨rfl, rfl⟩) hd (by simp) (by simp) (.inr hs)
    rw [scanInt_blank, one_mul]
    exact this
  · have := scanInt_eq (sg := ['+']) (w := 2) (.inr (.inl ⟨rfl, rfl⟩)) hd (by simp) (by simp) (.inr hs)
    rw [one_mul]
    exact this
  · have := scanInt_eq (sg := ['-']) (w := 2) (.inr (.inr ⟨rfl, rfl⟩)) hd (by simp) (by simp) (.inr hs)
    rw [neg_one_mul]
    exact this

/-! ## Corrections -/

theorem blankAt_eq (d : Char) {A : Str} {i : ℕ} (h : A.length = i) (c : Char) (B : Str) :
    blankAt d i (A ++ c :: B) = A ++ (if c = ' ' then d else c) :: B := by
  subst h
  unfold blankAt
  rw [List.getElem?_append_right (le_refl _)]
  simp only [Nat.sub_self, List.getElem?_cons_zero, Option.some.injEq]
  split_ifs with hc
  · rw [List.set_append_right _ _ (le_refl _)]; simp
  · rfl

theorem blankFrom_eq (d : Char) (M : Str) : ∀ {A : Str} {i : ℕ}, A.length = i → ∀ B : Str,
    blankFrom d i M.length (A ++ (M ++ B)) = A ++ (M.map (fun c => if c = ' ' then d else c) ++ B) := by
  induction M with
  | nil => intro A i _ B; simp [blankFrom]
  | cons c M ih =>
    intro A i h B
    rw [List.length_cons, blankFrom, List.cons_append, blankAt_eq d h]
    have := ih (A := A ++ [if c = ' ' then d else c]) (i := i + 1) (by simp [h]) B
    rw [List.append_assoc, List.singleton_append] at this
    rw [this]
    simp

theorem moveSign_eq {A : Str} {i : ℕ} (h : A.length = i) (c : Char) (B : Str) : moveSign i (A ++ ' ' :: c :: B) = A ++ c :: '.' :: B := by
  subst h
  unfold moveSign
  have hg : (A ++ ' ' :: c :: B)[A.length + 1]? = some c := by rw [List.getElem?_append_right (by omega)]; simp
  have hd : (A ++ ' ' :: c :: B).getD (A.length + 1) nul = c := by rw [List.getD_eq_getElem?_getD, hg]; rfl
  rw [hg, hd]
  by_cases hc : c = ' '
  · subst hc
    rw [if_neg (by simp), List.set_append_right _ _ (by omega)]; simp
  · rw [if_pos (by simpa using hc), List.set_append_right _ _ (by omega), List.set_append_right _ _ (by omega)]; simp

theorem nul_blankAt {c : Char} {i : ℕ} {l : Str} (h : nul ∈ l) : nul ∈ blankAt c i l := by
  unfold blankAt
  split_ifs with hb
  · obtain ⟨j, hj, e⟩ := List.getElem_of_mem h
    have hij : i ≠ j := by
      rintro rfl
      rw [List.getElem?_eq_getElem hj, e] at hb
      exact absurd hb (by decide)
    have : (l.set i c)[j]'(by simpa using hj) = nul := by rw [List.getElem_set_ne hij, e]
    exact this ▸ List.getElem_mem _
  · exact h

theorem blankAt_append (d : Char) {A : Str} {i : ℕ} (h : A.length ≤ i) (B : Str) : blankAt d i (A ++ B) = A ++ blankAt d (i - A.length) B := by
  unfold blankAt
  rw [List.getElem?_append_right h, List.set_append_right _ _ h]
  split_ifs <;> rfl

theorem text_append {A B : Str} (h : nul ∉ A) (hB : nul ∈ B) : text (A ++ B) = .ok (A ++ B.takeWhile (· ≠ nul)) := by
  unfold text
  rw [if_pos (List.mem_append_right _ hB), List.takeWhile_append_of_pos]
  intro x hx
  simp only [decide_not, Bool.not_eq_eq_eq_not, Bool.not_true, decide_eq_false_iff_not]
  rintro rfl
  exact h hx

end S2E.Tle
