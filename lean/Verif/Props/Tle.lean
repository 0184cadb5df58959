import Verif.Proofs.Tle
import Verif.Props.Julian
import Mathlib.Data.List.GetD
/-!
# C172: two-line elements
-/
namespace S2E.Tle
open Log Julian Calendar

/-! ## Lemmas -/

theorem printed_nul {c : Char} (h : Printed c) : c ≠ nul := by
  rintro rfl
  exact absurd h.1 (by decide)

theorem digits_nul {s : Str} (h : Digits s) : nul ∉ s := fun hc => (digit_facts nul (h nul hc)).2.2.1 rfl

theorem decimal_nul {a b c : ℕ} {s : Str} {x : ℝ} (h : Decimal a b c s x) : nul ∉ s := by
  obtain ⟨-, k, ds, fs, rfl, hd, -, hf, -, -⟩ := h
  simp only [List.mem_append, List.mem_replicate, List.mem_singleton, not_or]
  exact ⟨⟨⟨by rintro ⟨-, h⟩; exact absurd h (by decide), digits_nul hd⟩, by decide⟩, digits_nul hf⟩

theorem whole_nul {a n : ℕ} {s : Str} (h : Whole a s n) : nul ∉ s := by
  obtain ⟨-, k, ds, rfl, hd, -, -⟩ := h
  simp only [List.mem_append, List.mem_replicate, not_or]
  exact ⟨by rintro ⟨-, h⟩; exact absurd h (by decide), digits_nul hd⟩

theorem sign_nul {c : Char} {σ : ℝ} (h : Sign c σ) : c ≠ nul := by
  rcases h with ⟨rfl, -⟩ | ⟨rfl, -⟩ | ⟨rfl, -⟩ <;> decide

theorem sign_stops {c : Char} {σ : ℝ} (h : Sign c σ) (r : Str) : Stops (c :: r) := by
  rcases h with ⟨rfl, -⟩ | ⟨rfl, -⟩ | ⟨rfl, -⟩ <;> exact stops_cons (by decide)

theorem expsign_facts {c : Char} {σ : ℤ} (h : c = ' ' ∧ σ = (1 : ℤ) ∨ c = '+' ∧ σ = 1 ∨ c = '-' ∧ σ = -1) : c ≠ nul ∧ ∀ r, Stops (c :: r) := by
  rcases h with ⟨rfl, -⟩ | ⟨rfl, -⟩ | ⟨rfl, -⟩ <;> exact ⟨by decide, fun r => stops_cons (by decide)⟩

/-- Blanks in a designator become underscores. -/
def bar (c : Char) : Char := if c = ' ' then '_' else c

/-- The corrected first line. -/
def fixed1 (sat : Str) (cls d : Char) (M : Str) (e : Char) (yr day n1 : Str) (c2 : Char) (f2 : Str) (c2' e2 cb : Char) (fb : Str) (cb' eb : Char) : Str :=
  "1 ".toList ++ (sat ++ ((if cls = ' ' then 'U' else cls) :: ' ' :: (if d = ' ' then '.' else d) :: (M.map bar ++ (e :: ' ' :: (yr ++ (day ++ (' ' :: (n1 ++
    (c2 :: '.' :: (f2.map zero ++ (c2' :: zero e2 :: cb :: '.' :: (fb ++ [cb', eb, ' ']))))))))))))

theorem fix1_eq (sat : Str) (cls d : Char) (M : Str) (e : Char) (yr day n1 : Str) (c2 : Char) (f2 : Str) (c2' e2 cb : Char) (fb : Str) (cb' eb : Char) (rest : Str)
    (h1 : sat.length = 5) (h2 : M.length = 6) (h3 : yr.length = 2) (h4 : day.length = 12) (h5 : n1.length = 10) (h6 : f2.length = 5) (h7 : fb.length = 5)
    (hr : nul ∈ rest) :
    ∃ rest', nul ∈ rest' ∧ fix1 ("1 ".toList ++ sat ++ [cls, ' '] ++ (d :: (M ++ [e])) ++ [' '] ++ yr ++ day ++ [' '] ++ n1 ++ [' '] ++ (c2 :: f2 ++ [c2', e2]) ++
      [' '] ++ (cb :: fb ++ [cb', eb]) ++ [' '] ++ rest) =
      fixed1 sat cls d M e yr day n1 c2 f2 c2' e2 cb fb cb' eb ++ rest' := by
  refine ⟨blankAt '0' 6 (blankAt '0' 0 rest), nul_blankAt (nul_blankAt hr), ?_⟩
  have hone : "1 ".toList.length = 2 := rfl
  unfold fix1
  dsimp only
  -- the designator
  have e1 := blankFrom_eq '_' M (A := "1 ".toList ++ sat ++ [cls, ' ', d]) (i := 10) (by simp [h1])
    ([e, ' '] ++ yr ++ day ++ [' '] ++ n1 ++ [' '] ++ (c2 :: f2 ++ [c2', e2]) ++ [' '] ++ (cb :: fb ++ [cb', eb]) ++ [' '] ++ rest)
  rw [h2] at e1
  have s1 : "1 ".toList ++ sat ++ [cls, ' '] ++ (d :: (M ++ [e])) ++ [' '] ++ yr ++ day ++ [' '] ++ n1 ++ [' '] ++ (c2 :: f2 ++ [c2', e2]) ++
      [' '] ++ (cb :: fb ++ [cb', eb]) ++ [' '] ++ rest = "1 ".toList ++ sat ++ [cls, ' ', d] ++ (M ++ ([e, ' '] ++ yr ++ day ++ [' '] ++ n1 ++ [' '] ++
      (c2 :: f2 ++ [c2', e2]) ++ [' '] ++ (cb :: fb ++ [cb', eb]) ++ [' '] ++ rest)) := by
    simp only [List.append_assoc, List.cons_append, List.nil_append]
  rw [s1, e1]
  set M' := M.map (fun c => if c = ' ' then '_' else c) with hM
  have h2' : M'.length = 6 := by rw [hM, List.length_map, h2]
  -- the sign of the second derivative
  have e2' := moveSign_eq (A := "1 ".toList ++ sat ++ [cls, ' ', d] ++ M' ++ [e, ' '] ++ yr ++ day ++ [' '] ++ n1) (i := 43)
    (by simp [h1, h2', h3, h4, h5]) c2 (f2 ++ [c2', e2, ' '] ++ (cb :: fb ++ [cb', eb]) ++ [' '] ++ rest)
  have s2 : "1 ".toList ++ sat ++ [cls, ' ', d] ++ (M' ++ ([e, ' '] ++ yr ++ day ++ [' '] ++ n1 ++ [' '] ++
      (c2 :: f2 ++ [c2', e2]) ++ [' '] ++ (cb :: fb ++ [cb', eb]) ++ [' '] ++ rest)) = "1 ".toList ++ sat ++ [cls, ' ', d] ++ M' ++ [e, ' '] ++ yr ++ day ++ [' '] ++ n1 ++
      ' ' :: c2 :: (f2 ++ [c2', e2, ' '] ++ (cb :: fb ++ [cb', eb]) ++ [' '] ++ rest) := by
    simp only [List.append_assoc, List.cons_append, List.nil_append]
  rw [s2, e2']
  -- classification
  have e3 := blankAt_eq 'U' (A := "1 ".toList ++ sat) (i := 7) (by simp [h1]) cls (' ' :: d :: (M' ++ [e, ' '] ++ yr ++ day ++ [' '] ++ n1 ++
    c2 :: '.' :: (f2 ++ [c2', e2, ' '] ++ (cb :: fb ++ [cb', eb]) ++ [' '] ++ rest)))
  have s3 : "1 ".toList ++ sat ++ [cls, ' ', d] ++ M' ++ [e, ' '] ++ yr ++ day ++ [' '] ++ n1 ++
      c2 :: '.' :: (f2 ++ [c2', e2, ' '] ++ (cb :: fb ++ [cb', eb]) ++ [' '] ++ rest) = "1 ".toList ++ sat ++ cls :: (' ' :: d :: (M' ++ [e, ' '] ++ yr ++ day ++ [' '] ++ n1 ++
    c2 :: '.' :: (f2 ++ [c2', e2, ' '] ++ (cb :: fb ++ [cb', eb]) ++ [' '] ++ rest))) := by
    simp only [List.append_assoc, List.cons_append, List.nil_append]
  rw [s3, e3]
  set cls' := (if cls = ' ' then 'U' else cls) with hcls
  -- the first character of the designator
  have e4 := blankAt_eq '.' (A := "1 ".toList ++ sat ++ [cls', ' ']) (i := 9) (by simp [h1]) d (M' ++ [e, ' '] ++ yr ++ day ++ [' '] ++ n1 ++
    c2 :: '.' :: (f2 ++ [c2', e2, ' '] ++ (cb :: fb ++ [cb', eb]) ++ [' '] ++ rest))
  have s4 : "1 ".toList ++ sat ++ cls' :: (' ' :: d :: (M' ++ [e, ' '] ++ yr ++ day ++ [' '] ++ n1 ++
    c2 :: '.' :: (f2 ++ [c2', e2, ' '] ++ (cb :: fb ++ [cb', eb]) ++ [' '] ++ rest))) = "1 ".toList ++ sat ++ [cls', ' '] ++ d :: (M' ++ [e, ' '] ++ yr ++ day ++ [' '] ++ n1 ++
    c2 :: '.' :: (f2 ++ [c2', e2, ' '] ++ (cb :: fb ++ [cb', eb]) ++ [' '] ++ rest)) := by
    simp only [List.append_assoc, List.cons_append, List.nil_append]
  rw [s4, e4]
  set d' := (if d = ' ' then '.' else d) with hd
  -- the second derivative
  have e5 := blankFrom_eq '0' f2 (A := "1 ".toList ++ sat ++ [cls', ' ', d'] ++ M' ++ [e, ' '] ++ yr ++ day ++ [' '] ++ n1 ++ [c2, '.']) (i := 45)
    (by simp [h1, h2', h3, h4, h5]) ([c2', e2, ' '] ++ (cb :: fb ++ [cb', eb]) ++ [' '] ++ rest)
  rw [h6] at e5
  have s5 : "1 ".toList ++ sat ++ [cls', ' '] ++ d' :: (M' ++ [e, ' '] ++ yr ++ day ++ [' '] ++ n1 ++
    c2 :: '.' :: (f2 ++ [c2', e2, ' '] ++ (cb :: fb ++ [cb', eb]) ++ [' '] ++ rest)) = "1 ".toList ++ sat ++ [cls', ' ', d'] ++ M' ++ [e, ' '] ++ yr ++ day ++ [' '] ++ n1 ++ [c2, '.'] ++
    (f2 ++ ([c2', e2, ' '] ++ (cb :: fb ++ [cb', eb]) ++ [' '] ++ rest)) := by
    simp only [List.append_assoc, List.cons_append, List.nil_append]
  rw [s5, e5]
  set f' := f2.map (fun c => if c = ' ' then '0' else c) with hf
  have h6' : f'.length = 5 := by rw [hf, List.length_map, h6]
  have e6 := blankAt_eq '0' (A := "1 ".toList ++ sat ++ [cls', ' ', d'] ++ M' ++ [e, ' '] ++ yr ++ day ++ [' '] ++ n1 ++ [c2, '.'] ++ f' ++ [c2']) (i := 51)
    (by simp [h1, h2', h3, h4, h5, h6']) e2 (' ' :: (cb :: fb ++ [cb', eb]) ++ [' '] ++ rest)
  have s6 : "1 ".toList ++ sat ++ [cls', ' ', d'] ++ M' ++ [e, ' '] ++ yr ++ day ++ [' '] ++ n1 ++ [c2, '.'] ++ (f' ++ ([c2', e2, ' '] ++ (cb :: fb ++ [cb', eb]) ++ [' '] ++ rest)) =
      "1 ".toList ++ sat ++ [cls', ' ', d'] ++ M' ++ [e, ' '] ++ yr ++ day ++ [' '] ++ n1 ++ [c2, '.'] ++ f' ++ [c2'] ++ e2 :: (' ' :: (cb :: fb ++ [cb', eb]) ++ [' '] ++ rest) := by
    simp only [List.append_assoc, List.cons_append, List.nil_append]
  rw [s6, e6]
  set x := (if e2 = ' ' then '0' else e2) with hx
  -- the sign of B*
  have e7 := moveSign_eq (A := "1 ".toList ++ sat ++ [cls', ' ', d'] ++ M' ++ [e, ' '] ++ yr ++ day ++ [' '] ++ n1 ++ [c2, '.'] ++ f' ++ [c2', x]) (i := 52)
    (by simp [h1, h2', h3, h4, h5, h6']) cb (fb ++ [cb', eb] ++ [' '] ++ rest)
  have s7 : "1 ".toList ++ sat ++ [cls', ' ', d'] ++ M' ++ [e, ' '] ++ yr ++ day ++ [' '] ++ n1 ++ [c2, '.'] ++ f' ++ [c2'] ++ x :: (' ' :: (cb :: fb ++ [cb', eb]) ++ [' '] ++ rest) =
      "1 ".toList ++ sat ++ [cls', ' ', d'] ++ M' ++ [e, ' '] ++ yr ++ day ++ [' '] ++ n1 ++ [c2, '.'] ++ f' ++ [c2', x] ++ ' ' :: cb :: (fb ++ [cb', eb] ++ [' '] ++ rest) := by
    simp only [List.append_assoc, List.cons_append, List.nil_append]
  rw [s7, e7]
  have hF : fixed1 sat cls d M e yr day n1 c2 f2 c2' e2 cb fb cb' eb = "1 ".toList ++ sat ++ [cls', ' ', d'] ++ M' ++ [e, ' '] ++ yr ++ day ++ [' '] ++ n1 ++
      [c2, '.'] ++ f' ++ [c2', x] ++ [cb, '.'] ++ fb ++ [cb', eb, ' '] := by
    unfold fixed1
    rw [hcls, hd, hM, hf, hx]
    simp only [List.append_assoc, List.cons_append, List.nil_append]
    rfl
  have s8 : "1 ".toList ++ sat ++ [cls', ' ', d'] ++ M' ++ [e, ' '] ++ yr ++ day ++ [' '] ++ n1 ++ [c2, '.'] ++ f' ++ [c2', x] ++ cb :: '.' :: (fb ++ [cb', eb] ++ [' '] ++ rest) =
      fixed1 sat cls d M e yr day n1 c2 f2 c2' e2 cb fb cb' eb ++ rest := by
    rw [hF]
    simp only [List.append_assoc, List.cons_append, List.nil_append]
  have hlen : (fixed1 sat cls d M e yr day n1 c2 f2 c2' e2 cb fb cb' eb).length = 62 := by
    rw [hF]; simp [h1, h2', h3, h4, h5, h6', h7]
  rw [s8, blankAt_append _ (by omega), blankAt_append _ (by omega), hlen]

theorem takeText_eq (D : Str) (h : ∀ c ∈ D, isSpace c = false) : ∀ (w : ℕ) (s : Str), D.length < w → takeText w (D ++ ' ' :: s) = (D, ' ' :: s) := by
  induction D with
  | nil =>
    intro w s hw
    rcases w with _ | w
    · simp at hw
    · rfl
  | cons c D ih =>
    intro w s hw
    rcases w with _ | w
    · simp at hw
    · rw [List.cons_append, takeText, h c List.mem_cons_self, ih (fun x hx => h x (List.mem_cons_of_mem _ hx)) w s (by simpa using hw)]
      rfl

theorem printed_space {c : Char} (h : Printed c) (hc : c ≠ ' ') : isSpace c = false := by
  unfold isSpace
  simp only [decide_eq_false_iff_not]
  rintro (rfl | rfl | rfl | rfl | rfl | rfl)
  · exact hc rfl
  all_goals exact absurd h.1 (by decide)

theorem scanText_designator (D : Str) (h : ∀ c ∈ D, isSpace c = false) (hD : D ≠ []) (hl : D.length = 7) (e : Char) (he : Printed e) (s : Str) :
    ∃ t k, scanText 10 (' ' :: (D ++ e :: ' ' :: s)) = some (t, List.replicate k ' ' ++ s) := by
  have hsk : skip (' ' :: (D ++ e :: ' ' :: s)) = D ++ e :: ' ' :: s := by
    rw [show ' ' :: (D ++ e :: ' ' :: s) = List.replicate 1 ' ' ++ (D ++ e :: ' ' :: s) from rfl, skip_blanks]
    rcases D with _ | ⟨c, D⟩
    · exact absurd rfl hD
    · exact skip_none (h c List.mem_cons_self) _
  unfold scanText
  dsimp only
  rw [hsk]
  by_cases hb : e = ' '
  · subst hb
    rw [takeText_eq D h 10 _ (by omega)]
    have : D.isEmpty = false := by simpa using hD
    rw [this]
    exact ⟨D, 2, rfl⟩
  · rw [show D ++ e :: ' ' :: s = (D ++ [e]) ++ ' ' :: s by simp, takeText_eq (D ++ [e]) (by
      intro c hc
      rcases List.mem_append.1 hc with hc | hc
      · exact h c hc
      · rw [List.mem_singleton.1 hc]; exact printed_space he hb) 10 _ (by simp; omega)]
    have : (D ++ [e]).isEmpty = false := by simp
    rw [this]
    exact ⟨D ++ [e], 1, rfl⟩

/-- The first line, read. -/
theorem scan1_ok {line : Str} {year : ℕ} {days ndot nddot bstar : ℝ} (h : Says1 line year days ndot nddot bstar) (junk : Str) :
    69 ≤ line.length ∧ ∃ s x, text (fix1 (line ++ nul :: junk)) = .ok s ∧ scan1 s = some x ∧ x.epochyr = year ∧ (x.epochdays : ℝ) = days ∧ (x.ndot : ℝ) = ndot ∧
      (x.nddot : ℝ) * 10 ^ x.nexp = nddot ∧ (x.bstar : ℝ) * 10 ^ x.ibexp = bstar := by
  obtain ⟨sat, cls, desig, yr, day, n1, n2, b, rest, n, rfl, hsat, hcls, hdl, hdp, hyr, hyl, rfl, hday, hn1, hn2, hb, hrl, hrp⟩ := h
  obtain ⟨c1, σ1, f1, rfl, hs1, hf1, hl1, rfl⟩ := hn1
  obtain ⟨c2, σ2, f2, c2', σ2', e2, rfl, hs2, hf2, hl2, hs2', he2, rfl⟩ := hn2
  obtain ⟨cb, σb, fb, cb', σb', eb, rfl, hsb, hfb, hlb, hsb', heb, rfl⟩ := hb
  obtain ⟨d, D, rfl⟩ : ∃ d D, desig = d :: D := by
    rcases desig with _ | ⟨d, D⟩
    · simp at hdl
    · exact ⟨d, D, rfl⟩
  obtain ⟨M, e, rfl⟩ : ∃ M e, D = M ++ [e] := by
    rcases List.eq_nil_or_concat D with rfl | ⟨M, e, rfl⟩
    · simp at hdl
    · exact ⟨M, e, by simp⟩
  have hM : M.length = 6 := by simp at hdl; omega
  refine ⟨by
    have h5 := hsat.1
    have h12 := hday.1
    have : "1 ".toList.length = 2 := rfl
    simp [h5, h12, hM, hyl, hl1, hl2, hlb]
    omega, ?_⟩
  obtain ⟨rest', hnul, hfix⟩ := fix1_eq sat cls d M e yr day (c1 :: '.' :: f1) c2 f2 c2' e2 cb fb cb' eb (rest ++ nul :: junk) hsat.1 hM hyl hday.1 (by simp [hl1]) hl2 hlb
    (by simp)
  have hF : nul ∉ fixed1 sat cls d M e yr day (c1 :: '.' :: f1) c2 f2 c2' e2 cb fb cb' eb := by
    have hz2 := digits_nul (digits_zero hf2)
    have hze : nul ∉ [zero e2] := by rw [show [zero e2] = [e2].map zero from rfl, zero_digits he2]; exact digits_nul he2
    have hbar : nul ∉ M.map bar := by
      intro hm
      obtain ⟨x, hx, hxe⟩ := List.mem_map.1 hm
      unfold bar at hxe
      split_ifs at hxe
      · exact absurd hxe (by decide)
      · exact printed_nul (hdp x (by simp [hx])) hxe
    have hcl : nul ≠ (if cls = ' ' then 'U' else cls) := by
      simp only [List.mem_cons, List.not_mem_nil, or_false] at hcls
      rcases hcls with rfl | rfl | rfl | rfl <;> decide
    have hd' : nul ≠ (if d = ' ' then '.' else d) := by
      split_ifs
      · decide
      · exact (printed_nul (hdp d (by simp))).symm
    have hone : nul ∉ "1 ".toList := by decide
    have hbl : nul ≠ ' ' := by decide
    have hdot : nul ≠ '.' := by decide
    unfold fixed1
    simp only [List.mem_append, List.mem_cons, List.not_mem_nil, or_false, not_or]
    refine ⟨hone, whole_nul hsat, hcl, hbl, hd', hbar, (printed_nul (hdp e (by simp))).symm, hbl, digits_nul hyr, decimal_nul hday, hbl, ⟨(sign_nul hs1).symm, hdot, digits_nul hf1⟩,
      (sign_nul hs2).symm, hdot, hz2, (expsign_facts hs2').1.symm, fun h => hze (by simp [h]), (sign_nul hsb).symm, hdot, digits_nul hfb, (expsign_facts hsb').1.symm,
      fun h => digits_nul heb (by simp [h]), hbl⟩
  have hline : "1 ".toList ++ sat ++ [cls, ' '] ++ (d :: (M ++ [e])) ++ [' '] ++ yr ++ day ++ [' '] ++ (c1 :: '.' :: f1) ++ [' '] ++ (c2 :: f2 ++ [c2', e2]) ++
      [' '] ++ (cb :: fb ++ [cb', eb]) ++ [' '] ++ rest ++ nul :: junk = "1 ".toList ++ sat ++ [cls, ' '] ++ (d :: (M ++ [e])) ++ [' '] ++ yr ++ day ++ [' '] ++
      (c1 :: '.' :: f1) ++ [' '] ++ (c2 :: f2 ++ [c2', e2]) ++ [' '] ++ (cb :: fb ++ [cb', eb]) ++ [' '] ++ (rest ++ nul :: junk) := by
    rw [List.append_assoc]
  rw [hline, hfix, text_append hF hnul]
  set T := rest'.takeWhile (· ≠ nul)
  -- the conversions
  obtain ⟨q1, k1, v1⟩ := scanReal_sign (w := 11) (rest := c2 :: '.' :: (f2.map zero ++ (c2' :: zero e2 :: cb :: '.' :: (fb ++ cb' :: eb :: ' ' :: T)))) hs1 hf1
    (by rintro rfl; simp at hl1) (by omega) (sign_stops hs2 _)
  obtain ⟨q2, k2, v2⟩ := scanReal_sign (w := 7) (fs := f2.map zero) (rest := c2' :: zero e2 :: cb :: '.' :: (fb ++ cb' :: eb :: ' ' :: T)) hs2 (digits_zero hf2)
    (by intro h; rw [← List.length_eq_zero_iff, List.length_map] at h; omega) (by simp [hl2]) ((expsign_facts hs2').2 _)
  obtain ⟨q3, k3, v3⟩ := scanReal_sign (w := 7) (fs := fb) (rest := cb' :: eb :: ' ' :: T) hsb hfb (by rintro rfl; simp at hlb) (by simp [hlb])
    ((expsign_facts hsb').2 _)
  obtain ⟨q0, k0, v0⟩ := scanReal_decimal (w := 12) (rest := ' ' :: c1 :: '.' :: (f1 ++ c2 :: '.' :: (f2.map zero ++ (c2' :: zero e2 :: cb :: '.' ::
    (fb ++ cb' :: eb :: ' ' :: T))))) hday (by omega) (by omega) (stops_blank _)
  have ke2 := scanInt_exponent (rest := cb :: '.' :: (fb ++ cb' :: eb :: ' ' :: T)) hs2' he2 (sign_stops hsb _)
  have keb := scanInt_exponent (rest := ' ' :: T) hsb' heb (stops_blank _)
  have hz : zero e2 = e2 := by
    have := zero_digits he2
    simpa using this
  rw [hz] at k1 k2 k0
  obtain ⟨cl, hcl, hcl'⟩ : ∃ cl, (if cls = ' ' then 'U' else cls) = cl ∧ cl ∈ ['U', 'C', 'S'] := by
    refine ⟨_, rfl, ?_⟩
    simp only [List.mem_cons, List.not_mem_nil, or_false] at hcls
    rcases hcls with rfl | rfl | rfl | rfl <;> decide
  obtain ⟨t, kt, ht⟩ := scanText_designator ((if d = ' ' then '.' else d) :: M.map bar) (by
      intro c hc
      rcases List.mem_cons.1 hc with rfl | hc
      · split_ifs with hd
        · decide
        · exact printed_space (hdp d (by simp)) hd
      · obtain ⟨x, hx, rfl⟩ := List.mem_map.1 hc
        unfold bar
        split_ifs with hb
        · decide
        · exact printed_space (hdp x (by simp [hx])) hb) (by simp) (by simp [hM]) e (hdp e (by simp))
    (yr ++ (day ++ ' ' :: c1 :: '.' :: (f1 ++ c2 :: '.' :: (f2.map zero ++ (c2' :: e2 :: cb :: '.' :: (fb ++ cb' :: eb :: ' ' :: T))))))
  have ky := scanInt_eq (sg := []) (ds := yr) (w := 2) (rest := day ++ ' ' :: c1 :: '.' :: (f1 ++ c2 :: '.' :: (f2.map zero ++ (c2' :: e2 :: cb :: '.' ::
    (fb ++ cb' :: eb :: ' ' :: T))))) (.inl ⟨rfl, rfl⟩) hyr (by rintro rfl; simp at hyl) (by simp [hyl]) (.inl (by simp [hyl]))
  have ks := scanInt_whole (w := 5) (rest := cl :: ' ' :: ((if d = ' ' then '.' else d) :: M.map bar ++ e :: ' ' :: (yr ++ (day ++ ' ' :: c1 :: '.' :: (f1 ++ c2 :: '.' ::
    (f2.map zero ++ (c2' :: e2 :: cb :: '.' :: (fb ++ cb' :: eb :: ' ' :: T)))))))) hsat (by omega) (stops_cons (by
      simp only [List.mem_cons, List.not_mem_nil, or_false] at hcl'
      rcases hcl' with rfl | rfl | rfl <;> decide))
  have k00 := scanInt_eq (sg := []) (ds := ['1']) (w := 2) (rest := ' ' :: (sat ++ cl :: ' ' :: ((if d = ' ' then '.' else d) :: M.map bar ++ e :: ' ' :: (yr ++
    (day ++ ' ' :: c1 :: '.' :: (f1 ++ c2 :: '.' :: (f2.map zero ++ (c2' :: e2 :: cb :: '.' :: (fb ++ cb' :: eb :: ' ' :: T))))))))) (.inl ⟨rfl, rfl⟩) (by unfold Digits; decide) (by simp)
    (by simp) (.inr (stops_blank _))
  have kc : ∀ s, scanChar (cl :: s) = some (cl, s) := by
    intro s
    unfold scanChar
    rw [skip_none (by
      simp only [List.mem_cons, List.not_mem_nil, or_false] at hcl'
      rcases hcl' with rfl | rfl | rfl <;> decide)]
  refine ⟨_, ⟨numeral yr, q0, q1, q2, σ2' * numeral [e2], q3, σb' * numeral [eb]⟩, rfl, ?_, rfl, v0, ?_, ?_, ?_⟩
  · unfold fixed1 scan1
    rw [hcl, hz]
    have e : "1 ".toList ++ (sat ++ (cl :: ' ' :: (if d = ' ' then '.' else d) :: (M.map bar ++ (e :: ' ' :: (yr ++ (day ++ (' ' :: (c1 :: '.' :: f1 ++
        (c2 :: '.' :: (f2.map zero ++ (c2' :: e2 :: cb :: '.' :: (fb ++ [cb', eb, ' '])))))))))))) ++ T =
        [] ++ (['1'] ++ ' ' :: (sat ++ cl :: ' ' :: ((if d = ' ' then '.' else d) :: M.map bar ++ e :: ' ' :: (yr ++
    (day ++ ' ' :: c1 :: '.' :: (f1 ++ c2 :: '.' :: (f2.map zero ++ (c2' :: e2 :: cb :: '.' :: (fb ++ cb' :: eb :: ' ' :: T))))))))) := by
      rw [show "1 ".toList = ['1', ' '] from rfl]
      simp only [List.append_assoc, List.cons_append, List.nil_append]
    rw [e, k00]
    simp only [Option.bind_some]
    rw [scanInt_blank, ks]
    simp only [Option.bind_some]
    rw [kc]
    simp only [Option.bind_some]
    rw [ht]
    simp only [Option.bind_some]
    rw [scanInt_blanks]
    rw [List.nil_append] at ky
    rw [ky]
    simp only [Option.bind_some]
    rw [k0]
    simp only [Option.bind_some]
    rw [scanReal_blank, k1]
    simp only [Option.bind_some]
    rw [k2]
    simp only [Option.bind_some]
    rw [ke2]
    simp only [Option.bind_some]
    rw [k3]
    simp only [Option.bind_some]
    rw [keb]
    rfl
  · rw [v1, hl1]
  · rw [v2, List.length_map, hl2, numeral_zero hf2]
  · rw [v3, hlb]

/-- The corrected second line, up to the mean anomaly. -/
def fixed2 (s i o e w m : Str) : Str :=
  "2 ".toList ++ (s ++ ' ' :: (i ++ ' ' :: (o ++ '.' :: (e.map zero ++ ' ' :: (w ++ ' ' :: (m ++ [' ']))))))

theorem fix2_eq (s i o : Str) (c : Char) (e w m rest : Str) (h1 : s.length = 5) (h2 : i.length = 8) (h3 : o.length = 8) (h4 : e.length = 7) :
    fix2 ("2 ".toList ++ s ++ [' '] ++ i ++ [' '] ++ o ++ [c] ++ e ++ [' '] ++ w ++ [' '] ++ m ++ [' '] ++ rest) = fixed2 s i o e w m ++ rest := by
  have htwo : "2 ".toList.length = 2 := rfl
  unfold fix2
  have s1 : ("2 ".toList ++ s ++ [' '] ++ i ++ [' '] ++ o ++ [c] ++ e ++ [' '] ++ w ++ [' '] ++ m ++ [' '] ++ rest).set 25 '.' =
      "2 ".toList ++ s ++ [' '] ++ i ++ [' '] ++ o ++ ['.'] ++ (e ++ ([' '] ++ w ++ [' '] ++ m ++ [' '] ++ rest)) := by
    have hl : ("2 ".toList ++ s ++ [' '] ++ i ++ [' '] ++ o).length = 25 := by simp [h1, h2, h3]
    rw [show "2 ".toList ++ s ++ [' '] ++ i ++ [' '] ++ o ++ [c] ++ e ++ [' '] ++ w ++ [' '] ++ m ++ [' '] ++ rest =
      ("2 ".toList ++ s ++ [' '] ++ i ++ [' '] ++ o) ++ c :: (e ++ ([' '] ++ w ++ [' '] ++ m ++ [' '] ++ rest)) by
        simp only [List.append_assoc, List.cons_append, List.nil_append], List.set_append_right _ _ (by omega), hl]
    simp only [Nat.sub_self, List.set_cons_zero, List.append_assoc, List.cons_append, List.nil_append]
  have e1 := blankFrom_eq '0' e (A := "2 ".toList ++ s ++ [' '] ++ i ++ [' '] ++ o ++ ['.']) (i := 26) (by simp [h1, h2, h3]) ([' '] ++ w ++ [' '] ++ m ++ [' '] ++ rest)
  rw [h4] at e1
  rw [s1, e1]
  unfold fixed2
  simp only [List.append_assoc, List.cons_append, List.nil_append]
  rfl

/-- The second line, read. -/
theorem scan2_ok {line : Str} {sat : ℕ} {incl node ecc peri anomaly motion : ℝ} (h : Says2 line sat incl node ecc peri anomaly motion) (junk : Str) :
    53 ≤ line.length ∧ ∃ s x, text (fix2 (line ++ nul :: junk)) = .ok s ∧ scan2 (decide ((fix2 (line ++ nul :: junk)).getD 52 nul ≠ ' ')) s = some x ∧ x.satnum = sat ∧
      (x.inclo : ℝ) = incl ∧ (x.nodeo : ℝ) = node ∧ (x.ecco : ℝ) = ecc ∧ (x.argpo : ℝ) = peri ∧ (x.mo : ℝ) = anomaly ∧ (x.no : ℝ) = motion := by
  obtain ⟨s, i, o, c, e, w, m, n, rest, rfl, hs, hi, ho, hc, he, hel, rfl, hw, hm, hn, hr⟩ := h
  have hl1 := hs.1
  have hl2 := hi.1
  have hl3 := ho.1
  have hl4 := hw.1
  have hl5 := hm.1
  have hl6 := hn.1
  have htwo : "2 ".toList.length = 2 := rfl
  refine ⟨by simp [hl1, hl2, hl3, hl4, hl5, hl6, hel]; omega, ?_⟩
  rw [show "2 ".toList ++ s ++ [' '] ++ i ++ [' '] ++ o ++ [c] ++ e ++ [' '] ++ w ++ [' '] ++ m ++ [' '] ++ n ++ rest ++ nul :: junk =
    "2 ".toList ++ s ++ [' '] ++ i ++ [' '] ++ o ++ [c] ++ e ++ [' '] ++ w ++ [' '] ++ m ++ [' '] ++ (n ++ (rest ++ nul :: junk)) by
      simp only [List.append_assoc], fix2_eq s i o c e w m _ hl1 hl2 hl3 hel]
  have hF : nul ∉ fixed2 s i o e w m ++ (n ++ rest) := by
    have hbl : nul ≠ ' ' := by decide
    have hdot : nul ≠ '.' := by decide
    have hone : nul ∉ "2 ".toList := by decide
    unfold fixed2
    simp only [List.mem_append, List.mem_cons, List.not_mem_nil, or_false, not_or]
    exact ⟨⟨hone, whole_nul hs, hbl, decimal_nul hi, hbl, decimal_nul ho, hdot, digits_nul (digits_zero he), hbl, decimal_nul hw, hbl, decimal_nul hm, hbl⟩,
      decimal_nul hn, fun hx => printed_nul (hr _ hx) rfl⟩
  have htext : text (fixed2 s i o e w m ++ (n ++ (rest ++ nul :: junk))) = .ok (fixed2 s i o e w m ++ (n ++ rest)) := by
    rw [show fixed2 s i o e w m ++ (n ++ (rest ++ nul :: junk)) = (fixed2 s i o e w m ++ (n ++ rest)) ++ nul :: junk by simp only [List.append_assoc],
      text_append hF (by simp)]
    simp
  rw [htext]
  have hFl : (fixed2 s i o e w m).length = 52 := by
    unfold fixed2
    simp [hl1, hl2, hl3, hl4, hl5, hel]
  obtain ⟨-, k, ds, fs, rfl, hd, hdl, hf, hfl, rfl⟩ := hn
  have hkd : k + ds.length = 2 := by simp at hl6; omega
  have hget : ∀ a t, List.replicate k ' ' ++ ds ++ ['.'] ++ fs = a :: t → (fixed2 s i o e w m ++ (List.replicate k ' ' ++ ds ++ ['.'] ++ fs ++ (rest ++ nul :: junk))).getD 52 nul = a := by
    intro a t hat
    rw [hat, List.getD_eq_getElem?_getD, List.getElem?_append_right (by omega), hFl]
    rfl
  obtain ⟨qi, ki, vi⟩ := scanReal_decimal (w := 9) (rest := ' ' :: (o ++ '.' :: (e.map zero ++ ' ' :: (w ++ ' ' :: (m ++ ' ' :: (List.replicate k ' ' ++ ds ++ ['.'] ++ fs ++ rest)))))) hi
    (by omega) (by omega) (stops_blank _)
  obtain ⟨qo, ko, vo⟩ := scanReal_decimal (w := 9) (rest := '.' :: (e.map zero ++ ' ' :: (w ++ ' ' :: (m ++ ' ' :: (List.replicate k ' ' ++ ds ++ ['.'] ++ fs ++ rest))))) ho
    (by omega) (by omega) (stops_cons (by decide))
  obtain ⟨qw, kw, vw⟩ := scanReal_decimal (w := 9) (rest := ' ' :: (m ++ ' ' :: (List.replicate k ' ' ++ ds ++ ['.'] ++ fs ++ rest))) hw
    (by omega) (by omega) (stops_blank _)
  obtain ⟨qm, km, vm⟩ := scanReal_decimal (w := 9) (rest := ' ' :: (List.replicate k ' ' ++ ds ++ ['.'] ++ fs ++ rest)) hm (by omega) (by omega) (stops_blank _)
  have ke := scanReal_eq (sg := []) (ds := []) (fs := e.map zero) (w := 8) (rest := ' ' :: (w ++ ' ' :: (m ++ ' ' :: (List.replicate k ' ' ++ ds ++ ['.'] ++ fs ++ rest)))) (.inl ⟨rfl, rfl⟩)
    (by intro _ h; cases h) (digits_zero he) (by intro h; rw [← List.length_eq_zero_iff, List.length_map] at h; omega) (by simp [hel]) (.inr (stops_blank _))
  have ks := scanInt_whole (w := 5) (rest := ' ' :: (i ++ ' ' :: (o ++ '.' :: (e.map zero ++ ' ' :: (w ++ ' ' :: (m ++ ' ' :: (List.replicate k ' ' ++ ds ++ ['.'] ++ fs ++ rest))))))) hs
    (by omega) (stops_blank _)
  have k00 := scanInt_eq (sg := []) (ds := ['2']) (w := 2) (rest := ' ' :: (s ++ ' ' :: (i ++ ' ' :: (o ++ '.' :: (e.map zero ++ ' ' :: (w ++ ' ' :: (m ++ ' ' ::
    (List.replicate k ' ' ++ ds ++ ['.'] ++ fs ++ rest)))))))) (.inl ⟨rfl, rfl⟩) (by unfold Digits; decide) (by simp) (by simp) (.inr (stops_blank _))
  have hfn : fs ≠ [] := by rintro rfl; simp at hfl
  have kn : scanReal (if (decide ((fixed2 s i o e w m ++ (List.replicate k ' ' ++ ds ++ ['.'] ++ fs ++ (rest ++ nul :: junk))).getD 52 nul ≠ ' ')) = true then 11 else 10)
      (List.replicate k ' ' ++ ds ++ ['.'] ++ fs ++ rest) = some ((numeral (ds ++ fs) : ℚ) / 10 ^ fs.length, rest) := by
    have hk : k = 0 ∨ k = 1 := by omega
    rcases hk with rfl | rfl
    · obtain ⟨d, ds, rfl⟩ : ∃ d t, ds = d :: t := by
        rcases ds with _ | ⟨d, t⟩
        · simp at hdl
        · exact ⟨d, t, rfl⟩
      rw [hget d (ds ++ ['.'] ++ fs) (by simp), if_pos (by
        have := (digit_facts d (hd d List.mem_cons_self)).2.2.2.2.2.2.1
        simpa using this)]
      have := scanReal_eq (sg := []) (ds := d :: ds) (fs := fs) (rest := rest) (w := 11) (.inl ⟨rfl, rfl⟩) hd hf hfn (by simp at hkd ⊢; omega) (.inl (by simp at hkd ⊢; omega))
      rw [show List.replicate 0 ' ' ++ (d :: ds) ++ ['.'] ++ fs ++ rest = [] ++ ((d :: ds) ++ '.' :: (fs ++ rest)) by simp, this]
      simp
    · rw [hget ' ' (ds ++ ['.'] ++ fs) (by simp), if_neg (by simp)]
      have := scanReal_eq (sg := []) (ds := ds) (fs := fs) (rest := rest) (w := 10) (.inl ⟨rfl, rfl⟩) hd hf hfn (by simp; omega) (.inl (by simp; omega))
      rw [show List.replicate 1 ' ' ++ ds ++ ['.'] ++ fs ++ rest = List.replicate 1 ' ' ++ ([] ++ (ds ++ '.' :: (fs ++ rest))) by simp, scanReal_blanks, this]
      simp
  refine ⟨_, ⟨sat, qi, qo, (numeral (e.map zero) : ℚ) / 10 ^ (e.map zero).length, qw, qm, (numeral (ds ++ fs) : ℚ) / 10 ^ fs.length⟩, rfl, ?_, rfl, vi, vo, ?_, vw, vm, ?_⟩
  · generalize decide ((fixed2 s i o e w m ++ (List.replicate k ' ' ++ ds ++ ['.'] ++ fs ++ (rest ++ nul :: junk))).getD 52 nul ≠ ' ') = wide at kn ⊢
    unfold fixed2 scan2
    have eq : "2 ".toList ++ (s ++ ' ' :: (i ++ ' ' :: (o ++ '.' :: (e.map zero ++ ' ' :: (w ++ ' ' :: (m ++ [' '])))))) ++ (List.replicate k ' ' ++ ds ++ ['.'] ++ fs ++ rest) =
        [] ++ (['2'] ++ ' ' :: (s ++ ' ' :: (i ++ ' ' :: (o ++ '.' :: (e.map zero ++ ' ' :: (w ++ ' ' :: (m ++ ' ' ::
    (List.replicate k ' ' ++ ds ++ ['.'] ++ fs ++ rest)))))))) := by
      rw [show "2 ".toList = ['2', ' '] from rfl]
      simp only [List.append_assoc, List.cons_append, List.nil_append]
    rw [eq, k00]
    simp only [Option.bind_some]
    rw [scanInt_blank, ks]
    simp only [Option.bind_some]
    rw [scanReal_blank, ki]
    simp only [Option.bind_some]
    rw [scanReal_blank, ko]
    simp only [Option.bind_some]
    rw [List.nil_append, List.nil_append, List.nil_append] at ke
    rw [ke]
    simp only [Option.bind_some]
    rw [scanReal_blank, kw]
    simp only [Option.bind_some]
    rw [scanReal_blank, km]
    simp only [Option.bind_some]
    rw [scanReal_blank, kn]
    simp
  · push_cast
    rw [List.length_map, numeral_zero he, hel]
  · push_cast
    rw [hfl]

/-! ## The epoch -/

theorem monthLoop_any (y D : ℤ) : ∀ j i, 12 - i = j → 1 ≤ i → i ≤ 12 → ∃ m, 1 ≤ m ∧ m ≤ 12 ∧
    monthLoop y D i (before (decide (y % 4 = 0)) i) = (m, (before (decide (y % 4 = 0)) m : ℤ)) := by
  intro j
  induction j with
  | zero =>
    intro i hj h1 h2
    refine ⟨i, h1, h2, ?_⟩
    rw [monthLoop, if_neg (by omega)]
  | succ j ih =>
    intro i hj h1 h2
    rw [monthLoop]
    split_ifs with h
    · have hb : (before (decide (y % 4 = 0)) i : ℤ) + lmonth y i = before (decide (y % 4 = 0)) (i + 1) := by
        rw [lmonth_eq y i h1 (by omega)]
        unfold before
        rw [Finset.sum_Ico_succ_top h1]
        push_cast
        rfl
      rw [hb]
      exact ih (i + 1) (by omega) (by omega) (by omega)
    · exact ⟨i, h1, h2, rfl⟩

/-- The Julian date of a day of the year, for every day and time. -/
theorem jday_days (y : ℕ) (h1 : 1900 < y) (h2 : y < 2100) (days : ℝ) :
    jday (days2mdhms y days) = julianDate (instant y 1 1 0 0 0) + (days - 1) := by
  obtain ⟨m, hm1, hm2, hm⟩ := monthLoop_any y ⌊days⌋ 11 1 rfl (le_refl _) (by omega)
  have hL : decide ((y : ℤ) % 4 = 0) = isLeap y := by
    rw [isLeap_iff h1 h2]
    simp only [decide_eq_decide]; omega
  rw [hL] at hm
  have hb1 : before (isLeap y) 1 = 0 := by simp [before]
  rw [hb1] at hm
  have hlen : 1 ≤ monthLen (isLeap y) m := by
    rcases isLeap y <;> interval_cases m <;> decide
  have hj := C151_jday y m 1 ⟨hm1, hm2, le_refl _, hlen, .inl h1, .inl h2⟩ 0 0 0
  unfold days2mdhms
  dsimp only
  rw [show ((0 : ℕ) : ℤ) = 0 from rfl] at hm
  rw [hm]
  have hn : (dayNumber y m 1 : ℝ) = dayNumber y 1 1 + before (isLeap y) m := by
    unfold dayNumber before
    push_cast
    simp
  unfold jday at hj ⊢
  unfold julianDate instant at hj ⊢
  rw [hn] at hj
  push_cast at hj ⊢
  linarith

/-! ## Properties -/

/-- The year of two digits. -/
def fullYear (year : ℕ) : ℕ := if year < 57 then 2000 + year else 1900 + year

theorem epoch_eq (x : Raw1) {year : ℕ} {days : ℝ} (hy : year < 100) (h1 : x.epochyr = year) (h2 : (x.epochdays : ℝ) = days) :
    jday (days2mdhms (if x.epochyr < 57 then x.epochyr + 2000 else x.epochyr + 1900) x.epochdays) =
      julianDate (instant (fullYear year) 1 1 0 0 0) + (days - 1) := by
  have : (if x.epochyr < 57 then x.epochyr + 2000 else x.epochyr + 1900) = ((fullYear year : ℕ) : ℤ) := by
    rw [h1]
    unfold fullYear
    split_ifs <;> push_cast <;> omega
  rw [this, h2, jday_days]
  · unfold fullYear; split_ifs <;> omega
  · unfold fullYear; split_ifs <;> omega

/-- Corrections make no terminator. -/
theorem blankAt_nul {c : Char} (hc : c ≠ nul) {i : ℕ} {l : Str} (h : nul ∉ l) : nul ∉ blankAt c i l := by
  unfold blankAt
  split_ifs
  · intro hm
    rcases List.mem_or_eq_of_mem_set hm with hm | hm
    exacts [h hm, hc hm.symm]
  · exact h

theorem blankFrom_nul {c : Char} (hc : c ≠ nul) (n : ℕ) : ∀ {i : ℕ} {l : Str}, nul ∉ l → nul ∉ blankFrom c i n l := by
  induction n with
  | zero => intro i l h; exact h
  | succ n ih => intro i l h; exact ih (blankAt_nul hc h)

theorem moveSign_nul {i : ℕ} {l : Str} (hi : i + 1 < l.length) (h : nul ∉ l) : nul ∉ moveSign i l := by
  unfold moveSign
  intro hm
  rcases List.mem_or_eq_of_mem_set hm with hm | hm
  · split_ifs at hm
    · rcases List.mem_or_eq_of_mem_set hm with hm | hm
      · exact h hm
      · rw [List.getD_eq_getElem _ _ hi] at hm
        exact h (hm ▸ List.getElem_mem _)
    · exact h hm
  · exact absurd hm (by decide)

theorem blankAt_length (c : Char) (i : ℕ) (l : Str) : (blankAt c i l).length = l.length := by
  unfold blankAt
  split_ifs <;> simp

theorem blankFrom_length (c : Char) (n : ℕ) : ∀ (i : ℕ) (l : Str), (blankFrom c i n l).length = l.length := by
  induction n with
  | zero => intro i l; rfl
  | succ n ih => intro i l; rw [blankFrom, ih, blankAt_length]

theorem moveSign_length (i : ℕ) (l : Str) : (moveSign i l).length = l.length := by
  unfold moveSign
  rw [List.length_set]
  split_ifs <;> simp

theorem fix1_nul {l : Str} (hl : 69 ≤ l.length) (h : nul ∉ l) : nul ∉ fix1 l := by
  unfold fix1
  refine blankAt_nul (by decide) (blankAt_nul (by decide) (moveSign_nul ?_ (blankAt_nul (by decide) (blankFrom_nul (by decide) _ (blankAt_nul (by decide)
    (blankAt_nul (by decide) (moveSign_nul ?_ (blankFrom_nul (by decide) _ h))))))))
  · simp only [blankAt_length, blankFrom_length, moveSign_length]; omega
  · simp only [blankFrom_length]; omega

theorem take_blankAt (c : Char) {i n : ℕ} (h : n ≤ i) (l : Str) : (blankAt c i l).take n = l.take n := by
  unfold blankAt
  split_ifs
  · rw [List.take_set_of_le h]
  · rfl

theorem take_blankFrom (c : Char) (k : ℕ) : ∀ {i n : ℕ}, n ≤ i → ∀ l : Str, (blankFrom c i k l).take n = l.take n := by
  induction k with
  | zero => intro i n _ l; rfl
  | succ k ih => intro i n h l; rw [blankFrom, ih (by omega), take_blankAt c h]

theorem take_moveSign {i n : ℕ} (h : n ≤ i) (l : Str) : (moveSign i l).take n = l.take n := by
  unfold moveSign
  rw [List.take_set_of_le (by omega)]
  split_ifs
  · rw [List.take_set_of_le h]
  · rfl

/-- The first seven characters stay as they are. -/
theorem fix1_start (l : Str) (n : ℕ) (h : n ≤ 7) : ∃ r, fix1 l = l.take n ++ r := by
  refine ⟨(fix1 l).drop n, ?_⟩
  have : (fix1 l).take n = l.take n := by
    unfold fix1
    rw [take_blankAt _ (by omega), take_blankAt _ (by omega), take_moveSign (by omega), take_blankAt _ (by omega), take_blankFrom _ _ (by omega),
      take_blankAt _ (by omega), take_blankAt _ (by omega), take_moveSign (by omega), take_blankFrom _ _ (by omega)]
  rw [← this, List.take_append_drop]

theorem numeral_two {s : Str} (h : Digits s) (hl : s.length = 2) : numeral s < 100 := by
  obtain ⟨a, b, rfl⟩ := List.length_eq_two.1 hl
  have key : ∀ x ∈ "0123456789".toList, ∀ y ∈ "0123456789".toList, numeral [x, y] < 100 := by decide +kernel
  exact key a (h a (by simp)) b (h b (by simp))

/-- **C172 (elements).** Two lines in the format give the elements that stand in their columns, in radians and minutes: number of the satellite, inclination,
right ascension of the node, eccentricity, argument of perigee, mean anomaly, mean motion and its derivatives (as given), and B*. The epoch is the day of the year counted
from 1 January 0h as day 1, for any number of days, in the years 1957 to 2056, and is given to SGP4 in days since 1949-12-31 0h; the semi-major axis is that of Kepler's third law. What follows the columns – the type of the ephemeris, the number of
the set, the number of revolutions, the checksum – has no influence. -/
theorem C172_elements (tumin : ℝ) (line1 line2 : Str) (year sat : ℕ) (days ndot nddot bstar incl node ecc peri anomaly motion : ℝ)
    (h1 : Says1 line1 year days ndot nddot bstar) (h2 : Says2 line2 sat incl node ecc peri anomaly motion) (junk1 junk2 : Str) :
    ∃ e, twoline2rv tumin (line1 ++ nul :: junk1) (line2 ++ nul :: junk2) = .ok e ∧ e.satnum = sat ∧
      e.inclo = incl * Real.pi / 180 ∧ e.nodeo = node * Real.pi / 180 ∧ e.ecco = ecc ∧ e.argpo = peri * Real.pi / 180 ∧ e.mo = anomaly * Real.pi / 180 ∧
      e.no = motion * (2 * Real.pi) / 1440 ∧ e.ndot = ndot * (2 * Real.pi) / 1440 ^ 2 ∧ e.nddot = nddot * (2 * Real.pi) / 1440 ^ 3 ∧ e.bstar = bstar ∧
      e.jdsatepoch = julianDate (instant (fullYear year) 1 1 0 0 0) + (days - 1) ∧
      e.epoch = (instant (fullYear year) 1 1 0 0 0 - instant 1949 12 31 0 0 0) / 86400 + (days - 1) ∧
      (0 < motion → 0 < tumin → 0 < e.a ∧ e.a ^ 3 * (e.no * tumin) ^ 2 = 1) ∧ e.alta = e.a * (1 + ecc) - 1 ∧ e.altp = e.a * (1 - ecc) - 1 := by
  have hyear : year < 100 := by
    obtain ⟨_, _, _, yr, _, _, _, _, _, _, -, -, -, -, -, hyr, hyl, rfl, -⟩ := h1.is
    exact numeral_two hyr hyl
  obtain ⟨hl1, s1, x, t1, e1, a1, a2, a3, a4, a5⟩ := scan1_ok h1 junk1
  obtain ⟨hl2, s2, y, t2, e2, b1, b2, b3, b4, b5, b6, b7⟩ := scan2_ok h2 junk2
  have hpi := Real.pi_pos
  have hx : xpdotp = 1440 / (2 * Real.pi) := rfl
  refine ⟨convert tumin x y, ?_, b1, ?_, ?_, b4, ?_, ?_, ?_, ?_, ?_, a5, ?_, ?_, ?_, ?_, ?_⟩
  · unfold twoline2rv
    rw [if_neg (by simp only [List.length_append, List.length_cons]; omega), t1, t2]
    simp only [Res.bind]
    rw [e1, e2]
  · change (y.inclo : ℝ) * (Real.pi / 180) = _
    rw [b2]; ring
  · change (y.nodeo : ℝ) * (Real.pi / 180) = _
    rw [b3]; ring
  · change (y.argpo : ℝ) * (Real.pi / 180) = _
    rw [b5]; ring
  · change (y.mo : ℝ) * (Real.pi / 180) = _
    rw [b6]; ring
  · change (y.no : ℝ) / xpdotp = _
    rw [b7, hx]; field_simp
  · change (x.ndot : ℝ) / (xpdotp * 1440) = _
    rw [a3, hx]; field_simp
  · change (x.nddot : ℝ) * 10 ^ x.nexp / (xpdotp * 1440 * 1440) = _
    rw [a4, hx]; field_simp
  · exact epoch_eq x hyear a1 a2
  · change jday _ - 2433281.5 = _
    rw [epoch_eq x hyear a1 a2]
    have : (dayNumber 1949 12 31 : ℝ) = 18261 := by
      have : dayNumber 1949 12 31 = 18261 := by decide +kernel
      rw [this]; norm_num
    unfold julianDate
    have hi : instant 1949 12 31 0 0 0 = 18261 * 86400 := by unfold instant; rw [this]; push_cast; ring
    rw [hi]
    ring
  · intro hm ht
    have hno : 0 < (y.no : ℝ) / xpdotp * tumin := by
      rw [b7, hx]; positivity
    refine ⟨Real.rpow_pos_of_pos hno _, ?_⟩
    change (((y.no : ℝ) / xpdotp * tumin) ^ (-2 / 3 : ℝ)) ^ 3 * ((y.no : ℝ) / xpdotp * tumin) ^ 2 = 1
    generalize (y.no : ℝ) / xpdotp * tumin = z at hno
    rw [← Real.rpow_natCast (z ^ (-2 / 3 : ℝ)), ← Real.rpow_mul hno.le, ← Real.rpow_natCast z, ← Real.rpow_add hno]
    norm_num
  · change (convert tumin x y).a * (1 + (y.ecco : ℝ)) - 1 = _
    rw [b4]
  · change (convert tumin x y).a * (1 - (y.ecco : ℝ)) - 1 = _
    rw [b4]

/-- The buffer of a text of the settings. -/
theorem readChar_short {p : Ini.Paths} {ini : Str → Option Str} {key line : Str} {n : ℕ} (h : Ini.readString p ini key = line) (hl : line.length < n) :
    ∃ junk, Ini.readChar p ini key n = line ++ nul :: junk := by
  unfold Ini.readChar
  rw [h, List.take_of_length_le (by omega)]
  obtain ⟨k, hk⟩ : ∃ k, n - line.length = k + 1 := ⟨n - line.length - 1, by omega⟩
  rw [hk, List.replicate_succ]
  exact ⟨_, rfl⟩

/-- **C172 (settings).** The lines `tle1` and `tle2` of the settings are read into buffers of 80 characters: lines in the format of less than 80 characters give
their elements, and with a longer first line (without a terminator in it) the behaviour is undefined. -/
theorem C172_settings (tumin : ℝ) (p : Ini.Paths) (ini : Str → Option Str) :
    (∀ (year sat : ℕ) (days ndot nddot bstar incl node ecc peri anomaly motion : ℝ),
      Says1 (Ini.readString p ini "tle1".toList) year days ndot nddot bstar → (Ini.readString p ini "tle1".toList).length < 80 →
      Says2 (Ini.readString p ini "tle2".toList) sat incl node ecc peri anomaly motion → (Ini.readString p ini "tle2".toList).length < 80 →
      ∃ e, twoline2rv tumin (Ini.readChar p ini "tle1".toList 80) (Ini.readChar p ini "tle2".toList 80) = .ok e ∧ e.inclo = incl * Real.pi / 180 ∧
        e.nodeo = node * Real.pi / 180 ∧ e.ecco = ecc ∧ e.argpo = peri * Real.pi / 180 ∧ e.mo = anomaly * Real.pi / 180 ∧ e.no = motion * (2 * Real.pi) / 1440 ∧
        e.bstar = bstar ∧ e.jdsatepoch = julianDate (instant (fullYear year) 1 1 0 0 0) + (days - 1)) ∧
    (80 ≤ (Ini.readString p ini "tle1".toList).length → nul ∉ Ini.readString p ini "tle1".toList →
      twoline2rv tumin (Ini.readChar p ini "tle1".toList 80) (Ini.readChar p ini "tle2".toList 80) = .ub) := by
  refine ⟨?_, ?_⟩
  · intro year sat days ndot nddot bstar incl node ecc peri anomaly motion h1 hl1 h2 hl2
    obtain ⟨j1, e1⟩ := readChar_short rfl hl1
    obtain ⟨j2, e2⟩ := readChar_short rfl hl2
    rw [e1, e2]
    obtain ⟨e, he, a1, a2, a3, a4, a5, a6, a7, a8, a9, a10, a11, -⟩ := C172_elements tumin _ _ _ _ _ _ _ _ _ _ _ _ _ _ h1 h2 j1 j2
    exact ⟨e, he, a2, a3, a4, a5, a6, a7, a10, a11⟩
  · intro hl hn
    have hb : nul ∉ Ini.readChar p ini "tle1".toList 80 := by
      unfold Ini.readChar
      rw [Nat.sub_eq_zero_of_le hl, List.replicate_zero, List.append_nil]
      exact fun h => hn (List.mem_of_mem_take h)
    have hlen : (Ini.readChar p ini "tle1".toList 80).length = 80 := by
      unfold Ini.readChar
      simp; omega
    generalize Ini.readChar p ini "tle1".toList 80 = b at hb hlen
    unfold twoline2rv
    split_ifs with h
    · rfl
    · have : text (fix1 b) = .ub := by
        unfold text
        rw [if_neg (fix1_nul (by omega) hb)]
      rw [this]; rfl

theorem text_cases (b : Str) : text b ≠ .throws ∧ text b ≠ .stuck := by
  unfold text
  split_ifs <;> exact ⟨by simp, by simp⟩

/-- C172: the columns are used whatever the text: a first buffer without column 69, or a second one without column 53, is read or written outside. -/
theorem C172_columns (tumin : ℝ) (buffer1 buffer2 : Str) (h : ¬(∃ c, buffer1[68]? = some c) ∨ ¬(∃ c, buffer2[52]? = some c)) :
    twoline2rv tumin buffer1 buffer2 = .ub := by
  unfold twoline2rv
  refine if_pos (h.imp (fun h => ?_) fun h => ?_) <;> by_contra hl <;> exact h ⟨_, List.getElem?_eq_getElem (by omega)⟩

example (tumin : ℝ) (buffer2 : Str) : twoline2rv tumin (List.replicate 68 '1') buffer2 = .ub := C172_columns tumin _ _ (.inl (by simp))

/-- **C172 (alphanumeric numbers).** If the number of the satellite in the first line begins with something that is no digit and no sign (such as the letter of
an "Alpha-5" number), the behaviour is undefined, whatever else the lines say: nothing that follows is read. -/
theorem C172_alpha (tumin : ℝ) (k : ℕ) (c : Char) (rest buffer2 : Str) (hk : k < 5) (hd : c.isDigit = false) (hs : isSpace c = false) (hp : c ≠ '+') (hm : c ≠ '-') :
    twoline2rv tumin ("1 ".toList ++ List.replicate k ' ' ++ c :: rest) buffer2 = .ub := by
  have key : ∀ x ∈ "1 ".toList, decide (x ≠ nul) = true := by decide
  unfold twoline2rv
  split_ifs with h
  · rfl
  · obtain ⟨r, hr⟩ := fix1_start ("1 ".toList ++ List.replicate k ' ' ++ c :: rest) (2 + k + 1) (by omega)
    have ht : ("1 ".toList ++ List.replicate k ' ' ++ c :: rest).take (2 + k + 1) = "1 ".toList ++ List.replicate k ' ' ++ [c] := by
      rw [show "1 ".toList ++ List.replicate k ' ' ++ c :: rest = ("1 ".toList ++ List.replicate k ' ' ++ [c]) ++ rest by simp, List.take_append_of_le_length (by simp; omega),
        List.take_of_length_le (by simp; omega)]
    rw [hr, ht]
    rcases h1 : text ("1 ".toList ++ List.replicate k ' ' ++ [c] ++ r) with s | _ | _ | _
    · have hscan : scan1 s = none := by
        unfold text at h1
        split_ifs at h1 with hn
        obtain rfl := Res.ok.inj h1
        by_cases hc : c = nul
        · subst hc
          have e : ("1 ".toList ++ List.replicate k ' ' ++ [nul] ++ r).takeWhile (· ≠ nul) = "1 ".toList ++ List.replicate k ' ' := by
            rw [List.append_assoc, List.takeWhile_append_of_pos]
            · simp
            · intro x hx
              rcases List.mem_append.1 hx with hx | hx
              · exact key x hx
              · rw [(List.mem_replicate.1 hx).2]; decide
          rw [e]
          interval_cases k <;> decide +kernel
        · have e : ("1 ".toList ++ List.replicate k ' ' ++ [c] ++ r).takeWhile (· ≠ nul) = "1 ".toList ++ List.replicate k ' ' ++ [c] ++ r.takeWhile (· ≠ nul) := by
            rw [List.takeWhile_append_of_pos]
            intro x hx
            rcases List.mem_append.1 hx with hx | hx
            · rcases List.mem_append.1 hx with hx | hx
              · exact key x hx
              · rw [(List.mem_replicate.1 hx).2]; decide
            · rw [List.mem_singleton.1 hx]; simpa using hc
          rw [e]
          generalize r.takeWhile (· ≠ nul) = t
          have k0 := scanInt_eq (sg := []) (ds := ['1']) (w := 2) (rest := ' ' :: (List.replicate k ' ' ++ c :: t)) (.inl ⟨rfl, rfl⟩) (by unfold Digits; decide) (by simp)
            (by simp) (.inr (stops_blank _))
          have k1 : scanInt 5 (c :: t) = none := by
            unfold scanInt
            rw [skip_none hs]
            have := sign_eq (sg := []) (w := 5) (s := c :: t) (.inl ⟨rfl, rfl⟩) (by rintro a b e; obtain ⟨rfl, -⟩ := List.cons.inj e; exact ⟨hp, hm⟩) (by simp)
            rw [List.nil_append] at this
            rw [this]
            dsimp only
            have hdg : takeDigits (5 - ([] : Str).length) (c :: t) = ([], c :: t) := by
              change takeDigits 5 _ = _
              rw [takeDigits, hd]; rfl
            rw [hdg]; rfl
          unfold scan1
          rw [show "1 ".toList ++ List.replicate k ' ' ++ [c] ++ t = [] ++ (['1'] ++ ' ' :: (List.replicate k ' ' ++ c :: t)) by
            rw [show "1 ".toList = ['1', ' '] from rfl]; simp, k0]
          simp only [Option.bind_some]
          rw [scanInt_blank, scanInt_blanks, k1]
          rfl
      simp only [Res.bind]
      rcases h2 : text (fix2 buffer2) with s2 | _ | _ | _
      · simp only [hscan]
      · rfl
      · exact absurd h2 (text_cases _).1
      · exact absurd h2 (text_cases _).2
    · rfl
    · exact absurd h1 (text_cases _).1
    · exact absurd h1 (text_cases _).2

/-! ## An example -/

theorem digits_of {s : Str} (h : s.all (· ∈ "0123456789".toList) = true) : Digits s := by
  intro c hc
  simpa using List.all_eq_true.1 h c hc

theorem digits0_of {s : Str} (h : s.all (· ∈ " 0123456789".toList) = true) : Digits0 s := by
  intro c hc
  simpa using List.all_eq_true.1 h c hc

theorem printed_of {s : Str} (h : s.all (fun c => decide (32 ≤ c.toNat ∧ c.toNat < 127)) = true) : ∀ c ∈ s, Printed c := by
  intro c hc
  simpa [Printed] using List.all_eq_true.1 h c hc

/-- A first line. -/
theorem ex_line1 : Says1 "1 25544U 98067A   08264.51782528 -.00002182  00000-0 -11606-4 0  2927".toList 8 264.51782528 (-0.00002182) 0 (-0.11606e-4) := by
  refine ⟨"25544".toList, 'U', "98067A  ".toList, "08".toList, "264.51782528".toList, "-.00002182".toList, " 00000-0".toList, "-11606-4".toList, "0  2927".toList, 25544,
    by decide +kernel, ⟨rfl, 0, "25544".toList, rfl, digits_of (by decide +kernel), by decide, by decide +kernel⟩, by decide, by decide +kernel, printed_of (by decide +kernel),
    digits_of (by decide +kernel), rfl, by decide +kernel, ?_, ?_, ?_, ?_, by decide +kernel, printed_of (by decide +kernel)⟩
  · refine ⟨by decide +kernel, 0, "264".toList, "51782528".toList, by decide +kernel, digits_of (by decide +kernel), by simp, digits_of (by decide +kernel), by decide +kernel, ?_⟩
    rw [show numeral ("264".toList ++ "51782528".toList) = 26451782528 by decide +kernel]
    norm_num
  · refine ⟨'-', -1, "00002182".toList, by decide +kernel, .inr (.inr ⟨rfl, rfl⟩), digits_of (by decide +kernel), by decide +kernel, ?_⟩
    rw [show numeral "00002182".toList = 2182 by decide +kernel]
    norm_num
  · refine ⟨' ', 1, "00000".toList, '-', -1, '0', by decide +kernel, .inl ⟨rfl, rfl⟩, digits0_of (by decide +kernel), by decide +kernel, .inr (.inr ⟨rfl, rfl⟩),
      digits_of (by decide +kernel), ?_⟩
    rw [show numeral "00000".toList = 0 by decide +kernel]
    norm_num
  · refine ⟨'-', -1, "11606".toList, '-', -1, '4', by decide +kernel, .inr (.inr ⟨rfl, rfl⟩), digits_of (by decide +kernel), by decide +kernel, .inr (.inr ⟨rfl, rfl⟩),
      digits_of (by decide +kernel), ?_⟩
    rw [show numeral "11606".toList = 11606 by decide +kernel, show numeral ['4'] = 4 by decide +kernel]
    norm_num

theorem ex_decimal {s : Str} {x : ℝ} {width whole frac : ℕ} (k : ℕ) (ds fs : Str) (n : ℕ) (h : s = List.replicate k ' ' ++ ds ++ ['.'] ++ fs) (hl : s.length = width)
    (hd : ds.all (· ∈ "0123456789".toList) = true) (hw : whole ≤ ds.length) (hf : fs.all (· ∈ "0123456789".toList) = true) (hfl : fs.length = frac)
    (hn : numeral (ds ++ fs) = n) (hx : x = n / 10 ^ frac) : Decimal width whole frac s x :=
  ⟨hl, k, ds, fs, h, digits_of hd, hw, digits_of hf, hfl, by rw [hn, hx]⟩

/-- A second line. -/
theorem ex_line2 : Says2 "2 25544  51.6416 247.4627 0006703 130.5360 325.0288 15.72125391563537".toList 25544 51.6416 247.4627 0.0006703 130.5360 325.0288 15.72125391 := by
  refine ⟨"25544".toList, " 51.6416".toList, "247.4627".toList, ' ', "0006703".toList, "130.5360".toList, "325.0288".toList, "15.72125391".toList, "563537".toList,
    by decide +kernel, ⟨rfl, 0, "25544".toList, rfl, digits_of (by decide +kernel), by decide, by decide +kernel⟩, ?_, ?_, ⟨by decide, by decide⟩, digits0_of (by decide +kernel),
    by decide +kernel, ?_, ?_, ?_, ?_, printed_of (by decide +kernel)⟩
  · exact ex_decimal 1 "51".toList "6416".toList 516416 (by decide +kernel) (by decide +kernel) (by decide +kernel) (by simp) (by decide +kernel) (by decide +kernel)
      (by decide +kernel) (by norm_num)
  · exact ex_decimal 0 "247".toList "4627".toList 2474627 (by decide +kernel) (by decide +kernel) (by decide +kernel) (by simp) (by decide +kernel) (by decide +kernel)
      (by decide +kernel) (by norm_num)
  · rw [show numeral "0006703".toList = 6703 by decide +kernel]
    norm_num
  · exact ex_decimal 0 "130".toList "5360".toList 1305360 (by decide +kernel) (by decide +kernel) (by decide +kernel) (by simp) (by decide +kernel) (by decide +kernel)
      (by decide +kernel) (by norm_num)
  · exact ex_decimal 0 "325".toList "0288".toList 3250288 (by decide +kernel) (by decide +kernel) (by decide +kernel) (by simp) (by decide +kernel) (by decide +kernel)
      (by decide +kernel) (by norm_num)
  · exact ex_decimal 0 "15".toList "72125391".toList 1572125391 (by decide +kernel) (by decide +kernel) (by decide +kernel) (by decide +kernel) (by decide +kernel)
      (by decide +kernel) (by decide +kernel) (by norm_num)

/-- Non-vacuity of `C172_elements`: two lines and their elements. -/
example (junk1 junk2 : Str) : ∃ e, twoline2rv 13.4 ("1 25544U 98067A   08264.51782528 -.00002182  00000-0 -11606-4 0  2927".toList ++ nul :: junk1)
    ("2 25544  51.6416 247.4627 0006703 130.5360 325.0288 15.72125391563537".toList ++ nul :: junk2) = .ok e ∧ e.satnum = 25544 ∧ e.ecco = 0.0006703 ∧
    e.bstar = -0.11606e-4 ∧ e.jdsatepoch = 2454466.5 + 263.51782528 := by
  obtain ⟨e, he, h1, h2, h3, h4, h5, h6, h7, h8, h9, h10, h11, -⟩ := C172_elements 13.4 _ _ _ _ _ _ _ _ _ _ _ _ _ _ ex_line1 ex_line2 junk1 junk2
  refine ⟨e, he, h1, h4, h10, h11.trans ?_⟩
  have hd : dayNumber (fullYear 8) 1 1 = 39446 := by decide +kernel
  unfold julianDate instant
  rw [hd]
  norm_num

/-- Non-vacuity of `C172_settings`. -/
example : ∃ e, twoline2rv 13.4 (Ini.readChar ⟨[], [], []⟩ (fun k => if k = "tle1".toList then some "1 25544U 98067A   08264.51782528 -.00002182  00000-0 -11606-4 0  2927".toList
      else some "2 25544  51.6416 247.4627 0006703 130.5360 325.0288 15.72125391563537".toList) "tle1".toList 80)
    (Ini.readChar ⟨[], [], []⟩ (fun k => if k = "tle1".toList then some "1 25544U 98067A   08264.51782528 -.00002182  00000-0 -11606-4 0  2927".toList
      else some "2 25544  51.6416 247.4627 0006703 130.5360 325.0288 15.72125391563537".toList) "tle2".toList 80) = .ok e ∧ e.ecco = 0.0006703 := by
  have e1 : Ini.readString ⟨[], [], []⟩ (fun k => if k = "tle1".toList then some "1 25544U 98067A   08264.51782528 -.00002182  00000-0 -11606-4 0  2927".toList
      else some "2 25544  51.6416 247.4627 0006703 130.5360 325.0288 15.72125391563537".toList) "tle1".toList =
      "1 25544U 98067A   08264.51782528 -.00002182  00000-0 -11606-4 0  2927".toList := by decide +kernel
  have e2 : Ini.readString ⟨[], [], []⟩ (fun k => if k = "tle1".toList then some "1 25544U 98067A   08264.51782528 -.00002182  00000-0 -11606-4 0  2927".toList
      else some "2 25544  51.6416 247.4627 0006703 130.5360 325.0288 15.72125391563537".toList) "tle2".toList =
      "2 25544  51.6416 247.4627 0006703 130.5360 325.0288 15.72125391563537".toList := by decide +kernel
  obtain ⟨e, he, -, -, h, -⟩ := (C172_settings 13.4 ⟨[], [], []⟩ (fun k => if k = "tle1".toList then some "1 25544U 98067A   08264.51782528 -.00002182  00000-0 -11606-4 0  2927".toList
      else some "2 25544  51.6416 247.4627 0006703 130.5360 325.0288 15.72125391563537".toList)).1 8 25544 264.51782528 (-0.00002182) 0 (-0.11606e-4) 51.6416 247.4627 0.0006703
    130.5360 325.0288 15.72125391 (by rw [e1]; exact ex_line1) (by rw [e1]; decide +kernel) (by rw [e2]; exact ex_line2) (by rw [e2]; decide +kernel)
  exact ⟨e, he, h⟩

/-- Non-vacuity of `C172_alpha`: satellite T0123. -/
example (buffer2 : Str) : twoline2rv 13.4 ("1 ".toList ++ List.replicate 0 ' ' ++ 'T' :: "0123U 98067A   08264.51782528 -.00002182  00000-0 -11606-4 0  2927".toList) buffer2 = .ub :=
  C172_alpha 13.4 0 'T' _ buffer2 (by decide) (by decide) (by decide) (by decide) (by decide)

end S2E.Tle
