import Verif.Proofs.Igrf4
import Mathlib.Data.List.GetD
/-!
# `gigrf`
-/
namespace S2E.Igrf
open Gravity

theorem scanYears_spec (year : ℝ) (c : ℕ) (Y : ℕ → ℝ) : ∀ (d l : ℕ) (yr1 : ℝ) (rest : List ℝ), c - l = d → 2 ≤ l → l ≤ c → d ≤ rest.length →
    (∀ i < d, rest.getD i 0 = Y (l - 1 + i)) → (∀ i, 1 ≤ i → i ≤ l - 2 → Y i ≤ year) →
    ∃ j x1 x2, scanYears year c l yr1 (Y (l - 2)) rest = .ok (j + 2, x1, x2) ∧ j + 2 ≤ c ∧ (∀ i, 1 ≤ i → i ≤ j → Y i ≤ year) ∧ (j + 2 < c → year < Y (j + 1)) ∧
      (j + 2 = c → x2 = Y j) ∧ (j + 2 ≠ c → x1 = Y j ∧ x2 = Y (j + 1)) := by
  intro d
  induction d with
  | zero =>
    intro l yr1 rest h1 h2 h3 _ _ h6
    obtain rfl : l = c := by omega
    rw [scanYears.eq_def, if_neg (by omega)]
    exact ⟨l - 2, yr1, Y (l - 2), by rw [show l - 2 + 2 = l by omega], by omega, h6, fun h => by omega, fun _ => rfl, fun h => by omega⟩
  | succ d ih =>
    intro l yr1 rest h1 h2 h3 h4 h5 h6
    obtain ⟨y, rest, rfl⟩ : ∃ y r, rest = y :: r := by
      cases rest with
      | nil => simp at h4
      | cons a b => exact ⟨a, b, rfl⟩
    have hy : y = Y (l - 1) := by simpa using h5 0 (by omega)
    subst hy
    rw [scanYears.eq_def, if_pos (by omega)]
    dsimp only
    by_cases hlt : year < Y (l - 1)
    · rw [if_pos hlt]
      refine ⟨l - 2, Y (l - 2), Y (l - 1), by rw [show l - 2 + 2 = l by omega], by omega, h6, fun _ => by rwa [show l - 2 + 1 = l - 1 by omega], fun h => by omega,
        fun _ => ⟨rfl, by rw [show l - 2 + 1 = l - 1 by omega]⟩⟩
    · rw [if_neg hlt]
      have := ih (l + 1) (Y (l - 2)) rest (by omega) (by omega) (by omega) (by simpa using h4)
        (by intro i hi
            have := h5 (i + 1) (by omega)
            rw [List.getD_cons_succ] at this
            rw [this]; congr 1; omega)
        (by intro i a1 a2
            by_cases e : i = l - 1
            · subst e; exact not_lt.mp hlt
            · exact h6 i a1 (by omega))
      rwa [show l + 1 - 2 = l - 1 by omega] at this

theorem readRows_spec (j : ℕ) : ∀ (n : ℕ) (rows : List (List ℝ)), n ≤ rows.length → (∀ i < n, j + 2 ≤ (rows.getD i []).length) →
    ∃ L, readRows (j + 2) n rows = .ok L ∧ L.length = n ∧ ∀ i < n, ∀ d, L.getD i d = ((rows.getD i []).getD j 0, (rows.getD i []).getD (j + 1) 0) := by
  intro n
  induction n with
  | zero => intro rows _ _; exact ⟨[], by rw [readRows], rfl, fun i h => by omega⟩
  | succ n ih =>
    intro rows h1 h2
    obtain ⟨row, rows, rfl⟩ : ∃ y r, rows = y :: r := by
      cases rows with
      | nil => simp at h1
      | cons a b => exact ⟨a, b, rfl⟩
    obtain ⟨L, l1, l2, l3⟩ := ih rows (by simpa using h1) (fun i hi => by simpa using h2 (i + 1) (by omega))
    have hlen : j + 2 ≤ row.length := by simpa using h2 0 (by omega)
    have hd : row.drop j = row.getD j 0 :: row.getD (j + 1) 0 :: row.drop (j + 2) := by
      rw [List.drop_eq_getElem_cons (by omega), List.drop_eq_getElem_cons (show j + 1 < row.length by omega), List.getD_eq_getElem _ _ (by omega), List.getD_eq_getElem _ _ (by omega)]
    refine ⟨(row.getD j 0, row.getD (j + 1) 0) :: L, ?_, by simp [l2], ?_⟩
    · rw [readRows, Nat.add_sub_cancel, hd]
      dsimp only
      rw [l1]; rfl
    · intro i hi d
      rcases i with _ | i
      · rfl
      · rw [List.getD_cons_succ, List.getD_cons_succ]; exact l3 i (by omega) d

/-- Rate of change of line `i` from column `j` on. -/
noncomputable def Table.slope (t : Table) (c j i : ℕ) : ℝ := if j + 2 = c then t.entry i (j + 1) else (t.entry i (j + 1) - t.entry i j) / (t.year (j + 1) - t.year j)

theorem value_slope (t : Table) (c j : ℕ) (y : ℝ) (i : ℕ) : t.value c j y i = t.entry i j + t.slope c j i * (y - t.year j) := rfl

theorem Table.Complete.zero_iff {t : Table} {N c j : ℕ} (h : t.Complete N c) (hj : j + 2 ≤ c) (i : ℕ) : t.Zero j i ↔ t.entry i j = 0 ∧ t.slope c j i = 0 := by
  rw [Table.Zero, Table.slope]
  split_ifs with e
  · rfl
  · have := h.increasing j (by omega)
    constructor
    · rintro ⟨h1, h2⟩; rw [h1, h2]; simp
    · rintro ⟨h1, h2⟩
      refine ⟨h1, ?_⟩
      rw [h1, sub_zero, div_eq_zero_iff] at h2
      rcases h2 with h2 | h2
      · exact h2
      · linarith

theorem Table.Column.unique {t : Table} {c : ℕ} {y : ℝ} {i j : ℕ} (hi : t.Column c y i) (hj : t.Column c y j) : i = j := by
  have key : ∀ i j, t.Column c y i → t.Column c y j → ¬i < j := by
    intro i j hi hj h
    have h1 := hi.2.2 (by have := hj.1; omega)
    have h2 := hj.2.1 (i + 1) (by omega) (by omega)
    linarith
  have := key i j hi hj
  have := key j i hj hi
  omega

/-- What `gigrf` leaves in the state. -/
structure Loaded (t : Table) (N c j K : ℕ) (s : Igrf) : Prop where
  maxod : s.maxod = K
  ra : s.ra = 6371.2
  re2 : s.re2 = 6378.137 * 6378.137
  re4 : s.re4 = 6378.137 * 6378.137 * (6378.137 * 6378.137)
  rp2 : s.rp2 = 6378.137 * (1 - 1 / 298.25722) * (6378.137 * (1 - 1 / 298.25722))
  rp4 : s.rp4 = 6378.137 * (1 - 1 / 298.25722) * (6378.137 * (1 - 1 / 298.25722)) * (6378.137 * (1 - 1 / 298.25722) * (6378.137 * (1 - 1 / 298.25722)))
  tzero : s.tzero = t.year j
  gh : ∀ n, 1 ≤ n → n ≤ K → ∀ m ≤ n, s.gh m n = t.entry (gLine n m) j * schmidt n m ∧ (1 ≤ m → s.gh n (m - 1) = t.entry (hLine n m) j * schmidt n m)
  ght : ∀ n, 1 ≤ n → n ≤ K → ∀ m ≤ n, s.ght m n = t.slope c j (gLine n m) * schmidt n m ∧ (1 ≤ m → s.ght n (m - 1) = t.slope c j (hLine n m) * schmidt n m)

/-- Result and evaluation flags of `gigrf`. -/
theorem gigrf_spec {s : Igrf} {files : List Char → Option Table} {junk : ℝ × ℝ} {year : ℝ} {t : Table} {N c j : ℕ} (hp : ['1', '3'] <:+: s.path)
    (hf : files s.path = some t) (ht : t.Complete N c) (hj : t.Column c year j) :
    ∃ s' K, s.gigrf files junk year = .ok s' ∧ Loaded t N c j K s' ∧ s'.kg = 2 ∧ s'.kph = true ∧ s'.path = s.path ∧ s'.first = s.first ∧
      K ≤ N ∧ (∀ n i, 1 ≤ n → n ^ 2 - 1 < i → i ≤ (n + 1) ^ 2 - 1 → i < (N + 1) ^ 2 - 1 → ¬t.Zero j i → n ≤ K) ∧
      (1 ≤ K → (∃ i, K ^ 2 - 1 < i ∧ i < (N + 1) ^ 2 - 1 ∧ i ≤ (K + 1) ^ 2 - 1 ∧ ¬t.Zero j i) ∨ junk ≠ (0, 0) ∧ K = N) ∧ (junk ≠ (0, 0) → K = N) := by
  obtain ⟨d1, d2⟩ := ht.degree_range
  obtain ⟨c1, c2⟩ := ht.columns_range
  have hN : t.maxod.toNat = N := by rw [ht.degree]; simp
  have hc : t.ncol.toNat = c := by rw [ht.columns]; simp
  unfold Igrf.gigrf
  rw [if_neg (not_not.mpr hp), hf]
  dsimp only
  rw [if_neg (by rw [ht.degree, ht.columns]; omega), hN, hc]
  have hyl := ht.years
  obtain ⟨y0, rest, hy⟩ : ∃ y r, t.years = y :: r := by
    cases h : t.years with
    | nil => rw [h] at hyl; simp at hyl; omega
    | cons a b => exact ⟨a, b, rfl⟩
  rw [hy]
  dsimp only
  have hY0 : y0 = t.year (2 - 2) := by rw [Table.year, hy]; rfl
  rw [hy, List.length_cons] at hyl
  obtain ⟨j', x1, x2, e1, e2, e3, e4, e5, e6⟩ := scanYears_spec year c t.year (c - 2) 2 0 rest rfl (le_refl _) c1 (by omega)
    (by intro i hi; rw [Table.year, hy, show 2 - 1 + i = i + 1 by omega, List.getD_cons_succ]) (by intro i h1 h2; omega)
  obtain rfl : j' = j := Table.Column.unique (t := t) (c := c) (y := year) ⟨e2, e3, e4⟩ hj
  rw [hY0, e1]
  simp only [Res.bind]
  have hsq : (N + 1) * (N + 1) - 1 = (N + 1) ^ 2 - 1 := by rw [sq]
  obtain ⟨L, l1, l2, l3⟩ := readRows_spec j' ((N + 1) ^ 2 - 1) t.rows ht.rows (fun i hi => by have := ht.full i hi; omega)
  rw [hsq, l1]
  dsimp only
  rw [if_neg (by omega)]
  set rows := if j' + 2 = c then L else L.map fun c => (c.1, (c.2 - c.1) / (x2 - x1)) with hrows
  have hrows' : ∀ i < (N + 1) ^ 2 - 1, rows.getD i junk = (t.entry i j', t.slope c j' i) := by
    intro i hi
    have := l3 i hi junk
    rw [hrows, Table.slope]
    split_ifs with e
    · rw [this]; rfl
    · rw [List.getD_eq_getElem _ _ (by rw [List.length_map]; omega), List.getElem_map, ← List.getD_eq_getElem _ junk (by omega), this, (e6 e).1, (e6 e).2]; rfl
  have hlen : rows.length = (N + 1) ^ 2 - 1 := by rw [hrows]; split_ifs <;> simp [l2]
  have htz : (if j' + 2 = c then x2 else x1) = t.year j' := by
    split_ifs with e
    · exact e5 e
    · exact (e6 e).1
  obtain ⟨q1, q2⟩ := fillCoefs_spec (fun i => rows.getD i junk) N s.vgh s.vght
  set a := fillCoefs (fun i => rows.getD i junk) N s.vgh s.vght with ha
  have hK := q2.le
  have hlt : ∀ n, n ≤ N → (n + 1) ^ 2 ≤ (N + 1) ^ 2 := fun n hn => Nat.pow_le_pow_left (by omega) 2
  have hg : ∀ n m, n ≤ N → m ≤ n → 1 ≤ n → gLine n m < (N + 1) ^ 2 - 1 ∧ hLine n m < (N + 1) ^ 2 - 1 := by
    intro n m h1 h2 h3
    have := hlt n h1
    have e : (n + 1) ^ 2 = n ^ 2 + 2 * n + 1 := by ring
    have : 1 ≤ n ^ 2 := Nat.one_le_pow _ _ h3
    rw [gLine, hLine]
    omega
  have hnz : ∀ i < (N + 1) ^ 2 - 1, (NZ (fun i => rows.getD i junk) i ↔ ¬t.Zero j' i) := by
    intro i hi
    rw [ht.zero_iff e2, NZ, hrows' i hi]
    dsimp only
    tauto
  have hsc := tcoef_spec (({ s with vgh := a.1, vght := a.2.1 } : Igrf).field 6378.137 298.25722 6371.2 a.2.2.2) a.1 a.2.1 (if j' + 2 = c then x2 else x1)
  refine ⟨_, a.2.2.2, rfl, ⟨rfl, rfl, rfl, rfl, rfl, rfl, htz, ?_, ?_⟩, rfl, rfl, rfl, rfl, hK, ?_, ?_, ?_⟩
  · intro n h1 h2 m hm
    obtain ⟨s1, s2⟩ := hsc.1 n h1 h2
    obtain ⟨w1, w2⟩ := (q1 n h1 (by omega) m hm).1
    obtain ⟨g1, g2⟩ := hg n m (by omega) hm h1
    dsimp only at w1 w2
    rw [hrows' _ g1] at w1
    rw [hrows' _ g2] at w2
    dsimp only at w1 w2
    rcases m with _ | m
    · exact ⟨by rw [schmidt_zero, mul_one, ← w1]; exact s1, fun h => by omega⟩
    · obtain ⟨z1, z2⟩ := s2 (m + 1) (by omega) hm
      exact ⟨by rw [← w1]; exact z1, fun h => by rw [← w2 h]; exact z2⟩
  · intro n h1 h2 m hm
    obtain ⟨s1, s2⟩ := hsc.2 n h1 h2
    obtain ⟨w1, w2⟩ := (q1 n h1 (by omega) m hm).2
    obtain ⟨g1, g2⟩ := hg n m (by omega) hm h1
    dsimp only at w1 w2
    rw [hrows' _ g1] at w1
    rw [hrows' _ g2] at w2
    dsimp only at w1 w2
    rcases m with _ | m
    · exact ⟨by rw [schmidt_zero, mul_one, ← w1]; exact s1, fun h => by omega⟩
    · obtain ⟨z1, z2⟩ := s2 (m + 1) (by omega) hm
      exact ⟨by rw [← w1]; exact z1, fun h => by rw [← w2 h]; exact z2⟩
  · intro n i h1 h2 h3 h4 h5
    exact q2.upper n i h1 h2 h3 (by omega) ((hnz i h4).mpr h5)
  · intro hk
    obtain ⟨i, i1, i2, i3⟩ := q2.hit hk
    have := hlt _ hK
    by_cases e : i < (N + 1) ^ 2 - 1
    · exact Or.inl ⟨i, i1, e, i2, (hnz i e).mp i3⟩
    · right
      constructor
      · rw [NZ, List.getD_eq_default _ _ (by omega)] at i3
        rintro rfl
        simp at i3
      · by_contra hne
        have : (a.2.2.2 + 1 + 1) ^ 2 ≤ (N + 1) ^ 2 := Nat.pow_le_pow_left (by omega) 2
        have e2 : (a.2.2.2 + 1 + 1) ^ 2 = (a.2.2.2 + 1) ^ 2 + 2 * (a.2.2.2 + 1) + 1 := by ring
        omega
  · intro hjk
    have e2 : (N + 1) ^ 2 = N ^ 2 + 2 * N + 1 := by ring
    have := q2.upper N ((N + 1) ^ 2 - 1) (by omega) (by omega) (le_refl _) (le_refl _) (by
      rw [NZ, List.getD_eq_default _ _ (by omega)]
      by_contra hcon
      push Not at hcon
      exact hjk (Prod.ext hcon.1 hcon.2))
    omega

end S2E.Igrf
