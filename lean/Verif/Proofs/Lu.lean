import Verif.Model.Lu
import Mathlib.Tactic.Ring
import Mathlib.Tactic.LinearCombination
import Mathlib.Tactic.Linarith
import Mathlib.Tactic.FieldSimp
import Mathlib.Algebra.BigOperators.Intervals
import Mathlib.LinearAlgebra.Matrix.ToLinearEquiv
import Mathlib.LinearAlgebra.Matrix.NonsingularInverse
/-!
# Loop invariants of the LU decomposition and the triangular solves
-/
namespace S2E.Lu

variable {K : Type} [Field K] [LinearOrder K] [IsStrictOrderedRing K]

theorem upper_spec (j : ℕ) (a : ℕ → ℕ → K) : ∀ n ≤ j,
    (∀ r c, (c ≠ j ∨ n ≤ r) → upper j a n r c = a r c) ∧
    (∀ r < n, upper j a n r j + ∑ k ∈ Finset.range r, a r k * upper j a n k j = a r j) := by
  intro n
  induction n with
  | zero => intro _; exact ⟨fun r c _ => rfl, fun r h => absurd h (Nat.not_lt_zero _)⟩
  | succ i ih =>
    intro hi
    obtain ⟨h1, h2⟩ := ih (by omega)
    have e : ∀ r c, upper j a (i + 1) r c = if r = i ∧ c = j then upper j a i i j - ∑ k ∈ Finset.range i, upper j a i i k * upper j a i k j
        else upper j a i r c := fun r c => rfl
    have same : ∀ k < i, upper j a (i + 1) k j = upper j a i k j := by
      intro k hk; rw [e, if_neg (by omega)]
    refine ⟨?_, ?_⟩
    · intro r c h
      rw [e, if_neg (by omega)]
      exact h1 r c (by omega)
    · intro r hr
      have hsum : ∑ k ∈ Finset.range r, a r k * upper j a (i + 1) k j = ∑ k ∈ Finset.range r, a r k * upper j a i k j :=
        Finset.sum_congr rfl fun k hk => by rw [same k (by have := Finset.mem_range.1 hk; omega)]
      rw [hsum]
      by_cases hri : r = i
      · subst hri
        rw [e, if_pos ⟨rfl, rfl⟩, h1 r j (Or.inr le_rfl)]
        have : ∑ k ∈ Finset.range r, upper j a r r k * upper j a r k j = ∑ k ∈ Finset.range r, a r k * upper j a r k j :=
          Finset.sum_congr rfl fun k hk => by rw [h1 r k (Or.inr le_rfl)]
        rw [this]; ring
      · rw [e, if_neg (by omega)]
        exact h2 r (by omega)

theorem lower_spec (j : ℕ) (coef : ℕ → K) (a : ℕ → ℕ → K) (n : ℕ) (hc : ∀ r, j ≤ r → r < j + n → 0 < coef r) :
    (∀ r c, (c ≠ j ∨ r < j ∨ j + n ≤ r) → (lower j coef a n).a r c = a r c) ∧
    (∀ r, j ≤ r → r < j + n → (lower j coef a n).a r j + ∑ k ∈ Finset.range j, a r k * a k j = a r j) ∧
    j ≤ (lower j coef a n).imax ∧ (0 < n → (lower j coef a n).imax < j + n) ∧ 0 ≤ (lower j coef a n).biggest ∧
    (∀ r, j ≤ r → r < j + n → coef r * |(lower j coef a n).a r j| ≤ (lower j coef a n).biggest) ∧
    (0 < n → (lower j coef a n).biggest = coef (lower j coef a n).imax * |(lower j coef a n).a (lower j coef a n).imax j|) := by
  induction n with
  | zero =>
    exact ⟨fun _ _ _ => rfl, fun r h1 h2 => absurd h2 (by omega), le_rfl, fun h => absurd h (lt_irrefl _), le_rfl,
      fun r h1 h2 => absurd h2 (by omega), fun h => absurd h (lt_irrefl _)⟩
  | succ n ih =>
    obtain ⟨i1, i2, i3, i4, i5, i6, i7⟩ := ih fun r h1 h2 => hc r h1 (by omega)
    have hpos := hc (j + n) (by omega) (by omega)
    set s := lower j coef a n with hs
    obtain ⟨sum, hsum⟩ : ∃ sum, sum = s.a (j + n) j - ∑ k ∈ Finset.range j, s.a (j + n) k * s.a k j := ⟨_, rfl⟩
    have step : lower j coef a (n + 1) = if coef (j + n) * |sum| ≥ s.biggest then ⟨setAt s.a (j + n) j sum, coef (j + n) * |sum|, j + n⟩
        else ⟨setAt s.a (j + n) j sum, s.biggest, s.imax⟩ := by rw [hsum]; rfl
    have ea : (lower j coef a (n + 1)).a = setAt s.a (j + n) j sum := by rw [step]; split <;> rfl
    have hsumA : sum + ∑ k ∈ Finset.range j, a (j + n) k * a k j = a (j + n) j := by
      rw [hsum, i1 (j + n) j (by omega)]
      have : ∑ k ∈ Finset.range j, s.a (j + n) k * s.a k j = ∑ k ∈ Finset.range j, a (j + n) k * a k j :=
        Finset.sum_congr rfl fun k hk => by
          have := Finset.mem_range.1 hk
          rw [i1 (j + n) k (by omega), i1 k j (by omega)]
      rw [this]; ring
    have eat : ∀ r c, setAt s.a (j + n) j sum r c = if r = j + n ∧ c = j then sum else s.a r c := fun r c => rfl
    have self : setAt s.a (j + n) j sum (j + n) j = sum := by rw [eat, if_pos ⟨rfl, rfl⟩]
    have other : ∀ r, r < j + n → setAt s.a (j + n) j sum r j = s.a r j := by intro r h; rw [eat, if_neg (by omega)]
    refine ⟨?_, ?_, ?_, ?_, ?_, ?_, ?_⟩
    · intro r c h
      rw [ea, eat, if_neg (by omega)]
      exact i1 r c (by omega)
    · intro r h1 h2
      rw [ea]
      by_cases hr : r = j + n
      · rw [hr, self]; exact hsumA
      · rw [other r (by omega)]; exact i2 r h1 (by omega)
    · rw [step]; split
      · exact Nat.le_add_right _ _
      · exact i3
    · intro _; rw [step]; split
      · show j + n < j + (n + 1); omega
      · rename_i hlt
        show s.imax < j + (n + 1)
        rcases Nat.eq_zero_or_pos n with h | h
        · subst h
          exfalso; apply hlt
          show coef (j + 0) * |sum| ≥ (0 : K)
          exact mul_nonneg hpos.le (abs_nonneg _)
        · have := i4 h; omega
    · rw [step]; split
      · exact mul_nonneg hpos.le (abs_nonneg _)
      · exact i5
    · intro r h1 h2
      rw [ea, step]
      split
      · rename_i hge
        show coef r * |setAt s.a (j + n) j sum r j| ≤ coef (j + n) * |sum|
        by_cases hr : r = j + n
        · rw [hr, self]
        · rw [other r (by omega)]; exact (i6 r h1 (by omega)).trans hge
      · rename_i hlt
        show coef r * |setAt s.a (j + n) j sum r j| ≤ s.biggest
        by_cases hr : r = j + n
        · rw [hr, self]; exact (not_le.1 hlt).le
        · rw [other r (by omega)]; exact i6 r h1 (by omega)
    · intro _
      rw [ea, step]
      split
      · show coef (j + n) * |sum| = coef (j + n) * |setAt s.a (j + n) j sum (j + n) j|
        rw [self]
      · rename_i hlt
        show s.biggest = coef s.imax * |setAt s.a (j + n) j sum s.imax j|
        rcases Nat.eq_zero_or_pos n with h | h
        · subst h
          exfalso; apply hlt
          show coef (j + 0) * |sum| ≥ (0 : K)
          exact mul_nonneg hpos.le (abs_nonneg _)
        · rw [other _ (i4 h)]; exact i7 h

theorem rowBiggest_spec (a : ℕ → ℕ → K) (i : ℕ) (n : ℕ) : 0 ≤ rowBiggest a i n ∧ (rowBiggest a i n = 0 → ∀ c < n, a i c = 0) := by
  induction n with
  | zero => exact ⟨le_rfl, fun _ c h => absurd h (Nat.not_lt_zero _)⟩
  | succ n ih =>
    have step : rowBiggest a i (n + 1) = if |a i n| > rowBiggest a i n then |a i n| else rowBiggest a i n := rfl
    rw [step]
    split
    · rename_i h
      exact ⟨abs_nonneg _, fun h0 => absurd (h0 ▸ h) (not_lt.2 ih.1)⟩
    · rename_i h
      refine ⟨ih.1, fun h0 c hc => ?_⟩
      by_cases hcn : c = n
      · rw [h0] at h; rw [hcn]; exact abs_nonpos_iff.1 (not_lt.1 h)
      · exact ih.2 h0 c (by omega)

theorem scaling_spec (N : ℕ) (a : ℕ → ℕ → K) (n : ℕ) :
    (∃ coef, scaling N a n = .ok coef ∧ ∀ r < n, 0 < coef r) ∨ (scaling N a n = .throws ∧ ∃ r < n, ∀ c < N, a r c = 0) := by
  induction n with
  | zero => exact .inl ⟨_, rfl, fun r h => absurd h (Nat.not_lt_zero _)⟩
  | succ n ih =>
    have step : scaling N a (n + 1) = (scaling N a n).bind fun coef =>
      if rowBiggest a n N = 0 then .throws else .ok fun r => if r = n then 1 / rowBiggest a n N else coef r := rfl
    rcases ih with ⟨coef, h, hp⟩ | ⟨h, r, hr, hz⟩
    · rw [step, h]
      show (∃ coef', (if rowBiggest a n N = 0 then Res.throws else .ok fun r => if r = n then 1 / rowBiggest a n N else coef r) = .ok coef' ∧ _) ∨ _
      obtain ⟨b1, b2⟩ := rowBiggest_spec a n N
      by_cases h0 : rowBiggest a n N = 0
      · right
        exact ⟨if_pos h0, n, by omega, b2 h0⟩
      · left
        refine ⟨_, if_neg h0, fun r hr => ?_⟩
        by_cases hrn : r = n
        · simp only [if_pos hrn]; exact one_div_pos.2 (lt_of_le_of_ne b1 (Ne.symm h0))
        · simp only [if_neg hrn]; exact hp r (by omega)
    · right
      rw [step, h]; exact ⟨rfl, r, by omega, hz⟩

/-- Lower factor, upper factor of the packed matrix. -/
def lf (a : ℕ → ℕ → K) (r k : ℕ) : K := if k < r then a r k else if k = r then 1 else 0
def uf (a : ℕ → ℕ → K) (k c : ℕ) : K := if k ≤ c then a k c else 0
/-- Entry of the product of the packed factors. -/
def lu (a : ℕ → ℕ → K) (r c : ℕ) : K := ∑ k ∈ Finset.range (min r c), a r k * a k c + if r ≤ c then a r c else a r c * a c c

theorem sum_cut {m n : ℕ} (h : m ≤ n) (f : ℕ → K) (hz : ∀ k, m ≤ k → k < n → f k = 0) : ∑ k ∈ Finset.range n, f k = ∑ k ∈ Finset.range m, f k := by
  rw [← Finset.sum_range_add_sum_Ico f h]
  rw [Finset.sum_eq_zero (s := Finset.Ico m n) fun k hk => by
    have := Finset.mem_Ico.1 hk; exact hz k this.1 this.2]
  ring

theorem lu_prod (a : ℕ → ℕ → K) (m r c : ℕ) (hc : c < m) : lu a r c = ∑ k ∈ Finset.range m, lf a r k * uf a k c := by
  rw [sum_cut (m := min r c + 1) (by omega) _ fun k h1 h2 => ?_, Finset.sum_range_succ]
  · unfold lu
    congr 1
    · apply Finset.sum_congr rfl
      intro k hk
      have := Finset.mem_range.1 hk
      unfold lf uf
      rw [if_pos (by omega), if_pos (by omega)]
    · unfold lf uf
      by_cases h : r ≤ c
      · rw [if_pos h, min_eq_left h, if_neg (lt_irrefl _), if_pos rfl, if_pos h, one_mul]
      · rw [if_neg h, min_eq_right (by omega), if_pos (by omega), if_pos le_rfl]
  · unfold lf uf
    by_cases h : r ≤ c
    · rw [min_eq_left h] at h1
      rw [if_neg (by omega), if_neg (by omega), zero_mul]
    · rw [min_eq_right (by omega)] at h1
      rw [if_neg (show ¬ k ≤ c by omega), mul_zero]

/-- The row permutation recorded in `index[0..n-1]`. -/
def perm (index : ℕ → ℕ) : ℕ → Equiv.Perm ℕ
  | 0 => 1
  | n + 1 => perm index n * Equiv.swap n (index n)

theorem perm_congr {i1 i2 : ℕ → ℕ} (n : ℕ) (h : ∀ k < n, i1 k = i2 k) : perm i1 n = perm i2 n := by
  induction n with
  | zero => rfl
  | succ n ih =>
    show perm i1 n * _ = perm i2 n * _
    rw [ih fun k hk => h k (by omega), h n (by omega)]

theorem swap_lt {N j p r : ℕ} (hj : j < N) (hp : p < N) (hr : r < N) : Equiv.swap j p r < N := by
  rw [Equiv.swap_apply_def]; split_ifs <;> omega

theorem perm_lt {N : ℕ} (index : ℕ → ℕ) (n : ℕ) (hn : n ≤ N) (h : ∀ k < n, index k < N) : ∀ r < N, perm index n r < N := by
  induction n with
  | zero => intro r hr; exact hr
  | succ n ih =>
    intro r hr
    show perm index n (Equiv.swap n (index n) r) < N
    exact ih (by omega) (fun k hk => h k (by omega)) _ (swap_lt (by omega) (h n (by omega)) hr)

theorem perm_surj {N : ℕ} (index : ℕ → ℕ) (n : ℕ) (hn : n ≤ N) (h : ∀ k < n, index k < N) : ∀ r < N, ∃ q < N, perm index n q = r := by
  induction n with
  | zero => intro r hr; exact ⟨r, hr, rfl⟩
  | succ n ih =>
    intro r hr
    obtain ⟨q, hq, e⟩ := ih (by omega) (fun k hk => h k (by omega)) r hr
    refine ⟨Equiv.swap n (index n) q, swap_lt (by omega) (h n (by omega)) hq, ?_⟩
    show perm index n (Equiv.swap n (index n) (Equiv.swap n (index n) q)) = r
    rw [Equiv.swap_apply_self, e]

theorem backward_spec (N : ℕ) (a : ℕ → ℕ → K) (b : ℕ → K) (hd : ∀ i < N, a i i ≠ 0) : ∀ n ≤ N,
    (∀ r < N - n, backward N a b n r = b r) ∧
    (∀ r, N - n ≤ r → r < N → a r r * backward N a b n r + ∑ c ∈ Finset.Ico (r + 1) N, a r c * backward N a b n c = b r) := by
  intro n
  induction n with
  | zero => intro _; exact ⟨fun _ _ => rfl, fun r h1 h2 => by omega⟩
  | succ n ih =>
    intro hn
    obtain ⟨h1, h2⟩ := ih (by omega)
    obtain ⟨i, hi⟩ : ∃ i, i = N - 1 - n := ⟨_, rfl⟩
    have e : ∀ r, backward N a b (n + 1) r = if r = i then (backward N a b n i - ∑ c ∈ Finset.Ico (i + 1) N, a i c * backward N a b n c) / a i i
        else backward N a b n r := by intro r; rw [hi]; rfl
    have hs : ∀ r, i ≤ r → ∑ c ∈ Finset.Ico (r + 1) N, a r c * backward N a b (n + 1) c = ∑ c ∈ Finset.Ico (r + 1) N, a r c * backward N a b n c := by
      intro r hr
      apply Finset.sum_congr rfl
      intro c hc
      have := Finset.mem_Ico.1 hc
      rw [e, if_neg (by omega)]
    refine ⟨fun r hr => ?_, fun r hr1 hr2 => ?_⟩
    · rw [e, if_neg (by omega)]; exact h1 r (by omega)
    · rw [hs r (by omega)]
      by_cases hri : r = i
      · rw [hri, e, if_pos rfl, h1 i (by omega)]
        have := hd i (by omega)
        field_simp; ring
      · rw [e, if_neg hri]; exact h2 r (by omega) hr2

theorem uf_sum (N : ℕ) (a : ℕ → ℕ → K) (x : ℕ → K) (r : ℕ) (hr : r < N) :
    ∑ c ∈ Finset.range N, uf a r c * x c = a r r * x r + ∑ c ∈ Finset.Ico (r + 1) N, a r c * x c := by
  rw [← Finset.sum_range_add_sum_Ico _ (show r ≤ N by omega), Finset.sum_eq_sum_Ico_succ_bot hr]
  rw [Finset.sum_eq_zero (s := Finset.range r) fun k hk => by
    have := Finset.mem_range.1 hk
    unfold uf; rw [if_neg (by omega), zero_mul]]
  rw [zero_add]
  congr 1
  · unfold uf; rw [if_pos le_rfl]
  · apply Finset.sum_congr rfl
    intro c hc
    have := Finset.mem_Ico.1 hc
    unfold uf; rw [if_pos (by omega)]

theorem lf_sum (N : ℕ) (a : ℕ → ℕ → K) (y : ℕ → K) (r : ℕ) (hr : r < N) :
    ∑ k ∈ Finset.range N, lf a r k * y k = y r + ∑ k ∈ Finset.range r, a r k * y k := by
  rw [sum_cut (m := r + 1) (by omega) _ fun k h1 h2 => by unfold lf; rw [if_neg (by omega), if_neg (by omega), zero_mul], Finset.sum_range_succ]
  rw [add_comm]
  congr 1
  · unfold lf; rw [if_neg (lt_irrefl _), if_pos rfl, one_mul]
  · apply Finset.sum_congr rfl
    intro c hc
    have := Finset.mem_range.1 hc
    unfold lf; rw [if_pos this]

/-- Multiplying the packed factors out against a vector. -/
theorem lu_mul (m : ℕ) (a : ℕ → ℕ → K) (x : ℕ → K) (r : ℕ) :
    ∑ c ∈ Finset.range m, lu a r c * x c = ∑ k ∈ Finset.range m, lf a r k * ∑ c ∈ Finset.range m, uf a k c * x c := by
  have : ∀ c ∈ Finset.range m, lu a r c * x c = ∑ k ∈ Finset.range m, lf a r k * (uf a k c * x c) := by
    intro c hc
    rw [lu_prod a m r c (Finset.mem_range.1 hc), Finset.sum_mul]
    exact Finset.sum_congr rfl fun k _ => by ring
  rw [Finset.sum_congr rfl this, Finset.sum_comm]
  exact Finset.sum_congr rfl fun k _ => by rw [Finset.mul_sum]

theorem forward_spec (N : ℕ) (a : ℕ → ℕ → K) (index : ℕ → ℕ) (b : ℕ → K) (hidx : ∀ i < N, i ≤ index i) : ∀ n ≤ N,
    (∀ r, n ≤ r → (forward a index b n).b r = b (perm index n r)) ∧
    (∀ r < n, (forward a index b n).b r + ∑ k ∈ Finset.range r, a r k * (forward a index b n).b k = b (perm index n r)) ∧
    ((forward a index b n).nonZero = false → ∀ r < n, (forward a index b n).b r = 0) ∧
    ((forward a index b n).nonZero = true → (forward a index b n).mark < n ∧ ∀ r < (forward a index b n).mark, (forward a index b n).b r = 0) := by
  intro n
  induction n with
  | zero => intro _; exact ⟨fun _ _ => rfl, fun r h => absurd h (Nat.not_lt_zero _), fun _ r h => absurd h (Nat.not_lt_zero _), fun h => by cases h⟩
  | succ i ih =>
    intro hi
    obtain ⟨h1, h2, h3, h4⟩ := ih (by omega)
    have hip := hidx i (by omega)
    set s := forward a index b i with hsdef
    obtain ⟨ip, hipe⟩ : ∃ ip, ip = index i := ⟨_, rfl⟩
    rw [← hipe] at hip
    -- the right-hand side of row `i` after the exchange
    have hperm : ∀ r, perm index (i + 1) r = perm index i (Equiv.swap i ip r) := by intro r; rw [hipe]; rfl
    have hrhs : s.b ip = b (perm index (i + 1) i) := by
      rw [hperm, Equiv.swap_apply_left]; exact h1 ip hip
    have hlow : ∀ r < i, perm index (i + 1) r = perm index i r := by
      intro r hr; rw [hperm, Equiv.swap_apply_of_ne_of_ne (by omega) (by omega)]
    obtain ⟨t, ht⟩ : ∃ t, t = s.b ip - ∑ k ∈ Finset.range i, a i k * s.b k := ⟨_, rfl⟩
    -- what the three branches have in common
    have common : (forward a index b (i + 1)).b = (fun r => if r = i then t else if r = ip then s.b i else s.b r) ∧
        ((forward a index b (i + 1)).nonZero = false → s.nonZero = false ∧ t = 0) ∧
        ((forward a index b (i + 1)).nonZero = true → (s.nonZero = true ∧ (forward a index b (i + 1)).mark = s.mark) ∨
          (s.nonZero = false ∧ (forward a index b (i + 1)).mark = i)) := by
      have b1 : ∀ k < i, (if k = ip then s.b i else s.b k) = s.b k := fun k hk => if_neg (by omega)
      by_cases hz : s.nonZero = true
      · have e : forward a index b (i + 1) = ⟨fun r => if r = i then s.b ip - ∑ j ∈ Finset.Ico s.mark i, a i j * (if j = ip then s.b i else s.b j) else
            if r = ip then s.b i else s.b r, true, s.mark⟩ := by
          show (if s.nonZero = true then _ else _) = _
          rw [if_pos hz, hipe]
        have es : ∑ j ∈ Finset.Ico s.mark i, a i j * (if j = ip then s.b i else s.b j) = ∑ k ∈ Finset.range i, a i k * s.b k := by
          rw [← Finset.sum_range_add_sum_Ico _ (show s.mark ≤ i by have := (h4 hz).1; omega)]
          rw [Finset.sum_eq_zero (s := Finset.range s.mark) fun k hk => by rw [(h4 hz).2 k (Finset.mem_range.1 hk), mul_zero], zero_add]
          apply Finset.sum_congr rfl
          intro k hk
          rw [b1 k (Finset.mem_Ico.1 hk).2]
        rw [e, es, ← ht]
        exact ⟨rfl, fun h => (by cases h), fun _ => .inl ⟨hz, rfl⟩⟩
      · have hz : s.nonZero = false := by simpa using hz
        have es : ∑ k ∈ Finset.range i, a i k * s.b k = 0 := Finset.sum_eq_zero fun k hk => by
          rw [h3 hz k (Finset.mem_range.1 hk), mul_zero]
        have ht' : t = s.b ip := by rw [ht, es, sub_zero]
        have e : forward a index b (i + 1) = if s.b ip ≠ 0 then ⟨fun r => if r = i then s.b ip else if r = ip then s.b i else s.b r, true, i⟩
            else ⟨fun r => if r = i then s.b ip else if r = ip then s.b i else s.b r, false, s.mark⟩ := by
          show (if s.nonZero = true then _ else _) = _
          rw [if_neg (by rw [hz]; simp), hipe]
        rw [e, ← ht']
        by_cases ht0 : t ≠ 0
        · rw [if_pos ht0]
          exact ⟨rfl, fun h => (by cases h), fun _ => .inr ⟨hz, rfl⟩⟩
        · rw [if_neg ht0]
          exact ⟨rfl, fun _ => ⟨hz, not_not.1 ht0⟩, fun h => by cases h⟩
    obtain ⟨cb, c0, c1⟩ := common
    have cbi : (forward a index b (i + 1)).b i = t := by rw [cb]; exact if_pos rfl
    have cblt : ∀ r < i, (forward a index b (i + 1)).b r = s.b r := by
      intro r hr; rw [cb]; simp only; rw [if_neg (by omega), if_neg (by omega)]
    refine ⟨?_, ?_, ?_, ?_⟩
    · intro r hr
      rw [cb, hperm]
      simp only
      rw [if_neg (by omega)]
      by_cases hrp : r = ip
      · rw [if_pos hrp, hrp, Equiv.swap_apply_right]; exact h1 i le_rfl
      · rw [if_neg hrp, Equiv.swap_apply_of_ne_of_ne (by omega) hrp]; exact h1 r (by omega)
    · intro r hr
      have hsum : ∑ k ∈ Finset.range r, a r k * (forward a index b (i + 1)).b k = ∑ k ∈ Finset.range r, a r k * s.b k :=
        Finset.sum_congr rfl fun k hk => by rw [cblt k (by have := Finset.mem_range.1 hk; omega)]
      rw [hsum]
      by_cases hri : r = i
      · rw [hri, cbi, ht, ← hrhs]; ring
      · rw [cblt r (by omega), hlow r (by omega)]; exact h2 r (by omega)
    · intro h r hr
      obtain ⟨hz, h0⟩ := c0 h
      by_cases hri : r = i
      · rw [hri, cbi, h0]
      · rw [cblt r (by omega)]; exact h3 hz r (by omega)
    · intro h
      rcases c1 h with ⟨hz, hm⟩ | ⟨hz, hm⟩
      · rw [hm]
        refine ⟨by have := (h4 hz).1; omega, fun r hr => ?_⟩
        rw [cblt r (by have := (h4 hz).1; omega)]; exact (h4 hz).2 r hr
      · rw [hm]
        refine ⟨by omega, fun r hr => ?_⟩
        rw [cblt r hr]; exact h3 hz r hr

end S2E.Lu
