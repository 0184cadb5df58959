import Verif.Proofs.Igrf
import Mathlib.Algebra.BigOperators.Intervals
/-!
# Coefficients and sums
-/
namespace S2E.Igrf
open Gravity Polynomial

theorem loop_sum {lo hi : ℕ} (hlo : lo ≤ hi + 1) (f : ℕ → ℝ) (a : ℝ) : loop lo hi (fun n x => x + f n) a = a + ∑ n ∈ Finset.Ico lo (hi + 1), f n := by
  refine loop_inv (fun k x => x = a + ∑ n ∈ Finset.Ico lo k, f n) hlo (by simp) ?_
  rintro n x h1 h2 rfl
  rw [Finset.sum_Ico_succ_top h1]; ring

/-! ## Normalisation -/

theorem schmidt_zero (n : ℕ) : schmidt n 0 = 1 := by
  rw [schmidt, if_pos rfl]
  rw [Nat.sub_zero, Nat.add_zero, one_mul, div_self (by positivity), Real.sqrt_one]

/-- The running factor of `tcoef`. -/
noncomputable def fac (n : ℕ) : ℕ → ℝ
  | 0 => Real.sqrt 2
  | m + 1 => fac n m / Real.sqrt (((n : ℝ) + (m + 1 : ℕ)) * ((n : ℝ) - (m + 1 : ℕ) + 1))

theorem fac_eq (n m : ℕ) (hm : m ≤ n) : fac n m = Real.sqrt (2 * ((n - m).factorial : ℝ) / ((n + m).factorial : ℝ)) := by
  induction m with
  | zero =>
    rw [fac]; congr 1; simp
    rw [mul_div_assoc, div_self (by positivity), mul_one]
  | succ m ih =>
    rw [fac, ih (by omega), ← Real.sqrt_div (by positivity)]
    congr 1
    obtain ⟨d, rfl⟩ : ∃ d, n = m + 1 + d := ⟨n - (m + 1), by omega⟩
    rw [show m + 1 + d - m = d + 1 by omega, show m + 1 + d - (m + 1) = d by omega, show m + 1 + d + (m + 1) = (m + 1 + d + m) + 1 by omega, Nat.factorial_succ, Nat.factorial_succ]
    push_cast
    have h1 : ((m + 1 + d + m).factorial : ℝ) ≠ 0 := by positivity
    have h2 : ((m : ℝ) + 1 + d + m + 1) ≠ 0 := by positivity
    have h3 : ((d : ℝ) + 1) ≠ 0 := by positivity
    have h4 : (m : ℝ) + 1 + d + (m + 1) ≠ 0 := by positivity
    have h5 : (m : ℝ) + 1 + d - (m + 1) + 1 ≠ 0 := by ring_nf; positivity
    have e1 : (m : ℝ) + 1 + d - (m + 1) + 1 = d + 1 := by ring
    rw [e1]
    field_simp
    ring

theorem fac_schmidt (n m : ℕ) (hm : m < n) : fac n (m + 1) = schmidt n (m + 1) := by
  rw [fac_eq n (m + 1) (by omega), schmidt, if_neg (by omega)]

/-- The arrays `gh` and `ght` up to degree `K`. -/
def Scaled (v a : ℕ → ℕ → ℝ) (K : ℕ) : Prop := ∀ n, 1 ≤ n → n ≤ K → a 0 n = v 0 n ∧ ∀ m, 1 ≤ m → m ≤ n → a m n = v m n * schmidt n m ∧ a n (m - 1) = v n (m - 1) * schmidt n m

theorem normalise_spec (v vt : ℕ → ℕ → ℝ) (k : ℕ) (a : (ℕ → ℕ → ℝ) × (ℕ → ℕ → ℝ)) (h : Scaled v a.1 k ∧ Scaled vt a.2 k) :
    Scaled v (normaliseDegree v vt (k + 1) a).1 (k + 1) ∧ Scaled vt (normaliseDegree v vt (k + 1) a).2 (k + 1) := by
  have key := loop_inv (fun j (b : ℝ × (ℕ → ℕ → ℝ) × (ℕ → ℕ → ℝ)) => b.1 = fac (k + 1) (j - 1) ∧ (Scaled v b.2.1 k ∧ Scaled vt b.2.2 k) ∧
      (b.2.1 0 (k + 1) = v 0 (k + 1) ∧ b.2.2 0 (k + 1) = vt 0 (k + 1)) ∧
      ∀ m, 1 ≤ m → m < j → (b.2.1 m (k + 1) = v m (k + 1) * schmidt (k + 1) m ∧ b.2.1 (k + 1) (m - 1) = v (k + 1) (m - 1) * schmidt (k + 1) m) ∧
        (b.2.2 m (k + 1) = vt m (k + 1) * schmidt (k + 1) m ∧ b.2.2 (k + 1) (m - 1) = vt (k + 1) (m - 1) * schmidt (k + 1) m)) (lo := 1) (hi := k + 1)
    (f := fun m (b : ℝ × (ℕ → ℕ → ℝ) × (ℕ → ℕ → ℝ)) =>
    let fac := b.1 / Real.sqrt ((((k + 1 : ℕ) : ℝ) + m) * (((k + 1 : ℕ) : ℝ) - m + 1))
    (fac, set2 (set2 b.2.1 m (k + 1) (v m (k + 1) * fac)) (k + 1) (m - 1) (v (k + 1) (m - 1) * fac), set2 (set2 b.2.2 m (k + 1) (vt m (k + 1) * fac)) (k + 1) (m - 1) (vt (k + 1) (m - 1) * fac)))
    (s := (Real.sqrt 2, set2 a.1 0 (k + 1) (v 0 (k + 1)), set2 a.2 0 (k + 1) (vt 0 (k + 1)))) (by omega)
    (by
      refine ⟨rfl, ⟨?_, ?_⟩, ⟨set2_same _ _ _ _, set2_same _ _ _ _⟩, fun m h1 h2 => by omega⟩
      · intro n h1 h2
        dsimp only
        refine ⟨?_, fun m h3 h4 => ⟨?_, ?_⟩⟩
        · rw [set2_ne _ _ (by omega)]; exact (h.1 n h1 h2).1
        · rw [set2_ne _ _ (by omega)]; exact ((h.1 n h1 h2).2 m h3 h4).1
        · rw [set2_ne _ _ (by omega)]; exact ((h.1 n h1 h2).2 m h3 h4).2
      · intro n h1 h2
        dsimp only
        refine ⟨?_, fun m h3 h4 => ⟨?_, ?_⟩⟩
        · rw [set2_ne _ _ (by omega)]; exact (h.2 n h1 h2).1
        · rw [set2_ne _ _ (by omega)]; exact ((h.2 n h1 h2).2 m h3 h4).1
        · rw [set2_ne _ _ (by omega)]; exact ((h.2 n h1 h2).2 m h3 h4).2)
    (by
      rintro j b h1 h2 ⟨hf, hS, h0, hm⟩
      obtain ⟨i, rfl⟩ : ∃ i, j = i + 1 := ⟨j - 1, by omega⟩
      have hfac : b.1 / Real.sqrt ((((k + 1 : ℕ) : ℝ) + (i + 1 : ℕ)) * (((k + 1 : ℕ) : ℝ) - (i + 1 : ℕ) + 1)) = schmidt (k + 1) (i + 1) := by
        rw [← fac_schmidt (k + 1) i (by omega), fac, hf, Nat.add_sub_cancel]
      dsimp only
      rw [hfac]
      refine ⟨by rw [Nat.add_sub_cancel, fac_schmidt (k + 1) i (by omega)], ⟨?_, ?_⟩, ⟨?_, ?_⟩, ?_⟩
      · intro n h3 h4
        refine ⟨?_, fun m h5 h6 => ⟨?_, ?_⟩⟩
        · rw [set2_ne _ _ (by omega), set2_ne _ _ (by omega)]; exact (hS.1 n h3 h4).1
        · rw [set2_ne _ _ (by omega), set2_ne _ _ (by omega)]; exact ((hS.1 n h3 h4).2 m h5 h6).1
        · rw [set2_ne _ _ (by omega), set2_ne _ _ (by omega)]; exact ((hS.1 n h3 h4).2 m h5 h6).2
      · intro n h3 h4
        refine ⟨?_, fun m h5 h6 => ⟨?_, ?_⟩⟩
        · rw [set2_ne _ _ (by omega), set2_ne _ _ (by omega)]; exact (hS.2 n h3 h4).1
        · rw [set2_ne _ _ (by omega), set2_ne _ _ (by omega)]; exact ((hS.2 n h3 h4).2 m h5 h6).1
        · rw [set2_ne _ _ (by omega), set2_ne _ _ (by omega)]; exact ((hS.2 n h3 h4).2 m h5 h6).2
      · rw [set2_ne _ _ (by omega), set2_ne _ _ (by omega)]; exact h0.1
      · rw [set2_ne _ _ (by omega), set2_ne _ _ (by omega)]; exact h0.2
      · intro m h3 h4
        by_cases e : m = i + 1
        · subst e
          refine ⟨⟨?_, ?_⟩, ?_, ?_⟩
          · rw [set2_ne _ _ (by omega), set2_same]
          · rw [set2_same]
          · rw [set2_ne _ _ (by omega), set2_same]
          · rw [set2_same]
        · rw [set2_ne _ _ (by omega), set2_ne _ _ (by omega), set2_ne _ _ (by omega), set2_ne _ _ (by omega), set2_ne _ _ (by omega), set2_ne _ _ (by omega), set2_ne _ _ (by omega), set2_ne _ _ (by omega)]
          exact hm m h3 (by omega))
  rw [normaliseDegree]
  obtain ⟨-, hS, h0, hm⟩ := key
  constructor
  · intro n h1 h2
    by_cases e : n = k + 1
    · subst e; exact ⟨h0.1, fun m h3 h4 => (hm m h3 (by omega)).1⟩
    · exact hS.1 n h1 (by omega)
  · intro n h1 h2
    by_cases e : n = k + 1
    · subst e; exact ⟨h0.2, fun m h3 h4 => (hm m h3 (by omega)).2⟩
    · exact hS.2 n h1 (by omega)

theorem tcoef_spec (s : Igrf) (v vt : ℕ → ℕ → ℝ) (t : ℝ) : Scaled v (s.tcoef v vt t).gh s.maxod ∧ Scaled vt (s.tcoef v vt t).ght s.maxod := by
  have := loop_inv (fun k (a : (ℕ → ℕ → ℝ) × (ℕ → ℕ → ℝ)) => Scaled v a.1 (k - 1) ∧ Scaled vt a.2 (k - 1)) (lo := 1) (hi := s.maxod) (f := normaliseDegree v vt)
    (s := (set2 s.gh 0 0 0, set2 s.ght 0 0 0)) (by omega) ⟨fun n h1 h2 => by omega, fun n h1 h2 => by omega⟩
    (by
      intro n a h1 h2 h
      obtain ⟨k, rfl⟩ : ∃ k, n = k + 1 := ⟨n - 1, by omega⟩
      exact normalise_spec v vt k a h)
  exact this

theorem tyear_spec (s : Igrf) (year : ℝ) : ∀ n, 1 ≤ n → n ≤ s.maxod → ∀ m ≤ n, (s.tyear year).g m n = s.gh m n + s.ght m n * (year - s.tzero) ∧
    (1 ≤ m → (s.tyear year).g n (m - 1) = s.gh n (m - 1) + s.ght n (m - 1) * (year - s.tzero)) := by
  set d := year - s.tzero with hd
  let Good (a : ℕ → ℕ → ℝ) (n m : ℕ) : Prop := a m n = s.gh m n + s.ght m n * d ∧ (1 ≤ m → a n (m - 1) = s.gh n (m - 1) + s.ght n (m - 1) * d)
  have key := loop_inv (fun k a => ∀ n, 1 ≤ n → n < k → ∀ m ≤ n, Good a n m) (lo := 1) (hi := s.maxod)
    (f := fun n a => loop 1 n (fun m a => set2 (set2 a m n (s.gh m n + s.ght m n * d)) n (m - 1) (s.gh n (m - 1) + s.ght n (m - 1) * d))
      (set2 a 0 n (s.gh 0 n + s.ght 0 n * d))) (s := set2 s.g 0 0 0) (by omega) (fun n h1 h2 => by omega)
    (by
      intro k a h1 h2 ha
      have inner := loop_inv (fun j a => (∀ n, 1 ≤ n → n < k → ∀ m ≤ n, Good a n m) ∧ ∀ m < j, Good a k m) (lo := 1) (hi := k)
        (f := fun m a => set2 (set2 a m k (s.gh m k + s.ght m k * d)) k (m - 1) (s.gh k (m - 1) + s.ght k (m - 1) * d)) (s := set2 a 0 k (s.gh 0 k + s.ght 0 k * d)) (by omega)
        (by
          refine ⟨fun n h3 h4 m h5 => ?_, fun m h3 => ?_⟩
          · refine ⟨?_, fun h6 => ?_⟩
            · rw [set2_ne _ _ (by omega)]; exact (ha n h3 h4 m h5).1
            · rw [set2_ne _ _ (by omega)]; exact (ha n h3 h4 m h5).2 h6
          · obtain rfl : m = 0 := by omega
            exact ⟨set2_same _ _ _ _, fun h => by omega⟩)
        (by
          rintro j b h3 h4 ⟨hb1, hb2⟩
          refine ⟨fun n h5 h6 m h7 => ?_, fun m h5 => ?_⟩
          · refine ⟨?_, fun h8 => ?_⟩
            · rw [set2_ne _ _ (by omega), set2_ne _ _ (by omega)]; exact (hb1 n h5 h6 m h7).1
            · rw [set2_ne _ _ (by omega), set2_ne _ _ (by omega)]; exact (hb1 n h5 h6 m h7).2 h8
          · by_cases e : m = j
            · subst e
              refine ⟨?_, fun h8 => ?_⟩
              · rw [set2_ne _ _ (by omega), set2_same]
              · rw [set2_same]
            · refine ⟨?_, fun h8 => ?_⟩
              · rw [set2_ne _ _ (by omega), set2_ne _ _ (by omega)]; exact (hb2 m (by omega)).1
              · rw [set2_ne _ _ (by omega), set2_ne _ _ (by omega)]; exact (hb2 m (by omega)).2 h8)
      intro n h3 h4 m h5
      by_cases e : n = k
      · subst e; exact inner.2 m (by omega)
      · exact inner.1 n h3 (by omega) m h5)
  intro n h1 h2 m h3
  exact key n h1 (by omega) m h3

/-! ## Sums -/

theorem degreeSums_spec (g p : ℕ → ℕ → ℝ) (csp snp : ℕ → ℝ) (n : ℕ) (hs : snp 0 = 0) (hc : csp 0 = 1) :
    let h : ℕ → ℝ := fun m => if m = 0 then 0 else g n (m - 1)
    degreeSums g p csp snp n = (∑ m ∈ Finset.range (n + 1), (g m n * csp m + h m * snp m) * p (n + 1) m,
      ∑ m ∈ Finset.range (n + 1), (g m n * snp m - h m * csp m) * p m n * m, ∑ m ∈ Finset.range (n + 1), (g m n * csp m + h m * snp m) * p m n) := by
  intro h
  have := loop_inv (fun k (t : ℝ × ℝ × ℝ) => t = (∑ m ∈ Finset.range k, (g m n * csp m + h m * snp m) * p (n + 1) m,
      ∑ m ∈ Finset.range k, (g m n * snp m - h m * csp m) * p m n * m, ∑ m ∈ Finset.range k, (g m n * csp m + h m * snp m) * p m n)) (lo := 1) (hi := n)
    (f := fun m t => (t.1 + (g m n * csp m + g n (m - 1) * snp m) * p (n + 1) m, t.2.1 + (g m n * snp m - g n (m - 1) * csp m) * p m n * m,
    t.2.2 + (g m n * csp m + g n (m - 1) * snp m) * p m n)) (s := (g 0 n * p (n + 1) 0, 0, g 0 n * p 0 n)) (by omega)
    (by simp [h, hs, hc])
    (by
      rintro m t h1 h2 rfl
      have : h m = g n (m - 1) := if_neg (by omega)
      simp only [Finset.sum_range_succ, this])
  exact this

theorem fieldSums_spec (g p : ℕ → ℕ → ℝ) (csp snp rar : ℕ → ℝ) (sth : ℝ) (K : ℕ) :
    fieldSums g p csp snp rar sth K = (∑ n ∈ Finset.Icc 1 K, rar n * (degreeSums g p csp snp n).1, (∑ n ∈ Finset.Icc 1 K, rar n * (degreeSums g p csp snp n).2.1) / sth,
      -∑ n ∈ Finset.Icc 1 K, rar n * (degreeSums g p csp snp n).2.2 * ((n : ℝ) + 1)) := by
  rw [fieldSums]
  have := loop_inv (fun k (a : ℝ × ℝ × ℝ) => a = (∑ n ∈ Finset.Ico 1 k, rar n * (degreeSums g p csp snp n).1, ∑ n ∈ Finset.Ico 1 k, rar n * (degreeSums g p csp snp n).2.1,
      -∑ n ∈ Finset.Ico 1 k, rar n * (degreeSums g p csp snp n).2.2 * ((n : ℝ) + 1))) (lo := 1) (hi := K)
    (f := fun n a => let t := degreeSums g p csp snp n; (a.1 + rar n * t.1, a.2.1 + rar n * t.2.1, a.2.2 - rar n * t.2.2 * ((n : ℝ) + 1)))
    (s := ((0 : ℝ), (0 : ℝ), (0 : ℝ))) (by omega) (by simp)
    (by
      rintro n a h1 h2 rfl
      simp only [Finset.sum_Ico_succ_top h1]
      refine Prod.ext rfl (Prod.ext rfl ?_)
      simp only
      ring)
  have e : Finset.Ico 1 (K + 1) = Finset.Icc 1 K := by ext x; simp only [Finset.mem_Ico, Finset.mem_Icc]; omega
  rw [e] at this
  simp only at this ⊢
  rw [this]

end S2E.Igrf
