import Verif.Proofs.Igrf3
/-!
# Reading the coefficients
-/
namespace S2E.Igrf

/-- A pair of numbers that is not (0, 0). -/
def NZ (c : ℕ → ℝ × ℝ) (i : ℕ) : Prop := (c i).1 ≠ 0 ∨ (c i).2 ≠ 0

/-- The degree found so far, with the positions up to `i` visited. -/
structure Marked (c : ℕ → ℝ × ℝ) (i n k : ℕ) : Prop where
  upper : ∀ n' i', 1 ≤ n' → n' ^ 2 - 1 < i' → i' ≤ (n' + 1) ^ 2 - 1 → i' ≤ i → NZ c i' → n' ≤ k
  le : k ≤ n
  hit : 1 ≤ k → ∃ i', k ^ 2 - 1 < i' ∧ i' ≤ (k + 1) ^ 2 - 1 ∧ NZ c i'

open Classical in
theorem Marked.step {c : ℕ → ℝ × ℝ} {i n k : ℕ} (h : Marked c i n k) (hn : 1 ≤ n) (h1 : n ^ 2 - 1 < i + 1) (h2 : i + 1 ≤ (n + 1) ^ 2 - 1) :
    Marked c (i + 1) n (if (c (i + 1)).1 ≠ 0 ∨ (c (i + 1)).2 ≠ 0 then n else k) := by
  by_cases e : (c (i + 1)).1 ≠ 0 ∨ (c (i + 1)).2 ≠ 0
  · rw [if_pos e]
    refine ⟨fun n' i' a1 a2 a3 a4 a5 => ?_, le_refl _, fun _ => ⟨i + 1, h1, h2, e⟩⟩
    by_contra hc
    have : (n + 1) ^ 2 ≤ n' ^ 2 := Nat.pow_le_pow_left (by omega) 2
    omega
  · rw [if_neg e]
    refine ⟨fun n' i' a1 a2 a3 a4 a5 => ?_, h.le, h.hit⟩
    by_cases hi : i' = i + 1
    · subst hi; exact absurd a5 e
    · exact h.upper n' i' a1 a2 a3 (by omega) a5

/-- Entries of the arrays for the coefficients of degree `n` and order `m`. -/
def Entry (f : ℕ → ℝ) (v : ℕ → ℕ → ℝ) (n m : ℕ) : Prop := v m n = f (gLine n m) ∧ (1 ≤ m → v n (m - 1) = f (hLine n m))

theorem Entry.set_zero {f : ℕ → ℝ} {v : ℕ → ℕ → ℝ} {n m k : ℕ} {x : ℝ} (h : Entry f v n m) (hm : m ≤ n) (hn : n < k) : Entry f (set2 v 0 k x) n m :=
  ⟨by rw [set2_ne _ _ (by omega)]; exact h.1, fun h1 => by rw [set2_ne _ _ (by omega)]; exact h.2 h1⟩

theorem Entry.set_pair {f : ℕ → ℝ} {v : ℕ → ℕ → ℝ} {n m k j : ℕ} {x y : ℝ} (h : Entry f v n m) (hm : m ≤ n) (hj : 1 ≤ j) (hk : j ≤ k) (hn : n < k ∨ n = k ∧ m < j) :
    Entry f (set2 (set2 v j k x) k (j - 1) y) n m :=
  ⟨by rw [set2_ne _ _ (by omega), set2_ne _ _ (by omega)]; exact h.1, fun h1 => by rw [set2_ne _ _ (by omega), set2_ne _ _ (by omega)]; exact h.2 h1⟩

theorem Entry.new {f : ℕ → ℝ} {v : ℕ → ℕ → ℝ} {k j : ℕ} (hj : 1 ≤ j) (hk : j ≤ k) : Entry f (set2 (set2 v j k (f (gLine k j))) k (j - 1) (f (hLine k j))) k j :=
  ⟨by rw [set2_ne _ _ (by omega), set2_same], fun _ => set2_same _ _ _ _⟩

theorem fillCoefs_spec (c : ℕ → ℝ × ℝ) (N : ℕ) (v0 vt0 : ℕ → ℕ → ℝ) :
    (∀ n, 1 ≤ n → n ≤ N → ∀ m ≤ n, Entry (fun i => (c i).1) (fillCoefs c N v0 vt0).1 n m ∧ Entry (fun i => (c i).2) (fillCoefs c N v0 vt0).2.1 n m) ∧
      Marked c ((N + 1) ^ 2 - 1) N (fillCoefs c N v0 vt0).2.2.2 := by
  have key := loop_inv (fun n (a : (ℕ → ℕ → ℝ) × (ℕ → ℕ → ℝ) × ℕ × ℕ) => (∀ n', 1 ≤ n' → n' < n → ∀ m ≤ n', Entry (fun i => (c i).1) a.1 n' m ∧ Entry (fun i => (c i).2) a.2.1 n' m) ∧
      a.2.2.1 = n ^ 2 - 1 ∧ Marked c a.2.2.1 (n - 1) a.2.2.2) (lo := 1) (hi := N)
    (f := fun n a =>
    let i := a.2.2.1
    loop 1 n (fun m a =>
      let i := a.2.2.1
      (set2 (set2 a.1 m n (c i).1) n (m - 1) (c (i + 1)).1, set2 (set2 a.2.1 m n (c i).2) n (m - 1) (c (i + 1)).2, i + 2,
        (open Classical in if (c (i + 2)).1 ≠ 0 ∨ (c (i + 2)).2 ≠ 0 then n else (if (c (i + 1)).1 ≠ 0 ∨ (c (i + 1)).2 ≠ 0 then n else a.2.2.2))))
      (set2 a.1 0 n (c i).1, set2 a.2.1 0 n (c i).2, i + 1, (open Classical in if (c (i + 1)).1 ≠ 0 ∨ (c (i + 1)).2 ≠ 0 then n else a.2.2.2)))
    (s := (v0, vt0, 0, 0)) (by omega)
    ⟨fun n' h1 h2 => by omega, rfl, fun n' i' h1 h2 h3 h4 => by dsimp only at h4; omega, le_refl _, fun h => by simp at h⟩
    (by
      rintro n ⟨v, vt, i, k⟩ h1 h2 ⟨hE, hi, hM⟩
      dsimp only at hE hi hM ⊢
      have hn2 : 1 ≤ n ^ 2 := Nat.one_le_pow _ _ h1
      have hn3 : (n + 1) ^ 2 = n ^ 2 + 2 * n + 1 := by ring
      have inner := loop_inv (fun m (a : (ℕ → ℕ → ℝ) × (ℕ → ℕ → ℝ) × ℕ × ℕ) =>
          (∀ n', 1 ≤ n' → n' < n → ∀ m ≤ n', Entry (fun i => (c i).1) a.1 n' m ∧ Entry (fun i => (c i).2) a.2.1 n' m) ∧
          (∀ m' < m, Entry (fun i => (c i).1) a.1 n m' ∧ Entry (fun i => (c i).2) a.2.1 n m') ∧
          a.2.2.1 = n ^ 2 + 2 * m - 2 ∧ Marked c a.2.2.1 n a.2.2.2) (lo := 1) (hi := n)
        (f := fun m a =>
      let i := a.2.2.1
      (set2 (set2 a.1 m n (c i).1) n (m - 1) (c (i + 1)).1, set2 (set2 a.2.1 m n (c i).2) n (m - 1) (c (i + 1)).2, i + 2,
        (open Classical in if (c (i + 2)).1 ≠ 0 ∨ (c (i + 2)).2 ≠ 0 then n else (if (c (i + 1)).1 ≠ 0 ∨ (c (i + 1)).2 ≠ 0 then n else a.2.2.2))))
        (s := (set2 v 0 n (c i).1, set2 vt 0 n (c i).2, i + 1, (open Classical in if (c (i + 1)).1 ≠ 0 ∨ (c (i + 1)).2 ≠ 0 then n else k))) (by omega)
        (by
          refine ⟨fun n' a1 a2 m a3 => ⟨(hE n' a1 a2 m a3).1.set_zero a3 a2, (hE n' a1 a2 m a3).2.set_zero a3 a2⟩, fun m' hm' => ?_, ?_, ?_⟩
          · obtain rfl : m' = 0 := by omega
            have hg : gLine n 0 = i := by rw [gLine]; omega
            exact ⟨⟨by dsimp only; rw [set2_same, hg], fun h => by omega⟩, ⟨by dsimp only; rw [set2_same, hg], fun h => by omega⟩⟩
          · dsimp only; omega
          · refine Marked.step ⟨hM.upper, by have := hM.le; omega, hM.hit⟩ h1 (by omega) (by omega))
        (by
          rintro m ⟨v, vt, i, k⟩ b1 b2 ⟨f1, f2, f3, f4⟩
          dsimp only at f1 f2 f3 f4 ⊢
          have hg : gLine n m = i := by rw [gLine]; omega
          have hh : hLine n m = i + 1 := by rw [hLine]; omega
          refine ⟨fun n' a1 a2 m' a3 => ⟨(f1 n' a1 a2 m' a3).1.set_pair a3 b1 b2 (Or.inl a2), (f1 n' a1 a2 m' a3).2.set_pair a3 b1 b2 (Or.inl a2)⟩, fun m' hm' => ?_, by omega, ?_⟩
          · by_cases e : m' = m
            · subst e
              rw [← hh, ← hg]
              exact ⟨Entry.new b1 b2, Entry.new b1 b2⟩
            · exact ⟨(f2 m' (by omega)).1.set_pair (by omega) b1 b2 (Or.inr ⟨rfl, by omega⟩), (f2 m' (by omega)).2.set_pair (by omega) b1 b2 (Or.inr ⟨rfl, by omega⟩)⟩
          · exact Marked.step (Marked.step f4 h1 (by omega) (by omega)) h1 (by omega) (by omega))
      obtain ⟨g1, g2, g3, g4⟩ := inner
      refine ⟨fun n' a1 a2 m a3 => ?_, by rw [g3]; omega, by rw [Nat.add_sub_cancel]; exact g4⟩
      by_cases e : n' = n
      · subst e; exact g2 m (by omega)
      · exact g1 n' a1 (by omega) m a3)
  obtain ⟨k1, k2, k3⟩ := key
  refine ⟨fun n h1 h2 => k1 n h1 (by omega), ?_⟩
  rw [k2] at k3
  exact k3

end S2E.Igrf
