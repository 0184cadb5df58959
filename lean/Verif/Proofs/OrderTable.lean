import Verif.Proofs.Butcher

/-! # Checking the order conditions of a concrete method

All pairs (product of the densities of the subtrees, elementary weights) of rooted trees, computed by the number of vertices above the
root. The kernel evaluates the table; the theorem `mem_forest` says that it misses no tree. -/

namespace S2E.Butcher

open Finset

/-- Product of the densities of the trees of a forest, and the factor the forest contributes to the weights of each stage. -/
abbrev Entry := ℚ × List ℚ

/-- Multiply the forest `g` by the tree whose root carries the forest `t` with `k` vertices. -/
def graft (s : ℕ) (a : ℕ → ℕ → ℚ) (k : ℕ) (t g : Entry) : Entry :=
  (((1 + k : ℕ) : ℚ) * t.1 * g.1,
    (List.range s).map fun i =>
      ((List.range s).foldr (fun j acc => a i j * t.2.getD j 0 + acc) 0) * g.2.getD i 0)

/-- One more row of the table. -/
def nextRow (s : ℕ) (a : ℕ → ℕ → ℚ) (tab : List (List Entry)) : List Entry :=
  (List.range tab.length).flatMap fun k =>
    (tab.getD k []).flatMap fun t => (tab.getD (tab.length - 1 - k) []).map fun g => graft s a k t g

/-- Rows `0..n` of the table. -/
def table (s : ℕ) (a : ℕ → ℕ → ℚ) : ℕ → List (List Entry)
  | 0 => [[(1, (List.range s).map fun _ => 1)]]
  | n + 1 => table s a n ++ [nextRow s a (table s a n)]

/-- Forests with `n` vertices. -/
def forest (s : ℕ) (a : ℕ → ℕ → ℚ) (n : ℕ) : List Entry := (table s a n).getD n []

theorem table_length (s : ℕ) (a : ℕ → ℕ → ℚ) (n : ℕ) : (table s a n).length = n + 1 := by
  induction n with
  | zero => rfl
  | succ n ih => simp [table, ih]

theorem table_getD (s : ℕ) (a : ℕ → ℕ → ℚ) (n k : ℕ) (hk : k ≤ n) :
    (table s a n).getD k [] = forest s a k := by
  induction n with
  | zero => obtain rfl : k = 0 := by omega
            rfl
  | succ n ih =>
    rcases Nat.lt_or_ge k (n + 1) with h | h
    · rw [← ih (by omega)]
      have : k < (table s a n).length := by rw [table_length]; omega
      simp [table, List.getD_eq_getElem?_getD, List.getElem?_append_left this]
    · obtain rfl : k = n + 1 := by omega
      rfl

theorem forest_succ (s : ℕ) (a : ℕ → ℕ → ℚ) (n : ℕ) :
    forest s a (n + 1) = (List.range (n + 1)).flatMap fun k =>
      (forest s a k).flatMap fun t => (forest s a (n - k)).map fun g => graft s a k t g := by
  have h : (table s a (n + 1)).getD (n + 1) [] = nextRow s a (table s a n) := by
    simp [table, List.getD_eq_getElem?_getD, List.getElem?_append_right, table_length]
  rw [forest, h, nextRow, table_length]
  refine List.flatMap_congr fun k hk => ?_
  have hk' : k ≤ n := by simpa [Nat.lt_succ_iff] using hk
  rw [table_getD s a n k hk', show n + 1 - 1 - k = n - k by omega, table_getD s a n (n - k) (by omega)]

theorem foldr_range (s : ℕ) (g : ℕ → ℚ) :
    (List.range s).foldr (fun j acc => g j + acc) 0 = ∑ j ∈ range s, g j := by
  have : ∀ (l : List ℕ), l.foldr (fun j acc => g j + acc) 0 = (l.map g).sum := by
    intro l; induction l with
    | nil => rfl
    | cons x l ih => simp [ih]
  rw [this, ← Finset.sum_map_toList]
  have h := List.sum_toFinset g (List.nodup_range (n := s))
  rw [List.toFinset_range] at h
  rw [← h, Finset.sum_map_toList]

/-- The entry of the children of a root. -/
def entry (s : ℕ) (a : ℕ → ℕ → ℚ) {m : ℕ} (c : Fin m → Tree) : Entry :=
  (∏ l, (c l).density, (List.range s).map fun i => ∏ l, ∑ j ∈ range s, a i j * (c l).weight s a j)

theorem mem_forest (s : ℕ) (a : ℕ → ℕ → ℚ) (N : ℕ) :
    ∀ (m : ℕ) (c : Fin m → Tree), ∑ l, (c l).size = N → entry s a c ∈ forest s a N := by
  induction N using Nat.strong_induction_on with
  | _ N ih =>
    intro m c hN
    cases m with
    | zero =>
      simp only [univ_eq_empty, sum_empty] at hN
      subst hN
      simp [entry, forest, table]
    | succ m =>
      rw [Fin.sum_univ_succ] at hN
      rcases h0 : c 0 with ⟨m', c'⟩
      rw [h0] at hN
      simp only [Tree.size] at hN
      obtain ⟨n, rfl⟩ : ∃ n, N = n + 1 := ⟨N - 1, by omega⟩
      set k := ∑ l, (c' l).size with hk
      have hkn : k ≤ n := by omega
      have h1 := ih k (by omega) m' c' rfl
      have h2 := ih (n - k) (by omega) m (fun l => c l.succ) (by omega)
      rw [forest_succ, List.mem_flatMap]
      refine ⟨k, by simpa [Nat.lt_succ_iff] using hkn, ?_⟩
      rw [List.mem_flatMap]
      refine ⟨_, h1, ?_⟩
      rw [List.mem_map]
      refine ⟨_, h2, ?_⟩
      refine Prod.ext ?_ ?_
      · simp only [graft, entry, Fin.prod_univ_succ, h0, Tree.density, hk]
      · simp only [graft, entry]
        refine List.map_congr_left fun i hi => ?_
        have hi' : i < s := by simpa using hi
        rw [foldr_range, Fin.prod_univ_succ, h0]
        congr 1
        · refine sum_congr rfl fun j hj => ?_
          have hj' : j < s := by simpa using hj
          simp [List.getD_eq_getElem?_getD, hj', Tree.weight]
        · simp [List.getD_eq_getElem?_getD, hi']

/-- The order conditions as a finite table check. -/
def orderCheck (s : ℕ) (a : ℕ → ℕ → ℚ) (b : ℕ → ℚ) (p : ℕ) : Bool :=
  (List.range p).all fun N => (forest s a N).all fun e =>
    (List.range s).foldr (fun i acc => b i * e.2.getD i 0 + acc) 0 * (((1 + N : ℕ) : ℚ) * e.1) == 1

theorem hasOrder_of_check {s : ℕ} {a : ℕ → ℕ → ℚ} {b : ℕ → ℚ} {p : ℕ} (h : orderCheck s a b p = true) :
    HasOrder s a b p := by
  rintro ⟨m, c⟩ hτ
  simp only [Tree.size] at hτ
  simp only [orderCheck, List.all_eq_true, List.mem_range, beq_iff_eq] at h
  have := h (∑ l, (c l).size) (by omega) _ (mem_forest s a _ m c rfl)
  rw [foldr_range] at this
  have hd : (Tree.node m c).density = ((1 + ∑ l, (c l).size : ℕ) : ℚ) * (entry s a c).1 := rfl
  rw [hd, eq_div_iff, ← this]
  · congr 1
    refine sum_congr rfl fun i hi => ?_
    have hi' : i < s := by simpa using hi
    simp [entry, List.getD_eq_getElem?_getD, hi', Tree.weight]
  · intro h0
    rw [h0, mul_zero] at this
    exact zero_ne_one this

/-- The order conditions of a dense output whose weights are `∑ₖ d i k σ^(k+1)`, `k < deg`: a finite table check. -/
def denseCheck (s : ℕ) (a : ℕ → ℕ → ℚ) (d : ℕ → ℕ → ℚ) (deg p : ℕ) : Bool :=
  decide (p ≤ deg) && (List.range p).all fun N => (forest s a N).all fun e => (List.range deg).all fun k =>
    (List.range s).foldr (fun i acc => d i k * e.2.getD i 0 + acc) 0 * (((1 + N : ℕ) : ℚ) * e.1) ==
      if k = N then 1 else 0

theorem dense_of_check {s : ℕ} {a : ℕ → ℕ → ℚ} {d : ℕ → ℕ → ℚ} {deg p : ℕ} (h : denseCheck s a d deg p = true)
    (σ : ℝ) (τ : Tree) (hτ : τ.size ≤ p) :
    ∑ i ∈ range s, (∑ k ∈ range deg, (d i k : ℝ) * σ ^ (k + 1)) * (τ.weight s a i : ℝ)
      = σ ^ τ.size / (τ.density : ℝ) := by
  obtain ⟨m, c⟩ := τ
  have hdne := (Tree.node m c).density_ne_zero
  have hd : (Tree.node m c).density = ((1 + ∑ l, (c l).size : ℕ) : ℚ) * (entry s a c).1 := rfl
  simp only [Tree.size] at hτ
  simp only [denseCheck, Bool.and_eq_true, decide_eq_true_eq, List.all_eq_true, List.mem_range, beq_iff_eq] at h
  obtain ⟨hpd, h⟩ := h
  set N := ∑ l, (c l).size with hN
  have key : ∀ k < deg, ∑ i ∈ range s, (d i k : ℝ) * ((Tree.node m c).weight s a i : ℝ) =
      if k = N then 1 / ((Tree.node m c).density : ℝ) else 0 := by
    intro k hk
    have := h N (by omega) _ (mem_forest s a _ m c hN.symm) k hk
    rw [foldr_range, ← hd] at this
    have e : ∑ j ∈ range s, d j k * (entry s a c).2.getD j 0 =
        ∑ i ∈ range s, d i k * (Tree.node m c).weight s a i := by
      refine sum_congr rfl fun i hi => ?_
      have hi' : i < s := by simpa using hi
      simp [entry, List.getD_eq_getElem?_getD, hi', Tree.weight]
    rw [e] at this
    have h2 : ∑ i ∈ range s, d i k * (Tree.node m c).weight s a i =
        if k = N then 1 / (Tree.node m c).density else 0 := by
      by_cases hkN : k = N
      · rw [if_pos hkN] at this ⊢
        rw [eq_div_iff hdne]; exact this
      · rw [if_neg hkN] at this ⊢
        rcases mul_eq_zero.1 this with h | h
        · exact h
        · exact absurd h hdne
    have h3 := congrArg (fun q : ℚ => (q : ℝ)) h2
    push_cast at h3
    rw [h3]
    split <;> simp
  simp only [sum_mul]
  rw [sum_comm]
  have : ∀ k ∈ range deg, ∑ i ∈ range s, (d i k : ℝ) * σ ^ (k + 1) * ((Tree.node m c).weight s a i : ℝ) =
      if k = N then σ ^ (k + 1) / ((Tree.node m c).density : ℝ) else 0 := by
    intro k hk
    have h1 := key k (mem_range.1 hk)
    have : ∑ i ∈ range s, (d i k : ℝ) * σ ^ (k + 1) * ((Tree.node m c).weight s a i : ℝ) =
        σ ^ (k + 1) * ∑ i ∈ range s, (d i k : ℝ) * ((Tree.node m c).weight s a i : ℝ) := by
      rw [mul_sum]; refine sum_congr rfl fun i _ => by ring
    rw [this, h1]
    split <;> ring
  rw [sum_congr rfl this, sum_ite_eq' (range deg) N]
  rw [if_pos (mem_range.2 (by omega))]
  simp only [Tree.size, ← hN]
  rw [add_comm 1 N]

end S2E.Butcher
