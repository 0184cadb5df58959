import Verif.Proofs.Lu
import Mathlib.Tactic.NormNum
/-!
# C73: the matrix inverse, in exact arithmetic, for every size
-/
namespace S2E.Lu

variable {K : Type} [Field K] [LinearOrder K] [IsStrictOrderedRing K]

/-- Invariant of the column loop: `A` is the input, `j` columns are done. -/
structure Inv (N : ℕ) (A : ℕ → ℕ → K) (j : ℕ) (s : LuState K) : Prop where
  todo : ∀ r < N, ∀ c < N, j ≤ c → s.a r c = A (perm s.index j r) c
  done : ∀ r < N, ∀ c < j, lu s.a r c = A (perm s.index j r) c
  diag : ∀ c < j, s.a c c ≠ 0
  coef : ∀ r < N, 0 < s.coef r
  index : ∀ i < j, i ≤ s.index i ∧ s.index i < N

/-- One iteration of the column loop keeps the invariant, or throws and exhibits a dependent column. -/
theorem column_step {N : ℕ} {A : ℕ → ℕ → K} {j : ℕ} {s : LuState K} (hj : j < N) (h : Inv N A j s) :
    (∃ s', column N j s = .ok s' ∧ Inv N A (j + 1) s') ∨
    (column N j s = .throws ∧ ∃ x : ℕ → K, ∀ r < N, A r j = ∑ c ∈ Finset.range j, A r c * x c) := by
  obtain ⟨u1, u2⟩ := upper_spec j s.a j le_rfl
  obtain ⟨l1, l2, l3, l4, l5, l6, l7⟩ := lower_spec j s.coef (upper j s.a j) (N - j) fun r _ h2 => h.coef r (by omega)
  have hN : 0 < N - j := by omega
  have l4 := l4 hN
  have l7 := l7 hN
  have hcol : column N j s = if swapRows N (lower j s.coef (upper j s.a j) (N - j)).a j (lower j s.coef (upper j s.a j) (N - j)).imax j j = 0 then .throws
      else .ok ⟨divideColumn N (swapRows N (lower j s.coef (upper j s.a j) (N - j)).a j (lower j s.coef (upper j s.a j) (N - j)).imax) j,
        setCoef s.coef j (lower j s.coef (upper j s.a j) (N - j)).imax,
        fun r => if r = j then (lower j s.coef (upper j s.a j) (N - j)).imax else s.index r⟩ := rfl
  rw [hcol]; clear hcol
  generalize lower j s.coef (upper j s.a j) (N - j) = P at *
  -- facts about the working matrix after the elimination of column j
  obtain ⟨a1, ha1⟩ : ∃ a1, a1 = P.a := ⟨_, rfl⟩
  obtain ⟨p, hp⟩ : ∃ p, p = P.imax := ⟨_, rfl⟩
  rw [← ha1, ← hp]
  rw [← ha1] at l1 l2 l6 l7
  rw [← hp] at l3 l4 l7
  have hpN : p < N := by omega
  have a1_other : ∀ r c, c ≠ j → a1 r c = s.a r c := fun r c hc => by rw [l1 r c (.inl hc), u1 r c (.inl hc)]
  have a1_up : ∀ k < j, a1 k j = upper j s.a j k j := fun k hk => l1 k j (.inr (.inl hk))
  have hA : ∀ r < N, s.a r j = A (perm s.index j r) j := fun r hr => h.todo r hr j hj le_rfl
  have rowlt : ∀ r < j, a1 r j + ∑ k ∈ Finset.range r, a1 r k * a1 k j = A (perm s.index j r) j := by
    intro r hr
    rw [← hA r (by omega), ← u2 r hr, a1_up r hr]
    congr 1
    apply Finset.sum_congr rfl
    intro k hk
    have := Finset.mem_range.1 hk
    rw [a1_up k (by omega), a1_other r k (by omega)]
  have rowge : ∀ r, j ≤ r → r < N → a1 r j + ∑ k ∈ Finset.range j, a1 r k * a1 k j = A (perm s.index j r) j := by
    intro r h1 h2
    rw [← hA r h2, ← u1 r j (.inr h1), ← l2 r h1 (by omega)]
    congr 1
    apply Finset.sum_congr rfl
    intro k hk
    have := Finset.mem_range.1 hk
    rw [a1_up k (by omega), a1_other r k (by omega), u1 r k (.inl (by omega))]
  have lu_old : ∀ r < N, ∀ c < j, lu a1 r c = A (perm s.index j r) c := by
    intro r hr c hc
    rw [← h.done r hr c hc]
    unfold lu
    congr 1
    · apply Finset.sum_congr rfl
      intro k hk
      have := Finset.mem_range.1 hk
      rw [a1_other r k (by omega), a1_other k c (by omega)]
    · rw [a1_other r c (by omega), a1_other c c (by omega)]
  -- the row exchange
  have hsw : ∀ r c, c < N → swapRows N a1 j p r c = a1 (Equiv.swap j p r) c := by
    intro r c hc
    unfold swapRows; rw [if_pos hc, Equiv.swap_apply_def]
    split_ifs <;> rfl
  have hsjj : swapRows N a1 j p j j = a1 p j := by rw [hsw j j hj, Equiv.swap_apply_left]
  rw [hsjj]
  by_cases hz : a1 p j = 0
  · right
    refine ⟨if_pos hz, ?_⟩
    have hb : P.biggest = 0 := by rw [l7, hz, abs_zero, mul_zero]
    have hzero : ∀ r, j ≤ r → r < N → a1 r j = 0 := by
      intro r h1 h2
      have := l6 r h1 (by omega)
      rw [hb] at this
      have hc := h.coef r h2
      have h3 : |a1 r j| ≤ 0 := by
        by_contra hcon
        have := mul_pos hc (not_le.1 hcon)
        linarith
      exact abs_nonpos_iff.1 h3
    obtain ⟨_, bs⟩ := backward_spec j s.a (fun k => a1 k j) h.diag j le_rfl
    refine ⟨backward j s.a (fun k => a1 k j) j, ?_⟩
    intro r' hr'
    obtain ⟨r, hr, hre⟩ := perm_surj s.index j hj.le (fun k hk => (h.index k hk).2) r' hr'
    rw [← hre]
    have e1 : ∑ c ∈ Finset.range j, A (perm s.index j r) c * backward j s.a (fun k => a1 k j) j c =
        ∑ c ∈ Finset.range j, lu s.a r c * backward j s.a (fun k => a1 k j) j c :=
      Finset.sum_congr rfl fun c hc => by rw [h.done r hr c (Finset.mem_range.1 hc)]
    rw [e1, lu_mul]
    have e2 : ∑ k ∈ Finset.range j, lf s.a r k * ∑ c ∈ Finset.range j, uf s.a k c * backward j s.a (fun k => a1 k j) j c =
        ∑ k ∈ Finset.range j, lf s.a r k * a1 k j :=
      Finset.sum_congr rfl fun k hk => by
        rw [uf_sum j s.a _ k (Finset.mem_range.1 hk), bs k (by omega) (Finset.mem_range.1 hk)]
    rw [e2]
    by_cases hrj : r < j
    · rw [lf_sum j s.a _ r hrj, ← rowlt r hrj]
      congr 1
      apply Finset.sum_congr rfl
      intro k hk
      have := Finset.mem_range.1 hk
      rw [a1_other r k (by omega)]
    · rw [← rowge r (by omega) hr, hzero r (by omega) hr, zero_add]
      apply Finset.sum_congr rfl
      intro k hk
      have := Finset.mem_range.1 hk
      rw [a1_other r k (by omega)]
      unfold lf; rw [if_pos (by omega)]
  · left
    refine ⟨_, if_neg hz, ?_⟩
    have hperm : ∀ r, perm (fun r => if r = j then p else s.index r) (j + 1) r = perm s.index j (Equiv.swap j p r) := by
      intro r
      show (perm (fun r => if r = j then p else s.index r) j * Equiv.swap j (if j = j then p else s.index j)) r = _
      rw [perm_congr (i2 := s.index) j fun k hk => if_neg (by omega), if_pos rfl]
      rfl
    -- entries of the divided matrix
    have d_other : ∀ r c, c < N → c ≠ j → divideColumn N (swapRows N a1 j p) j r c = a1 (Equiv.swap j p r) c := by
      intro r c hc hcj
      unfold divideColumn; rw [if_neg (by omega), hsw r c hc]
    have d_up : ∀ r, r ≤ j → divideColumn N (swapRows N a1 j p) j r j = a1 (Equiv.swap j p r) j := by
      intro r hr
      unfold divideColumn; rw [if_neg (by omega), hsw r j hj]
    have d_low : ∀ r, j < r → r < N → divideColumn N (swapRows N a1 j p) j r j * a1 p j = a1 (Equiv.swap j p r) j := by
      intro r hr hrN
      unfold divideColumn; rw [if_pos ⟨rfl, hr, hrN⟩, hsw r j hj, hsw j j hj, Equiv.swap_apply_left]
      field_simp
    have swl : ∀ r, r < j → Equiv.swap j p r = r := fun r hr => Equiv.swap_apply_of_ne_of_ne (by omega) (by omega)
    have swg : ∀ r, j ≤ r → r < N → j ≤ Equiv.swap j p r ∧ Equiv.swap j p r < N := by
      intro r h1 h2
      rw [Equiv.swap_apply_def]; split_ifs <;> omega
    have swN : ∀ r, r < N → Equiv.swap j p r < N := fun r hr => swap_lt hj hpN hr
    constructor
    · intro r hr c hc hjc
      show divideColumn N (swapRows N a1 j p) j r c = A (perm (fun r => if r = j then p else s.index r) (j + 1) r) c
      rw [hperm, d_other r c hc (by omega), a1_other _ c (by omega)]
      exact h.todo _ (swN r hr) c hc (by omega)
    · intro r hr c hc
      show lu (divideColumn N (swapRows N a1 j p) j) r c = A (perm (fun r => if r = j then p else s.index r) (j + 1) r) c
      rw [hperm]
      by_cases hcj : c = j
      · rw [hcj]
        by_cases hrj : r < j
        · rw [swl r hrj, ← rowlt r hrj]
          unfold lu
          rw [min_eq_left (by omega), if_pos (by omega), d_up r (by omega), swl r hrj, add_comm]
          congr 1
          apply Finset.sum_congr rfl
          intro k hk
          have := Finset.mem_range.1 hk
          rw [d_other r k (by omega) (by omega), swl r hrj, d_up k (by omega), swl k (by omega)]
        · obtain ⟨g1, g2⟩ := swg r (by omega) hr
          rw [← rowge _ g1 g2]
          unfold lu
          rw [min_eq_right (by omega), add_comm]
          congr 1
          · by_cases hre : r = j
            · rw [if_pos (by omega), hre, d_up j le_rfl]
            · rw [if_neg (by omega), d_up j le_rfl, Equiv.swap_apply_left, d_low r (by omega) hr]
          · apply Finset.sum_congr rfl
            intro k hk
            have := Finset.mem_range.1 hk
            rw [d_other r k (by omega) (by omega), d_up k (by omega), swl k (by omega)]
      · have hcj : c < j := by omega
        rw [← lu_old _ (swN r hr) c hcj]
        unfold lu
        have hmin : min r c = min (Equiv.swap j p r) c := by
          by_cases hrj : r < j
          · rw [swl r hrj]
          · have := swg r (by omega) hr; omega
        rw [hmin]
        congr 1
        · apply Finset.sum_congr rfl
          intro k hk
          have := Finset.mem_range.1 hk
          rw [d_other r k (by omega) (by omega), d_other k c (by omega) (by omega), swl k (by omega)]
        · rw [d_other r c (by omega) (by omega), d_other c c (by omega) (by omega), swl c hcj]
          have : r ≤ c ↔ Equiv.swap j p r ≤ c := by
            by_cases hrj : r < j
            · rw [swl r hrj]
            · have := swg r (by omega) hr; omega
          simp only [this]
    · intro c hc
      show divideColumn N (swapRows N a1 j p) j c c ≠ 0
      by_cases hcj : c = j
      · rw [hcj, d_up j le_rfl, Equiv.swap_apply_left]; exact hz
      · rw [d_other c c (by omega) hcj, swl c (by omega), a1_other c c hcj]; exact h.diag c (by omega)
    · intro r hr
      show 0 < setCoef s.coef j p r
      unfold setCoef
      split
      · exact h.coef j hj
      · exact h.coef r hr
    · intro i hi
      show i ≤ (if i = j then p else s.index i) ∧ (if i = j then p else s.index i) < N
      split
      · omega
      · exact h.index i (by omega)

/-- The decomposition either succeeds with the invariant for all columns or throws on a matrix with a non-trivial kernel or a zero row. -/
theorem luDecomposition_spec (N : ℕ) (A : ℕ → ℕ → K) :
    (∃ s, luDecomposition N A = .ok s ∧ Inv N A N s) ∨
    (luDecomposition N A = .throws ∧ ((∃ r < N, ∀ c < N, A r c = 0) ∨
      ∃ j < N, ∃ x : ℕ → K, ∀ r < N, A r j = ∑ c ∈ Finset.range j, A r c * x c)) := by
  unfold luDecomposition
  rcases scaling_spec N A N with ⟨coef, h, hp⟩ | ⟨h, hz⟩
  · rw [h]
    show (∃ s, columns N ⟨A, coef, fun _ => 0⟩ N = .ok s ∧ _) ∨ (columns N ⟨A, coef, fun _ => 0⟩ N = .throws ∧ _)
    have main : ∀ n ≤ N, (∃ s, columns N ⟨A, coef, fun _ => 0⟩ n = .ok s ∧ Inv N A n s) ∨
        (columns N ⟨A, coef, fun _ => 0⟩ n = .throws ∧ ∃ j < N, ∃ x : ℕ → K, ∀ r < N, A r j = ∑ c ∈ Finset.range j, A r c * x c) := by
      intro n
      induction n with
      | zero =>
        intro _; left
        exact ⟨_, rfl, ⟨fun r _ c _ _ => rfl, fun r _ c hc => absurd hc (Nat.not_lt_zero _), fun c hc => absurd hc (Nat.not_lt_zero _), hp,
          fun c hc => absurd hc (Nat.not_lt_zero _)⟩⟩
      | succ n ih =>
        intro hn
        have e : columns N ⟨A, coef, fun _ => 0⟩ (n + 1) = (columns N ⟨A, coef, fun _ => 0⟩ n).bind (column N n) := rfl
        rcases ih (by omega) with ⟨s, hs, hi⟩ | ⟨ht, hx⟩
        · rw [e, hs]
          rcases column_step (by omega) hi with ⟨s', h1, h2⟩ | ⟨h1, h2⟩
          · exact .inl ⟨s', h1, h2⟩
          · exact .inr ⟨h1, n, by omega, h2⟩
        · right; rw [e, ht]; exact ⟨rfl, hx⟩
    rcases main N le_rfl with h | ⟨h1, h2⟩
    · exact .inl h
    · exact .inr ⟨h1, .inr h2⟩
  · right; rw [h]; exact ⟨rfl, .inl hz⟩

/-- After a successful decomposition the solver solves the original system, for every right-hand side. -/
theorem solve_spec {N : ℕ} {A : ℕ → ℕ → K} {s : LuState K} (h : Inv N A N s) (b : ℕ → K) :
    ∀ r < N, ∑ c ∈ Finset.range N, A r c * solveLinearSystemWithLu N s.a s.index b c = b r := by
  intro r' hr'
  obtain ⟨r, hr, hre⟩ := perm_surj s.index N le_rfl (fun k hk => (h.index k hk).2) r' hr'
  obtain ⟨_, f2, _, _⟩ := forward_spec N s.a s.index b (fun i hi => (h.index i hi).1) N le_rfl
  obtain ⟨_, bs⟩ := backward_spec N s.a (forward s.a s.index b N).b h.diag N le_rfl
  rw [← hre]
  have e1 : ∑ c ∈ Finset.range N, A (perm s.index N r) c * solveLinearSystemWithLu N s.a s.index b c =
      ∑ c ∈ Finset.range N, lu s.a r c * solveLinearSystemWithLu N s.a s.index b c :=
    Finset.sum_congr rfl fun c hc => by rw [h.done r hr c (Finset.mem_range.1 hc)]
  rw [e1, lu_mul]
  have e2 : ∑ k ∈ Finset.range N, lf s.a r k * ∑ c ∈ Finset.range N, uf s.a k c * solveLinearSystemWithLu N s.a s.index b c =
      ∑ k ∈ Finset.range N, lf s.a r k * (forward s.a s.index b N).b k :=
    Finset.sum_congr rfl fun k hk => by
      rw [uf_sum N s.a _ k (Finset.mem_range.1 hk)]
      show _ * (s.a k k * backward N s.a (forward s.a s.index b N).b N k + _) = _
      rw [← bs k (by omega) (Finset.mem_range.1 hk)]; rfl
  rw [e2, lf_sum N s.a _ r hr]
  exact f2 r hr

theorem ofMatrix_apply {N : ℕ} (m : Matrix (Fin N) (Fin N) K) (i j : Fin N) : ofMatrix m i j = m i j := by
  unfold ofMatrix; rw [dif_pos ⟨i.2, j.2⟩]

/-- **C73.** For a square matrix of any size, the inverse function throws exactly when the matrix is singular, and otherwise returns the
two-sided inverse. -/
theorem C73_inverse {N : ℕ} (m : Matrix (Fin N) (Fin N) K) :
    (m.det = 0 → calcInverseMatrix m = .throws) ∧
    (m.det ≠ 0 → ∃ b, calcInverseMatrix m = .ok b ∧ m * b = 1 ∧ b * m = 1) := by
  have hdec := luDecomposition_spec N (ofMatrix m)
  have hok : ∀ s, luDecomposition N (ofMatrix m) = .ok s → Inv N (ofMatrix m) N s →
      ∃ b, calcInverseMatrix m = .ok b ∧ m * b = 1 ∧ b * m = 1 := by
    intro s hs hi
    have he : calcInverseMatrix m = .ok fun j i => solveLinearSystemWithLu N s.a s.index (fun r => if r = i.val then 1 else 0) j.val := by
      unfold calcInverseMatrix; rw [hs]; rfl
    refine ⟨_, he, ?_⟩
    have h1 : m * Matrix.of (fun j i => solveLinearSystemWithLu N s.a s.index (fun r => if r = i.val then 1 else 0) j.val) = 1 := by
      ext i j
      rw [Matrix.mul_apply]
      simp only [Matrix.of_apply]
      have := solve_spec hi (fun r => if r = j.val then 1 else 0) i.val i.2
      rw [Finset.sum_range] at this
      simp only [ofMatrix_apply] at this
      rw [this, Matrix.one_apply]
      simp only [Fin.ext_iff]
    exact ⟨h1, mul_eq_one_comm.1 h1⟩
  have hthrow : luDecomposition N (ofMatrix m) = .throws → calcInverseMatrix m = .throws := by
    intro h; unfold calcInverseMatrix; rw [h]; rfl
  rcases hdec with ⟨s, hs, hi⟩ | ⟨ht, hsing⟩
  · refine ⟨fun h0 => ?_, fun _ => hok s hs hi⟩
    obtain ⟨b, _, hb, _⟩ := hok s hs hi
    have := congrArg Matrix.det hb
    rw [Matrix.det_mul, h0, zero_mul, Matrix.det_one] at this
    exact absurd this zero_ne_one
  · refine ⟨fun _ => hthrow ht, fun hne => absurd ?_ hne⟩
    rcases hsing with ⟨r, hr, hz⟩ | ⟨j, hj, x, hx⟩
    · apply Matrix.det_eq_zero_of_row_eq_zero ⟨r, hr⟩
      intro c
      exact (ofMatrix_apply m ⟨r, hr⟩ c).symm.trans (hz c.val c.2)
    · rw [← Matrix.exists_mulVec_eq_zero_iff]
      refine ⟨fun c => if c.val < j then x c.val else if c.val = j then -1 else 0, ?_, ?_⟩
      · intro h
        have := congrFun h ⟨j, hj⟩
        simp at this
      · funext r
        have e : Matrix.mulVec m (fun c : Fin N => if c.val < j then x c.val else if c.val = j then -1 else 0) r =
            ∑ c : Fin N, ofMatrix m r.val c.val * (if c.val < j then x c.val else if c.val = j then -1 else 0) := by
          simp only [Matrix.mulVec, dotProduct, ofMatrix_apply]
        rw [e, ← Finset.sum_range (fun c => ofMatrix m r.val c * (if c < j then x c else if c = j then -1 else 0))]
        rw [sum_cut (m := j + 1) (by omega) _ fun k h1 h2 => by rw [if_neg (by omega), if_neg (by omega), mul_zero], Finset.sum_range_succ]
        rw [if_neg (lt_irrefl _), if_pos rfl, hx r.val r.2]
        have : ∑ k ∈ Finset.range j, ofMatrix m r.val k * (if k < j then x k else if k = j then -1 else 0) =
            ∑ k ∈ Finset.range j, ofMatrix m r.val k * x k :=
          Finset.sum_congr rfl fun k hk => by rw [if_pos (Finset.mem_range.1 hk)]
        rw [this]
        show _ = (0 : K)
        ring

-- Non-vacuity: a matrix needing a row exchange (zero in the corner), and a singular one.
example : calcInverseMatrix (K := ℚ) !![0, 2; 1, 3] = .ok !![-3/2, 1; 1/2, 0] := by
  obtain ⟨b, h1, _, h3⟩ := (C73_inverse (K := ℚ) !![0, 2; 1, 3]).2 (by norm_num [Matrix.det_fin_two])
  rw [h1]
  have h4 : (!![0, 2; 1, 3] : Matrix (Fin 2) (Fin 2) ℚ) * !![-3/2, 1; 1/2, 0] = 1 := by
    ext i j; fin_cases i <;> fin_cases j <;> norm_num [Matrix.mul_apply, Fin.sum_univ_two]
  congr 1
  calc b = b * (!![0, 2; 1, 3] * !![-3/2, 1; 1/2, 0]) := by rw [h4, mul_one]
    _ = _ := by rw [← mul_assoc, h3, one_mul]

example : calcInverseMatrix (K := ℚ) !![1, 2; 2, 4] = .throws :=
  (C73_inverse (K := ℚ) !![1, 2; 2, 4]).1 (by norm_num [Matrix.det_fin_two])

end S2E.Lu
