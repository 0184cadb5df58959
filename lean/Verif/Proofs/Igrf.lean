import Verif.Spec.Geomagnetic
import Verif.Proofs.SolidHarmonics
import Mathlib.Tactic.Linarith
import Mathlib.Tactic.FieldSimp
/-!
# The tables of `fcalc`, `tcoef`, `tyear`
-/
namespace S2E.Igrf
open Gravity Polynomial

theorem loop_inv {σ : Type} (P : ℕ → σ → Prop) {lo hi : ℕ} {f : ℕ → σ → σ} {s : σ} (hlo : lo ≤ hi + 1) (h0 : P lo s)
    (hs : ∀ n s, lo ≤ n → n ≤ hi → P n s → P (n + 1) (f n s)) : P (hi + 1) (loop lo hi f s) := by
  rw [loop]
  obtain ⟨k, hk⟩ : ∃ k, hi + 1 = lo + k := ⟨hi + 1 - lo, by omega⟩
  rw [hk, Nat.add_sub_cancel_left]
  have key : ∀ k lo s, P lo s → (∀ n s, lo ≤ n → n < lo + k → P n s → P (n + 1) (f n s)) → P (lo + k) ((List.range' lo k).foldl (fun s n => f n s) s) := by
    intro k
    induction k with
    | zero => intro lo s h _; exact h
    | succ k ih =>
      intro lo s h hs
      rw [List.range'_succ, List.foldl_cons, show lo + (k + 1) = lo + 1 + k by omega]
      exact ih (lo + 1) _ (hs lo s (le_refl _) (by omega) h) fun n s h1 h2 => hs n s (by omega) (by omega)
  exact key k lo s h0 fun n s h1 h2 => hs n s h1 (by omega)

theorem set1_same (a : ℕ → ℝ) (i : ℕ) (v : ℝ) : set1 a i v i = v := by simp [set1]
theorem set1_ne (a : ℕ → ℝ) {i x : ℕ} (v : ℝ) (h : x ≠ i) : set1 a i v x = a x := by simp [set1, h]
theorem set2_same (a : ℕ → ℕ → ℝ) (i j : ℕ) (v : ℝ) : set2 a i j v i j = v := by simp [set2]
theorem set2_ne (a : ℕ → ℕ → ℝ) {i j x y : ℕ} (v : ℝ) (h : x ≠ i ∨ y ≠ j) : set2 a i j v x y = a x y := by
  rw [set2, if_neg (by omega)]

/-! ## Powers and angles -/

theorem calcRar_spec (ra r : ℝ) (K : ℕ) (rar : ℕ → ℝ) : ∀ n ≤ K, calcRar ra r K rar n = (ra / r) ^ (n + 2) := by
  have h := loop_inv (fun k (a : ℕ → ℝ) => ∀ n < k, a n = (ra / r) ^ (n + 2)) (lo := 1) (hi := K) (f := fun n a => set1 a n (a (n - 1) * (ra / r)))
    (s := set1 rar 0 (ra / r * (ra / r))) (by omega)
    (by intro n hn; obtain rfl : n = 0 := by omega
        rw [set1_same]; ring)
    (by
      intro n a h1 h2 ha k hk
      by_cases e : k = n
      · subst e
        rw [set1_same, ha (k - 1) (by omega), ← pow_succ]
        congr 1; omega
      · rw [set1_ne _ _ e]; exact ha k (by omega))
  exact fun n hn => h n (by omega)

theorem calcTrig_spec (phi : ℝ) (K : ℕ) (c s : ℕ → ℝ) :
    ∀ m ≤ K, (calcTrig (Real.cos phi) (Real.sin phi) K c s).1 m = Real.cos (m * phi) ∧ (calcTrig (Real.cos phi) (Real.sin phi) K c s).2 m = Real.sin (m * phi) := by
  have h := loop_inv (fun k (a : (ℕ → ℝ) × (ℕ → ℝ)) => ∀ m < k, a.1 m = Real.cos (m * phi) ∧ a.2 m = Real.sin (m * phi)) (lo := 1) (hi := K)
    (f := fun m a => (set1 a.1 m (a.1 (m - 1) * Real.cos phi - a.2 (m - 1) * Real.sin phi), set1 a.2 m (a.2 (m - 1) * Real.cos phi + a.1 (m - 1) * Real.sin phi)))
    (s := (set1 c 0 1, set1 s 0 0)) (by omega)
    (by intro n hn; obtain rfl : n = 0 := by omega
        simp [set1_same])
    (by
      intro n a h1 h2 ha k hk
      by_cases e : k = n
      · subst e
        obtain ⟨b, rfl⟩ : ∃ b, k = b + 1 := ⟨k - 1, by omega⟩
        obtain ⟨a1, a2⟩ := ha b (by omega)
        simp only [set1_same, Nat.add_sub_cancel, a1, a2]
        push_cast
        rw [add_mul, one_mul, Real.cos_add, Real.sin_add]
        exact ⟨rfl, by ring⟩
      · simp only [set1_ne _ _ e]; exact ha k (by omega))
  exact fun n hn => h n (by omega)

/-! ## Legendre functions -/

/-- Associated Legendre function, from cosine and sine of the colatitude. -/
noncomputable def PP (c s : ℝ) (n m : ℕ) : ℝ := s ^ m * (dl n m).eval c

/-- Its derivative with respect to the colatitude. -/
noncomputable def QQ (c s : ℝ) (n m : ℕ) : ℝ := m * s ^ (m - 1) * c * (dl n m).eval c - s ^ (m + 1) * (dl n (m + 1)).eval c

theorem eval_dl_B2 (n m : ℕ) (u : ℝ) : (dl n (m + 1)).eval u + (n - m + 1) * (dl (n + 1) m).eval u = u * (dl (n + 1) (m + 1)).eval u := by
  simpa using congrArg (eval u) (dl_B2 n m)

theorem eval_dl_rec (n m : ℕ) (u : ℝ) : (n + 2 - m) * (dl (n + 2) m).eval u = (2 * n + 3) * u * (dl (n + 1) m).eval u - (n + m + 1) * (dl n m).eval u := by
  simpa using congrArg (eval u) (dl_rec n m)

variable {c s : ℝ}

theorem PP_zero (n : ℕ) : ((n : ℝ) + 2) * PP c s (n + 2) 0 = (2 * n + 3) * c * PP c s (n + 1) 0 - (n + 1) * PP c s n 0 := by
  have := eval_dl_rec n 0 c
  simp only [PP, pow_zero, one_mul]
  push_cast at this
  linear_combination this

theorem PP_diag (n : ℕ) : PP c s (n + 1) (n + 1) = PP c s n n * s * (2 * n + 1) := by
  simp only [PP, dl_diag]
  simp
  ring

/-- `sin θ P(n+1,m+1) = (n+m+1) P(n,m) - (n-m+1) cos θ P(n+1,m)`. -/
theorem PP_low (h : s ^ 2 + c ^ 2 = 1) (n m : ℕ) : s * PP c s (n + 1) (m + 1) = PP c s n m * (n + m + 1) - PP c s (n + 1) m * c * (n - m + 1) := by
  have h1 := eval_dl_B n m c
  have h2 := eval_dl_A n m c
  simp only [PP]
  rw [h1, pow_succ]
  generalize (dl n m).eval c = A at *
  generalize (dl (n + 1) m).eval c = B at *
  generalize (dl n (m + 1)).eval c = D at *
  generalize s ^ m = w at *
  linear_combination (w * c) * h2 + w * (n + m + 1) * A * h + w * c * D * h

/-- `cos θ P(n+1,m+1) = P(n,m+1) + (n-m+1) sin θ P(n+1,m)`. -/
theorem PP_polar (n m : ℕ) : c * PP c s (n + 1) (m + 1) = PP c s n (m + 1) + PP c s (n + 1) m * s * (n - m + 1) := by
  have h1 := eval_dl_B2 n m c
  simp only [PP]
  rw [pow_succ]
  generalize s ^ m = w at *
  linear_combination -(w * s) * h1

theorem QQ_zero (n : ℕ) : QQ c s n 0 = -PP c s n 1 := by simp [QQ, PP]

/-- `2 Q(n,m+1) = (n+m+1)(n-m) P(n,m) - P(n,m+2)`. -/
theorem QQ_mid (h : s ^ 2 + c ^ 2 = 1) (n m : ℕ) : 2 * QQ c s n (m + 1) = PP c s n m * (n + (m + 1)) * (n - (m + 1) + 1) - PP c s n (m + 2) := by
  have key : 2 * (m + 1) * c * (dl n (m + 1)).eval c - (1 - c ^ 2) * (dl n (m + 2)).eval c = (n + m + 1) * (n - m) * (dl n m).eval c := by
    rcases n with _ | n
    · have e1 : dl 0 (m + 1) = 0 := by
        have := dl_zero 0
        induction m with
        | zero => exact this
        | succ m ih => rw [← dl_succ, ih]; simp
      have e2 : dl 0 (m + 2) = 0 := by rw [← dl_succ, e1]; simp
      rw [e1, e2]
      rcases m with _ | m
      · simp
      · have : dl 0 (m + 1) = 0 := by
          have := dl_zero 0
          clear e1 e2
          induction m with
          | zero => exact this
          | succ m ih => rw [← dl_succ, ih]; simp
        rw [this]; simp
    · have h1 := eval_dl_C n m c
      have h2 := eval_dl_B2 n m c
      have h3 := eval_dl_A n m c
      have h4 := eval_dl_B n m c
      push_cast
      linear_combination h1 - 2 * (m + 1) * h2
  simp only [QQ, PP, Nat.add_sub_cancel]
  rw [show m + 1 + 1 = m + 2 by ring] at *
  push_cast
  have hc : 1 - c ^ 2 = s ^ 2 := by linear_combination -h
  rw [hc] at key
  rw [pow_add s m 2]
  generalize s ^ m = w at *
  linear_combination w * key

theorem QQ_diag (n : ℕ) : QQ c s (n + 1) (n + 1) = (PP c s n n * c + QQ c s n n * s) * (2 * n + 1) := by
  have h0 : (dl n (n + 1)) = 0 := dl_zero n
  have h1 : (dl (n + 1) (n + 1 + 1)) = 0 := dl_zero (n + 1)
  simp only [QQ, PP, h0, h1, dl_diag, Nat.add_sub_cancel]
  simp
  rcases n with _ | n
  · simp [mul_comm]
  · simp
    ring

/-- The table up to degree `K`. -/
def Filled (c s : ℝ) (K : ℕ) (p : ℕ → ℕ → ℝ) : Prop := ∀ n m, m ≤ n → n ≤ K → p m n = PP c s n m ∧ p (n + 1) m = QQ c s n m

theorem legendreDegree_spec (h : s ^ 2 + c ^ 2 = 1) (hs : 0 < s) (n : ℕ) (p : ℕ → ℕ → ℝ) (hp : Filled c s (n + 1) p) : Filled c s (n + 2) (legendreDegree c s (n + 2) p) := by
  have hc : ¬s > 0.175 → c ≠ 0 := by
    rintro h1 rfl
    nlinarith
  rw [legendreDegree]
  set p1 := set2 p 0 (n + 2) ((p 0 (n + 2 - 1) * c * (((n + 2 : ℕ) : ℝ) + (n + 2 : ℕ) - 1) - p 0 (n + 2 - 2) * (((n + 2 : ℕ) : ℝ) - 1)) / (n + 2 : ℕ)) with hp1
  have f1 : Filled c s (n + 1) p1 ∧ p1 0 (n + 2) = PP c s (n + 2) 0 := by
    constructor
    · intro k m h1 h2
      rw [hp1, set2_ne _ _ (by omega), set2_ne _ _ (by omega)]
      exact hp k m h1 h2
    · rw [hp1, set2_same, (hp (n + 2 - 1) 0 (by omega) (by omega)).1, (hp (n + 2 - 2) 0 (by omega) (by omega)).1]
      have := PP_zero (c := c) (s := s) n
      simp only [show n + 2 - 1 = n + 1 by omega, show n + 2 - 2 = n by omega]
      push_cast
      rw [div_eq_iff (by positivity)]
      linear_combination -this
  set p2 := loop 1 (n + 2 - 1) (legendreRow c s (n + 2)) p1 with hp2
  have f2 : Filled c s (n + 1) p2 ∧ ∀ m < n + 2, p2 m (n + 2) = PP c s (n + 2) m := by
    have := loop_inv (fun k (q : ℕ → ℕ → ℝ) => Filled c s (n + 1) q ∧ ∀ m < k, q m (n + 2) = PP c s (n + 2) m) (lo := 1) (hi := n + 2 - 1)
      (f := legendreRow c s (n + 2)) (s := p1) (by omega) ⟨f1.1, fun m hm => by obtain rfl : m = 0 := by omega
                                                                                exact f1.2⟩
      (by
        rintro m q h1 h2 ⟨q1, q2⟩
        obtain ⟨b, rfl⟩ : ∃ b, m = b + 1 := ⟨m - 1, by omega⟩
        have hnew : legendreRow c s (n + 2) (b + 1) q = set2 q (b + 1) (n + 2) (PP c s (n + 2) (b + 1)) := by
          have a1 := q2 b (by omega)
          have a2 := (q1 (n + 1) b (by omega) (by omega)).1
          have a3 := (q1 (n + 1) (b + 1) (by omega) (by omega)).1
          have b1 := PP_low h (n + 1) b
          have b2 := PP_polar (c := c) (s := s) (n + 1) b
          rw [legendreRow]
          split_ifs with hb
          · congr 1
            rw [Nat.add_sub_cancel, show n + 2 - 1 = n + 1 by omega, a1, a2, div_eq_iff hs.ne']
            push_cast at b1 ⊢
            linear_combination -b1
          · congr 1
            rw [Nat.add_sub_cancel, show n + 2 - 1 = n + 1 by omega, a1, a3, div_eq_iff (hc hb)]
            push_cast at b2 ⊢
            linear_combination -b2
        rw [hnew]
        constructor
        · intro k m h3 h4
          rw [set2_ne _ _ (by omega), set2_ne _ _ (by omega)]
          exact q1 k m h3 h4
        · intro m hm
          by_cases e : m = b + 1
          · rw [e, set2_same]
          · rw [set2_ne _ _ (by omega)]; exact q2 m (by omega))
    rw [show n + 2 - 1 + 1 = n + 2 by omega] at this
    exact this
  have f3 : (∀ k m, m ≤ k → k ≤ n + 1 → set2 p2 (n + 2) (n + 2) (p2 (n + 2 - 1) (n + 2 - 1) * s * (((n + 2 : ℕ) : ℝ) + (n + 2 : ℕ) - 1)) (k + 1) m = QQ c s k m) ∧
      ∀ k m, m ≤ k → k ≤ n + 2 → set2 p2 (n + 2) (n + 2) (p2 (n + 2 - 1) (n + 2 - 1) * s * (((n + 2 : ℕ) : ℝ) + (n + 2 : ℕ) - 1)) m k = PP c s k m := by
    constructor
    · intro k m h1 h2
      rw [set2_ne _ _ (by omega)]
      exact (f2.1 k m h1 h2).2
    · intro k m h1 h2
      by_cases e : k = n + 2
      · subst e
        by_cases e2 : m = n + 2
        · rw [e2, set2_same, show n + 2 - 1 = n + 1 by omega, (f2.1 (n + 1) (n + 1) (by omega) (by omega)).1, PP_diag (n + 1)]
          push_cast; ring
        · rw [set2_ne _ _ (by omega)]; exact f2.2 m (by omega)
      · rw [set2_ne _ _ (by omega)]; exact (f2.1 k m h1 (by omega)).1
  set p3 := set2 p2 (n + 2) (n + 2) (p2 (n + 2 - 1) (n + 2 - 1) * s * (((n + 2 : ℕ) : ℝ) + (n + 2 : ℕ) - 1)) with hp3
  have f4 : (∀ k m, m ≤ k → k ≤ n + 1 → set2 p3 (n + 2 + 1) 0 (-p3 1 (n + 2)) (k + 1) m = QQ c s k m) ∧
      (∀ k m, m ≤ k → k ≤ n + 2 → set2 p3 (n + 2 + 1) 0 (-p3 1 (n + 2)) m k = PP c s k m) ∧ set2 p3 (n + 2 + 1) 0 (-p3 1 (n + 2)) (n + 2 + 1) 0 = QQ c s (n + 2) 0 := by
    refine ⟨?_, ?_, ?_⟩
    · intro k m h1 h2
      rw [set2_ne _ _ (by omega)]
      exact f3.1 k m h1 h2
    · intro k m h1 h2
      rw [set2_ne _ _ (by omega)]
      exact f3.2 k m h1 h2
    · rw [set2_same, f3.2 (n + 2) 1 (by omega) (by omega), QQ_zero]
  set p4 := set2 p3 (n + 2 + 1) 0 (-p3 1 (n + 2)) with hp4
  set p5 := loop 1 (n + 2 - 1) (slopeRow (n + 2)) p4 with hp5
  have f5 : (∀ k m, m ≤ k → k ≤ n + 1 → p5 (k + 1) m = QQ c s k m) ∧ (∀ k m, m ≤ k → k ≤ n + 2 → p5 m k = PP c s k m) ∧ ∀ m < n + 2, p5 (n + 2 + 1) m = QQ c s (n + 2) m := by
    have := loop_inv (fun k (q : ℕ → ℕ → ℝ) => (∀ k m, m ≤ k → k ≤ n + 1 → q (k + 1) m = QQ c s k m) ∧ (∀ k m, m ≤ k → k ≤ n + 2 → q m k = PP c s k m) ∧
      ∀ m < k, q (n + 2 + 1) m = QQ c s (n + 2) m) (lo := 1) (hi := n + 2 - 1) (f := slopeRow (n + 2)) (s := p4) (by omega)
      ⟨f4.1, f4.2.1, fun m hm => by obtain rfl : m = 0 := by omega
                                    exact f4.2.2⟩
      (by
        rintro m q h1 h2 ⟨q1, q2, q3⟩
        obtain ⟨b, rfl⟩ : ∃ b, m = b + 1 := ⟨m - 1, by omega⟩
        have hnew : slopeRow (n + 2) (b + 1) q = set2 q (n + 2 + 1) (b + 1) (QQ c s (n + 2) (b + 1)) := by
          rw [slopeRow]
          congr 1
          have := QQ_mid h (n + 2) b
          rw [Nat.add_sub_cancel, q2 (n + 2) b (by omega) (by omega), q2 (n + 2) (b + 1 + 1) (by omega) (by omega)]
          push_cast at this ⊢
          rw [show b + 1 + 1 = b + 2 by omega]
          linarith
        rw [hnew]
        refine ⟨?_, ?_, ?_⟩
        · intro k m h3 h4
          rw [set2_ne _ _ (by omega)]
          exact q1 k m h3 h4
        · intro k m h3 h4
          rw [set2_ne _ _ (by omega)]
          exact q2 k m h3 h4
        · intro m hm
          by_cases e : m = b + 1
          · rw [e, set2_same]
          · rw [set2_ne _ _ (by omega)]; exact q3 m (by omega))
    rw [show n + 2 - 1 + 1 = n + 2 by omega] at this
    exact this
  intro k m h1 h2
  refine ⟨?_, ?_⟩
  · rw [set2_ne _ _ (by omega)]; exact f5.2.1 k m h1 h2
  · by_cases e : k = n + 2
    · subst e
      by_cases e2 : m = n + 2
      · subst e2
        rw [set2_same, show n + 2 - 1 = n + 1 by omega, f5.2.1 (n + 1) (n + 1) (by omega) (by omega), f5.1 (n + 1) (n + 1) (by omega) (by omega), QQ_diag (n + 1)]
        push_cast; ring
      · rw [set2_ne _ _ (by omega)]; exact f5.2.2 m (by omega)
    · rw [set2_ne _ _ (by omega)]; exact f5.1 k m h1 (by omega)

theorem dl_01 : dl 0 1 = 0 := dl_zero 0
theorem dl_10 : dl 1 0 = X := by have := dl_first 0; simpa [dl_00] using this
theorem dl_11 : dl 1 1 = 1 := by have := dl_diag 0; simpa [dl_00] using this
theorem dl_12 : dl 1 2 = 0 := dl_zero 1

theorem calcP_spec (h : s ^ 2 + c ^ 2 = 1) (hs : 0 < s) (K : ℕ) (p : ℕ → ℕ → ℝ) : Filled c s K (calcP c s K p) := by
  have h1 : Filled c s 1 (set2 (set2 (set2 (set2 (set2 (set2 p 0 0 1) 1 0 0) 0 1 c) 2 0 (-s)) 1 1 s) 2 1 c) := by
    intro n m hm hn
    obtain ⟨rfl, rfl⟩ | ⟨rfl, rfl⟩ | ⟨rfl, rfl⟩ : n = 0 ∧ m = 0 ∨ n = 1 ∧ m = 0 ∨ n = 1 ∧ m = 1 := by omega
    · simp [set2, PP, QQ, dl_00, dl_01]
    · simp [set2, PP, QQ, dl_10, dl_11]
    · simp [set2, PP, QQ, dl_11, dl_12]
  rw [calcP]
  by_cases hK : K ≤ 1
  · have : ∀ q, loop 2 K (legendreDegree c s) q = q := by
      intro q; rw [loop, show K + 1 - 2 = 0 by omega]; rfl
    simp only [this]
    exact fun n m hm hn => h1 n m hm (by omega)
  · have := loop_inv (fun k q => Filled c s (k - 1) q) (lo := 2) (hi := K) (f := legendreDegree c s) (by omega) h1
      (by
        intro n q h2 h3 hq
        obtain ⟨b, rfl⟩ : ∃ b, n = b + 2 := ⟨n - 2, by omega⟩
        exact legendreDegree_spec h hs b q hq)
    exact this

end S2E.Igrf
